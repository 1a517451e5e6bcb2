import Verif.Lemmas.ColumnJson

/-! Helper lemmas about compilers, options and columns as JSON. -/

namespace Verif.ColumnJson

open Verif
open Verif.Schema (Key)
open Verif.Spec.ColumnJson

variable {F T L : Type} {lib : Lib F T L}

/-! ### Compilers -/

theorem ordered_eq : ∀ (cs : List Cls) (d : List (Key × Val F T L)), (cs.map Cls.type).Nodup →
    (d.map Prod.fst).Sublist (cs.map fun c => Key.str c.type) → ordered cs d = d
  | [], d, _, h => by
    have : d = [] := by simpa using h
    subst this; rfl
  | c :: cs, d, hn, h => by
    rw [List.map_cons, List.nodup_cons] at hn
    have hout : ∀ e : List (Key × Val F T L), (e.map Prod.fst).Sublist (cs.map fun c => Key.str c.type) →
        PyDict.get? e (.str c.type) = none := by
      intro e he
      rw [PyDict.get?_eq_none_iff]
      intro hm
      have := he.subset hm
      obtain ⟨c', hc', h'⟩ := List.mem_map.1 this
      exact hn.1 (List.mem_map.2 ⟨c', hc', Key.str.inj h'⟩)
    cases d with
    | nil =>
      have hh : ∀ cs : List Cls, ordered cs ([] : Dict F T L) = [] := by
        intro cs; induction cs with
        | nil => rfl
        | cons c cs _ => simp [ordered]
      exact hh _
    | cons x d =>
      obtain ⟨k, v⟩ := x
      rw [List.map_cons, List.map_cons] at h
      cases h with
      | cons _ h =>
        rw [← List.map_cons (f := Prod.fst) (a := (k, v))] at h
        have ih := ordered_eq cs ((k, v) :: d) hn.2 h
        unfold ordered at ih ⊢
        rw [List.filterMap_cons, hout _ h]
        exact ih
      | cons_cons _ h =>
        have ih := ordered_eq cs d hn.2 h
        have hrest : ∀ cs' : List Cls, c.type ∉ cs'.map Cls.type → ordered cs' ((Key.str c.type, v) :: d) = ordered cs' d := by
          intro cs' hcs
          unfold ordered
          refine List.filterMap_congr fun c' hc' => ?_
          rw [PyDict.get?_cons, if_neg]
          intro hc
          exact hcs (List.mem_map.2 ⟨c', hc', (Key.str.inj hc).symm⟩)
        unfold ordered
        rw [List.filterMap_cons, PyDict.get?_cons, if_pos rfl]
        have := (hrest cs hn.1).trans ih
        unfold ordered at this
        simp only [Option.map_some]
        rw [this]

theorem compiler_find {c : String} (h : members c ≠ []) :
    ∃ cs : List Cls, compilerOf c = .ok (c, cs) ∧ members c = cs.map (fun k => (k.type, k)) ∧ (cs.map Cls.type).Nodup := by
  unfold members at h
  split at h
  · exact ⟨[.datetime, .int, .float, .text], by decide +kernel, rfl, by decide +kernel⟩
  · exact ⟨[.order, .category], by decide +kernel, rfl, by decide +kernel⟩
  · exact ⟨[.labeler], by decide +kernel, rfl, by decide +kernel⟩
  · exact absurd rfl h

theorem name_eq (k : Cls) : CompilerOk.name' k = k.name := by cases k <;> rfl

/-- A compiler, written, read and loaded. -/
theorem compiler_trip (hl : LibOk lib) {v : Val F T L} (h : CompilerOk lib v) :
    Trip lib (loadCompiler lib) v fun u => Same lib v u ∧ CompilerOk lib u := by
  obtain ⟨c, a, name, d, rfl, hm, rfl, hn, hs, hc⟩ := h
  obtain ⟨cs, c1, c2, c3⟩ := compiler_find hm
  have hs' : (d.map Prod.fst).Sublist (cs.map fun c => Key.str c.type) := by
    rw [c2, List.map_map] at hs; exact hs
  have hdk : StrKeys d := by
    refine ⟨hs'.nodup ?_, fun k hk => ?_⟩
    · have := List.Nodup.map (f := Key.str) (fun a b h => Key.str.inj h) c3
      rw [List.map_map] at this; exact this
    · obtain ⟨x, _, hx⟩ := List.mem_map.1 (hs'.subset hk); exact ⟨_, hx.symm⟩
  have hmem : ∀ k w, (k, w) ∈ d → ∃ s x b, k = .str s ∧ (s, x) ∈ members c ∧ w = .obj x.name b ∧ ColumnOk lib x b := by
    intro k w hw
    obtain ⟨x, hx, hxk⟩ := List.mem_map.1 (hs'.subset (List.mem_map_of_mem (f := Prod.fst) hw))
    simp only at hxk; subst hxk
    have hmx : (x.type, x) ∈ members c := by rw [c2]; exact List.mem_map.2 ⟨x, hx, rfl⟩
    obtain ⟨b, hb, hb'⟩ := hc x.type x w hmx hw
    exact ⟨x.type, x, b, rfl, hmx, by rw [hb, name_eq], hb'⟩
  obtain ⟨e, g, e1, e2, e3⟩ := trip_dict (lib := lib) (f := loadColumn lib)
    (Q := fun v u => Same lib v u ∧ ∀ x b, v = .obj x b → ∀ y : Cls, x = y.name → ColumnOk lib y b → ∃ r, u = .obj y.name r ∧ ColumnOk lib y r)
    hdk fun k w hw => by
      obtain ⟨s, x, b, rfl, hmx, rfl, hb⟩ := hmem k w hw
      obtain ⟨w', u, w1, w2, r, rfl, w3, w4⟩ := column_trip hl hb
      refine ⟨w', _, w1, w2, w3, ?_⟩
      intro y b' hy z hz hbz
      cases hy
      have : z = x := by
        have h1 := classOf_name z; have h2 := classOf_name x
        rw [← hz, h2] at h1; cases h1; rfl
      subst this
      exact ⟨r, rfl, w4⟩
  obtain ⟨nw, n1, n2, n3⟩ := plain_dump (lib := lib) hn
  have hgs : (g.map Prod.fst).Sublist (cs.map fun c => Key.str c.type) := by rw [← related_keys e3]; exact hs'
  have hord := ordered_eq cs g c3 hgs
  refine ⟨.dict [(.str "class", .str c), (.str "data", .dict [(.str "name", nw), (.str "_profiles", .dict e)])],
    .obj c [(.str "name", nw), (.str "_profiles", .dict g)], ?_, ?_, ?_, ?_⟩
  · rw [dump, dumpPairs, n1]
    simp only [dumpPairs, e1, Except.map, jsonKey]
    rw [fromPairs_nodup (by simp)]
  · have w1 : within "_profiles" (.str "name") = false := by decide +kernel
    have w2 : within "_profiles" (.str "_profiles") = true := by decide +kernel
    simp only [loadCompiler, opened, item, PyDict.get?_cons, if_true, c1, if_neg (show ¬ Key.str "class" = Key.str "data" by decide),
      setCompiler, w1, w2, e2, hord]
    rfl
  · refine .obj (by simp) fun k v w hv hw => ?_
    rw [PyDict.get?_cons] at hv hw
    split_ifs at hv hw
    · cases hv; cases hw; exact n2
    · rw [PyDict.get?_cons] at hv hw
      split_ifs at hv hw
      · cases hv; cases hw
        exact same_dict (related_mono e3 fun _ _ h => h.1)
      · simp at hv
  · refine ⟨c, _, nw, g, rfl, hm, rfl, n3, by rw [← related_keys e3]; exact hs, ?_⟩
    intro s k w hk hw
    obtain ⟨v, hv, hsame, hq⟩ := related_mem e3 hw
    obtain ⟨b, hb, hb'⟩ := hc s k v hk hv
    obtain ⟨r, hr, hr'⟩ := hq _ b hb k (name_eq k) hb'
    exact ⟨r, by rw [hr, name_eq], hr'⟩

/-! ### Options -/

theorem optionOf_name {c : String} (h : c ∈ optionNames) : optionOf (.str c : Val F T L) = .ok c := by
  have : ∀ c ∈ optionNames, (options.find? fun x => x.1 == c).map Prod.snd = some c := by decide +kernel
  have hc := this c h
  rw [optionOf]
  cases ho : options.find? fun x => x.1 == c with
  | none => rw [ho] at hc; simp at hc
  | some x => rw [ho] at hc; simp only [Option.map_some, Option.some.injEq] at hc; simp only [hc]

theorem overwrite_get : ∀ (a new : Dict F T L), (a.map Prod.fst).Nodup → ∀ k,
    PyDict.get? (overwrite new a) k = (PyDict.get? a k).or (PyDict.get? new k)
  | [], new, _, k => by simp [overwrite]
  | (k', v) :: t, new, hn, k => by
    rw [List.map_cons, List.nodup_cons] at hn
    have ih := overwrite_get t (PyDict.set new k' v) hn.2 k
    rw [show overwrite new ((k', v) :: t) = overwrite (PyDict.set new k' v) t from rfl, ih, PyDict.get?_cons, PyDict.get?_set]
    by_cases hk : k' = k
    · subst hk
      rw [if_pos rfl, if_pos rfl, (PyDict.get?_eq_none_iff t k').2 hn.1]; rfl
    · rw [if_neg hk, if_neg hk]

theorem overwrite_wf : ∀ (a new : Dict F T L), PyDict.WF new → PyDict.WF (overwrite new a)
  | [], _, h => h
  | (k, v) :: t, new, h => overwrite_wf t (PyDict.set new k v) (PyDict.WF_set h k v)

/-- The values of attributes of options, loaded one by one. -/
theorem loadValues_ok {new : String → Dict F T L} {Q : Val F T L → Val F T L → Prop} :
    ∀ (d e : List (Key × Val F T L)), Related (fun v w => dump lib v = .ok w) d e →
      (∀ k v, (k, v) ∈ d → Trip lib (loadValue lib new) v (Q v)) → ∃ g, loadValues lib new e = .ok g ∧ Related Q d g
  | [], _, h, _ => by cases h; exact ⟨[], by rw [loadValues], .nil⟩
  | (k, v) :: t, e, h, hd => by
    cases h with
    | @cons _ y _ e h ht =>
      obtain ⟨k', w⟩ := y
      obtain ⟨h1, h2⟩ := h
      simp only at h1 h2; subst h1
      obtain ⟨w', u, hw, hu, hq⟩ := hd k v List.mem_cons_self
      rw [h2] at hw; cases hw
      obtain ⟨g, hg, hr⟩ := loadValues_ok t e ht fun k v hv => hd k v (List.mem_cons_of_mem _ hv)
      exact ⟨(k, u) :: g, by rw [loadValues, hu]; simp [hg, Except.map], .cons ⟨rfl, hq⟩ hr⟩

theorem unclassed_trip {new : String → Dict F T L} {v : Val F T L} (h : Unclassed v) :
    Trip lib (loadValue lib new) v fun u => Same lib v u ∧ Unclassed u := by
  obtain ⟨w, h1, h2, h3⟩ := plain_dump (lib := lib) h.1
  have hu : ∀ d, w = .dict d → Key.str "class" ∉ d.map Prod.fst := by
    rintro d rfl
    cases h2 with
    | num hx hy => simp [number] at hy
    | time hx hy => simp [moment] at hy
    | dict hk _ => rw [← hk]; exact h.2 _ rfl
  refine ⟨w, w, h1, ?_, h2, h3, hu⟩
  cases w
  case dict d =>
    rw [loadValue, (PyDict.get?_eq_none_iff d _).2 (hu d rfl)]
  all_goals simp [loadValue]

/-- What is loaded for one attribute. -/
def Attr (lib : Lib F T L) (new : String → Dict F T L) (v u : Val F T L) : Prop :=
  (Same lib v u ∧ ((∃ c b, u = .obj c b) ∧ OptionOk lib new u ∨ Unclassed u)) ∨
    ∃ s m, u = .dict [(.str "from_library", .str s)] ∧ lib.library s = .ok m ∧ Same lib v (.labeler m) ∧ ALabeler lib (.labeler m) ∧
      ALabeler lib v

/-- Options, written, read and loaded. -/
theorem option_trip (hl : LibOk lib) {new : String → Dict F T L} (hnew : NewOk new) {v : Val F T L} (h : OptionOk lib new v) :
    Trip lib (loadValue lib new) v fun u => Same lib v u ∧ (∃ c b, u = .obj c b) ∧ OptionOk lib new u := by
  induction h with
  | @obj c a hc hk hsub _ hval hlab ih =>
    have hattr : ∀ k v, (k, v) ∈ a → Trip lib (loadValue lib new) v (Attr lib new v) := by
      intro k v hv
      rcases hval k v hv with ⟨c', b, rfl⟩ | hu | ⟨_, _, hlv⟩
      · obtain ⟨w, u, h1, h2, h3, h4, h5⟩ := ih k _ hv c' b rfl
        exact ⟨w, u, h1, h2, .inl ⟨h3, .inl ⟨h4, h5⟩⟩⟩
      · obtain ⟨w, u, h1, h2, h3, h4⟩ := unclassed_trip (lib := lib) (new := new) hu
        exact ⟨w, u, h1, h2, .inl ⟨h3, .inr h4⟩⟩
      · obtain ⟨s, m, h1, h2, h3, h4⟩ := labeler_trip hl hlv
        exact ⟨_, _, h1, by rw [loadValue]; simp [PyDict.get?_cons], .inr ⟨s, m, rfl, h2, h3, h4, hlv⟩⟩
    obtain ⟨e, e1, e2, e3⟩ := dump_dict (lib := lib) hk fun k v hv => by
      obtain ⟨w, _, hw, _⟩ := hattr k v hv; exact ⟨w, hw⟩
    obtain ⟨g, g1, g2⟩ := loadValues_ok a e e3 hattr
    have hgk := related_keys g2
    have hgn : PyDict.WF g := by unfold PyDict.WF PyDict.keys; rw [← hgk]; exact hk.1
    have hload : loadValue lib new (.dict [(.str "class", .str c), (.str "data", .dict e)]) =
        (optionData lib c g).map fun a' => .obj c (overwrite (new c) a') := by
      rw [loadValue, PyDict.get?_cons, if_pos rfl]
      simp only [optionOf_name hc]
      rw [loadData, if_neg (by decide), loadData, if_pos rfl, loadEntry, g1]
    have hdump : dump lib (.obj c a) = .ok (.dict [(.str "class", .str c), (.str "data", .dict e)]) := by
      rw [dump, e1]; simp [Except.map, e2]
    have hnewmem : ∀ k, PyDict.get? a k = none → PyDict.get? (new c) k = none := by
      intro k hka
      rw [PyDict.get?_eq_none_iff] at hka ⊢
      exact fun hm => hka (hsub k hm)
    -- the attributes of the options that are loaded
    suffices hs : ∃ a', optionData lib c g = .ok a' ∧ (a'.map Prod.fst).Nodup ∧
        (∀ k, PyDict.get? a k = none → (PyDict.get? a' k).or (PyDict.get? (new c) k) = none) ∧
        ∀ k v, PyDict.get? a k = some v → ∃ u, (PyDict.get? a' k).or (PyDict.get? (new c) k) = some u ∧ Same lib v u ∧
          (((∃ c' b, u = .obj c' b) ∧ OptionOk lib new u) ∨ Unclassed u ∨
            (c = "DataLabelerOptions" ∧ k = .str "data_labeler_object" ∧ ALabeler lib u)) ∧
          (c = "DataLabelerOptions" → k = .str "data_labeler_object" → u = .none ∨ ALabeler lib u) by
      obtain ⟨a', s1, s2, s3, s4⟩ := hs
      have hget := overwrite_get a' (new c) s2
      have hwf : PyDict.WF (overwrite (new c) a') := overwrite_wf a' (new c) (hnew.1 c)
      have hkeys : ∀ k, k ∈ a.map Prod.fst ↔ k ∈ (overwrite (new c) a').map Prod.fst := by
        intro k
        have h1 := PyDict.mem_keys_iff a k
        have h2 := PyDict.mem_keys_iff (overwrite (new c) a') k
        unfold PyDict.keys at h1 h2
        rw [h1, h2, hget]
        constructor
        · rintro ⟨v, hv⟩; obtain ⟨u, hu, _⟩ := s4 k v hv; exact ⟨u, hu⟩
        · rintro ⟨u, hu⟩
          cases hak : PyDict.get? a k with
          | none => rw [s3 k hak] at hu; cases hu
          | some v => exact ⟨v, rfl⟩
      have hmem : ∀ k u, (k, u) ∈ overwrite (new c) a' → ∃ v, PyDict.get? a k = some v ∧ (PyDict.get? a' k).or (PyDict.get? (new c) k) = some u := by
        intro k u hu
        have hg := PyDict.get?_of_mem hwf hu
        rw [hget] at hg
        cases hak : PyDict.get? a k with
        | none => rw [s3 k hak] at hg; cases hg
        | some v => exact ⟨v, rfl, hg⟩
      refine ⟨_, .obj c (overwrite (new c) a'), hdump, by rw [hload, s1]; rfl, .obj hkeys fun k v w hv hw => ?_, ⟨c, _, rfl⟩, ?_⟩
      · rw [hget] at hw
        obtain ⟨u, hu, hsame, _⟩ := s4 k v hv
        rw [hw] at hu; cases hu; exact hsame
      · refine .obj hc ⟨hwf, fun k hkm => hk.2 k ((hkeys k).2 hkm)⟩ (fun k hkm => (hkeys k).1 (hsub k hkm)) ?_ ?_ ?_
        · intro k u hu c' b hub
          obtain ⟨v, hv, hor⟩ := hmem k u hu
          obtain ⟨u', hu', _, hcase, _⟩ := s4 k v hv
          rw [hor] at hu'; cases hu'
          rcases hcase with hcase | hcase | ⟨_, _, l, _, hl', _⟩
          · exact hcase.2
          · subst hub; cases hcase.1 with | num hx => simp [number] at hx
          · subst hub; cases hl'
        · intro k u hu
          obtain ⟨v, hv, hor⟩ := hmem k u hu
          obtain ⟨u', hu', _, hcase, _⟩ := s4 k v hv
          rw [hor] at hu'; cases hu'
          rcases hcase with hcase | hcase | hcase
          · exact .inl hcase.1
          · exact .inr (.inl hcase)
          · exact .inr (.inr hcase)
        · intro u hcd hu
          obtain ⟨v, hv, hor⟩ := hmem _ u hu
          obtain ⟨u', hu', _, _, hcase⟩ := s4 _ v hv
          rw [hor] at hu'; cases hu'
          exact hcase hcd rfl
    -- the values loaded
    have hgood : ∀ k v u, PyDict.get? a k = some v → PyDict.get? g k = some u → ¬ (c = "DataLabelerOptions" ∧ k = .str "data_labeler_object") →
        Same lib v u ∧ ((∃ c' b, u = .obj c' b) ∧ OptionOk lib new u ∨ Unclassed u) := by
      intro k v u hv hu hn
      obtain ⟨u', hu', hq⟩ := related_get g2 hv
      rw [hu] at hu'; cases hu'
      rcases hq with hq | ⟨s, m, rfl, _, _, _, hlv⟩
      · exact hq
      · exfalso
        obtain ⟨l, s', rfl, _⟩ := hlv
        rcases hval k _ (PyDict.mem_of_get? hv) with ⟨_, _, hx⟩ | hx | hx
        · cases hx
        · cases hx.1 with | num hy => simp [number] at hy
        · exact hn ⟨hx.1, hx.2.1⟩
    by_cases hcd : c = "DataLabelerOptions"
    · subst hcd
      have hdel : ∀ k, PyDict.get? (PyDict.del g (.str "data_labeler_object")) k =
          if Key.str "data_labeler_object" = k then none else PyDict.get? g k := PyDict.get?_del hgn _
      -- the labeler is there
      obtain ⟨lv, hlv⟩ := (PyDict.mem_keys_iff a (.str "data_labeler_object")).1
        (hsub _ ((PyDict.mem_keys_iff _ _).2 ⟨_, hnew.2⟩))
      obtain ⟨lw, hlw, hq⟩ := related_get g2 hlv
      have rest : ∀ k v, PyDict.get? a k = some v → k ≠ .str "data_labeler_object" → ∃ u, PyDict.get? g k = some u ∧ Same lib v u ∧
          ((∃ c' b, u = .obj c' b) ∧ OptionOk lib new u ∨ Unclassed u) := by
        intro k v hv hne
        obtain ⟨u, hu, _⟩ := related_get g2 hv
        exact ⟨u, hu, hgood k v u hv hu (fun h => hne h.2)⟩
      have hnone : ∀ k, PyDict.get? a k = none → PyDict.get? g k = none := by
        intro k hka
        rw [PyDict.get?_eq_none_iff] at hka ⊢
        unfold PyDict.keys at *
        rw [← hgk]; exact hka
      rcases hlab lv rfl (PyDict.mem_of_get? hlv) with rfl | hlv'
      · -- no labeler
        have hlwn : lw = .none := by
          rcases hq with ⟨hs, _⟩ | ⟨s, m, _, _, hs, _⟩
          · cases hs with
            | none => rfl
            | num hx => simp [number] at hx
            | time hx => simp [moment] at hx
          · cases hs with
            | num hx => simp [number] at hx
            | time hx => simp [moment] at hx
        subst hlwn
        refine ⟨PyDict.del g (.str "data_labeler_object"), by simp [optionData, hlw, truthy], PyDict.WF_del hgn _, ?_, ?_⟩
        · intro k hka
          rw [hdel, hnewmem k hka, hnone k hka]; split_ifs <;> rfl
        · intro k v hv
          by_cases hkd : k = .str "data_labeler_object"
          · subst hkd
            rw [hlv] at hv; cases hv
            refine ⟨.none, by rw [hdel, if_pos rfl, hnew.2]; rfl, .none, .inr (.inl ⟨.none, fun d hd => by cases hd⟩), fun _ _ => .inl rfl⟩
          · obtain ⟨u, hu, hsame, hcase⟩ := rest k v hv hkd
            refine ⟨u, by rw [hdel, if_neg (Ne.symm hkd), hu]; rfl, hsame, ?_, fun _ h => absurd h hkd⟩
            rcases hcase with hcase | hcase
            · exact .inl hcase
            · exact .inr (.inl hcase)
      · -- a labeler of the library
        obtain ⟨s, m, rfl, hlm, hsame, hlabm⟩ : ∃ s m, lw = .dict [(.str "from_library", .str s)] ∧ lib.library s = .ok m ∧
            Same lib lv (.labeler m) ∧ ALabeler lib (.labeler m) := by
          rcases hq with ⟨hs, hcase⟩ | ⟨s, m, h1, h2, h3, h4, _⟩
          · exfalso
            obtain ⟨l, s', rfl, _⟩ := hlv'
            cases hs with
            | num hx => simp [number] at hx
            | time hx => simp [moment] at hx
            | labeler h1 h2 =>
              rcases hcase with ⟨⟨_, _, hx⟩, _⟩ | hx
              · cases hx
              · cases hx.1 with | num hy => simp [number] at hy
          · exact ⟨s, m, h1, h2, h3, h4⟩
        refine ⟨PyDict.set (PyDict.del g (.str "data_labeler_object")) (.str "data_labeler_object") (.labeler m),
          by simp [optionData, hlw, truthy, reloadLabeler, PyDict.get?_cons, hlm, Except.map], PyDict.WF_set (PyDict.WF_del hgn _) _ _, ?_, ?_⟩
        · intro k hka
          have hne : Key.str "data_labeler_object" ≠ k := by rintro rfl; rw [hlv] at hka; cases hka
          rw [PyDict.get?_set, if_neg hne, hdel, if_neg hne, hnewmem k hka, hnone k hka]; rfl
        · intro k v hv
          by_cases hkd : k = .str "data_labeler_object"
          · subst hkd
            rw [hlv] at hv; cases hv
            refine ⟨.labeler m, by rw [PyDict.get?_set, if_pos rfl]; rfl, hsame, .inr (.inr ⟨rfl, rfl, hlabm⟩), fun _ _ => .inr hlabm⟩
          · obtain ⟨u, hu, hsame, hcase⟩ := rest k v hv hkd
            refine ⟨u, by rw [PyDict.get?_set, if_neg (Ne.symm hkd), hdel, if_neg (Ne.symm hkd), hu]; rfl, hsame, ?_, fun _ h => absurd h hkd⟩
            rcases hcase with hcase | hcase
            · exact .inl hcase
            · exact .inr (.inl hcase)
    · refine ⟨g, by simp [optionData, hcd], hgn, ?_, ?_⟩
      · intro k hka
        have : PyDict.get? g k = none := by
          rw [PyDict.get?_eq_none_iff] at hka ⊢
          unfold PyDict.keys at *
          rw [← hgk]; exact hka
        rw [this, hnewmem k hka]; rfl
      · intro k v hv
        obtain ⟨u, hu, _⟩ := related_get g2 hv
        obtain ⟨hsame, hcase⟩ := hgood k v u hv hu (fun h => hcd h.1)
        refine ⟨u, by rw [hu]; rfl, hsame, ?_, fun h => absurd h hcd⟩
        rcases hcase with hcase | hcase
        · exact .inl hcase
        · exact .inr (.inl hcase)

theorem loadOption_trip (hl : LibOk lib) {new : String → Dict F T L} (hnew : NewOk new) {v : Val F T L} (h : OptionOk lib new v) :
    Trip lib (loadOption lib new) v fun u => Same lib v u ∧ OptionOk lib new u := by
  obtain ⟨w, u, h1, h2, h3, _, h4⟩ := option_trip hl hnew h
  cases h with
  | @obj c a _ _ _ _ _ _ =>
    rw [dump] at h1
    cases hd : dumpPairs lib a with
    | error e => rw [hd] at h1; cases h1
    | ok r =>
      rw [hd] at h1
      simp only [Except.map, Except.ok.injEq] at h1
      subst h1
      refine ⟨_, u, by rw [dump, hd]; rfl, ?_, h3, h4⟩
      have : PyDict.has [(Key.str "class", Val.str c), (Key.str "data", Val.dict (fromPairs r))] (Key.str "class") = true :=
        (PyDict.has_iff _ _).2 (by simp [PyDict.keys])
      simp only [loadOption, this, if_true]
      exact h2

/-! ### Columns -/

theorem flags_trip {v : Val F T L} (h : Flags v) : Trip lib (onDict loadFlag) v fun u => Same lib v u ∧ Flags u := by
  obtain ⟨d, rfl, hk, hd⟩ := h
  obtain ⟨e, g, he, hg, hr⟩ := trip_dict (lib := lib) (f := loadFlag) (Q := fun v u => Same lib v u ∧ ∃ z, u = .int z ∨ u = .flag z) hk
    fun k v hv => by
      obtain ⟨z, hz⟩ := hd k v hv
      have hdv : dump lib v = .ok (.int z) := by rcases hz with rfl | rfl <;> rw [dump]
      have hnv : number v = some (.inl z) := by rcases hz with rfl | rfl <;> rfl
      by_cases hz0 : z = 0
      · subst hz0; exact ⟨_, .int 0, hdv, rfl, .num hnv rfl, 0, .inl rfl⟩
      · exact ⟨_, .flag z, hdv, by simp [loadFlag, hz0], .num hnv rfl, z, .inr rfl⟩
  refine ⟨.dict e, .dict g, he, by simp [onDict, hg, Except.map], same_dict (related_mono hr fun _ _ h => h.1), g, rfl, strKeys_of hr hk, ?_⟩
  intro k w hw
  obtain ⟨v, _, h⟩ := related_mem hr hw
  exact h.2

theorem rows_trip {v : Val F T L} (h : Rows v) : Trip lib (onDict loadSet) v fun u => Same lib v u ∧ Rows u := by
  obtain ⟨d, rfl, hk, hd⟩ := h
  have hset : ∀ v : Val F T L, (∃ l, v = .set l ∧ ∀ x ∈ l, ∃ n, number x = some n) →
      Trip lib loadSet v fun u => Same lib v u ∧ ∃ l, u = .set l ∧ ∀ x ∈ l, ∃ n, number x = some n := by
    rintro v ⟨l, rfl, hl⟩
    have key : ∀ l : List (Val F T L), (∀ x ∈ l, ∃ n, number x = some n) → ∃ m, dumpList lib l = .ok m ∧
        List.Forall₂ (fun v w => Same lib v w ∧ (∃ n, number w = some n)) l m ∧ m.all hashable = true := by
      intro l hl
      induction l with
      | nil => exact ⟨[], by rw [dumpList], .nil, rfl⟩
      | cons x t ih =>
        obtain ⟨m, m1, m2, m3⟩ := ih fun y hy => hl y (List.mem_cons_of_mem _ hy)
        obtain ⟨n, hn⟩ := hl x List.mem_cons_self
        obtain ⟨w, w1, w2, w3, w4⟩ : ∃ w, dump lib x = .ok w ∧ Same lib x w ∧ number w = some n ∧ hashable w = true := by
          cases x <;> simp only [number, reduceCtorEq] at hn
          · exact ⟨.int _, by rw [dump], .num (x := n) hn hn, hn, rfl⟩
          · exact ⟨.float _, by rw [dump], .num (x := n) hn hn, hn, rfl⟩
          · exact ⟨.int _, by rw [dump], .num (x := n) hn hn, hn, rfl⟩
          · exact ⟨.float _, by rw [dump], .num (x := n) hn hn, hn, rfl⟩
          · exact ⟨.int _, by rw [dump], .num (x := n) hn hn, hn, rfl⟩
        exact ⟨w :: m, by rw [dumpList, w1]; simp [m1, Except.map], .cons ⟨w2, n, w3⟩ m2, by simp only [List.all_cons, w4, m3, Bool.and_self]⟩
    obtain ⟨m, m1, m2, m3⟩ := key l hl
    refine ⟨.list m, .set m, by rw [dump, m1]; rfl, by simp only [loadSet, m3, if_true],
      .set m2.length_eq fun i v w hv hw => (forall2_idx m2 i v w hv hw).1, m, rfl, ?_⟩
    intro w hw
    obtain ⟨i, hi⟩ := List.getElem?_of_mem hw
    have hlt : i < l.length := by
      rw [m2.length_eq]; by_contra hc; rw [List.getElem?_eq_none (by omega)] at hi; simp at hi
    exact (forall2_idx m2 i _ w (List.getElem?_eq_getElem hlt) hi).2
  obtain ⟨e, g, he, hg, hr⟩ := trip_dict (lib := lib) (f := loadSet) (Q := fun v u => Same lib v u ∧ ∃ l, u = .set l ∧ ∀ x ∈ l, ∃ n, number x = some n) hk
    fun k v hv => hset v (hd k v hv)
  refine ⟨.dict e, .dict g, he, by simp [onDict, hg, Except.map], same_dict (related_mono hr fun _ _ h => h.1), g, rfl, strKeys_of hr hk, ?_⟩
  intro k w hw
  obtain ⟨v, _, h⟩ := related_mem hr hw
  exact h.2

theorem profiles_trip (hl : LibOk lib) {v : Val F T L} (h : Profiles lib v) :
    Trip lib (onDict (loadCompiler lib)) v fun u => Same lib v u ∧ Profiles lib u := by
  obtain ⟨d, rfl, hk, hd⟩ := h
  obtain ⟨e, g, he, hg, hr⟩ := trip_dict (lib := lib) (f := loadCompiler lib) (Q := fun v u => Same lib v u ∧ CompilerOk lib u) hk
    fun k v hv => compiler_trip hl (hd k v hv)
  refine ⟨.dict e, .dict g, he, by simp [onDict, hg, Except.map], same_dict (related_mono hr fun _ _ h => h.1), g, rfl, strKeys_of hr hk, ?_⟩
  intro k w hw
  obtain ⟨v, _, h⟩ := related_mem hr hw
  exact h.2

/-- The kind of the value of an attribute of a column. -/
def ColumnFits (lib : Lib F T L) (new : String → Dict F T L) (s : String) (v : Val F T L) : Prop :=
  (s = "profiles" → Profiles lib v) ∧ (s = "options" → v = .none ∨ OptionOk lib new v) ∧ (s = "_null_values" → Flags v) ∧
    (s = "null_types_index" → Rows v) ∧ (s ∉ ["profiles", "options", "_null_values", "null_types_index"] → Plain v)

theorem columnValue_trip (hl : LibOk lib) {new : String → Dict F T L} (hnew : NewOk new) {s : String} {v : Val F T L}
    (h : ColumnFits lib new s v) :
    Trip lib (columnValue lib new (.str s)) v fun u => Same lib v u ∧ ColumnFits lib new s u := by
  obtain ⟨h1, h2, h3, h4, h5⟩ := h
  by_cases e1 : s = "profiles"
  · subst e1
    obtain ⟨w, u, a1, a2, a3, a4⟩ := profiles_trip hl (h1 rfl)
    exact ⟨w, u, a1, by simp only [columnValue, if_true]; exact a2, a3, by simp [ColumnFits, a4]⟩
  by_cases e2 : s = "options"
  · subst e2
    rcases h2 rfl with rfl | ho
    · exact ⟨.none, .none, by rw [dump], by simp [columnValue], .none, by simp [ColumnFits]⟩
    · obtain ⟨w, u, a1, a2, a3, a4⟩ := loadOption_trip hl hnew ho
      refine ⟨w, u, a1, ?_, a3, by simp [ColumnFits, a4]⟩
      cases w
      case none => simp [loadOption] at a2
      all_goals (simp only [columnValue, Key.str.injEq, if_neg e1, if_true]; exact a2)
  by_cases e3 : s = "_null_values"
  · subst e3
    obtain ⟨w, u, a1, a2, a3, a4⟩ := flags_trip (lib := lib) (h3 rfl)
    exact ⟨w, u, a1, by simp only [columnValue, Key.str.injEq, if_neg e1, if_neg e2, if_true]; exact a2, a3, by simp [ColumnFits, a4]⟩
  by_cases e4 : s = "null_types_index"
  · subst e4
    obtain ⟨w, u, a1, a2, a3, a4⟩ := rows_trip (lib := lib) (h4 rfl)
    exact ⟨w, u, a1, by simp only [columnValue, Key.str.injEq, if_neg e1, if_neg e2, if_neg e3, if_true]; exact a2, a3, by simp [ColumnFits, a4]⟩
  obtain ⟨w, u, a1, a2, a3, a4⟩ := trip_plain (lib := lib) (h5 (by simp [e1, e2, e3, e4]))
  cases a2
  exact ⟨w, w, a1, by simp [columnValue, e1, e2, e3, e4], a3, by simp [ColumnFits, e1, e2, e3, e4, a4]⟩

theorem setColumn_ok {new : String → Dict F T L} : ∀ (d e acc : List (Key × Val F T L)),
    Related (fun v w => dump lib v = .ok w) d e → (d.map Prod.fst).Nodup →
    (∀ k v, (k, v) ∈ d → ∃ s, k = .str s ∧ Trip lib (columnValue lib new k) v fun u => Same lib v u ∧ ColumnFits lib new s u) →
    PyDict.WF acc →
    ∃ r, setColumn lib new e acc = .ok r ∧ PyDict.WF r ∧ (∀ k, PyDict.get? d k = none → PyDict.get? r k = PyDict.get? acc k) ∧
      ∀ s v, PyDict.get? d (.str s) = some v → ∃ u, PyDict.get? r (.str s) = some u ∧ Same lib v u ∧ ColumnFits lib new s u
  | [], _, acc, h, _, _, hw => by cases h; exact ⟨acc, rfl, hw, fun _ _ => rfl, fun _ _ h => by simp at h⟩
  | (k, v) :: t, e, acc, h, hn, hd, hw => by
    cases h with
    | @cons _ y _ e h ht =>
      obtain ⟨k', w⟩ := y
      obtain ⟨h1, h2⟩ := h
      simp only at h1 h2; subst h1
      obtain ⟨s, rfl, w', u, hw', hu, hq⟩ := hd k v List.mem_cons_self
      rw [h2] at hw'; cases hw'
      rw [List.map_cons, List.nodup_cons] at hn
      obtain ⟨r, r1, r2, r3, r4⟩ := setColumn_ok t e (PyDict.set acc (.str s) u) ht hn.2
        (fun k v hv => hd k v (List.mem_cons_of_mem _ hv)) (PyDict.WF_set hw _ _)
      have hts : PyDict.get? t (.str s) = none := (PyDict.get?_eq_none_iff t _).2 hn.1
      refine ⟨r, by simp [setColumn, hu, r1], r2, ?_, ?_⟩
      · intro k hk
        rw [PyDict.get?_cons] at hk
        split_ifs at hk with hks
        rw [r3 k hk, PyDict.get?_set, if_neg hks]
      · intro s' v' hv'
        rw [PyDict.get?_cons] at hv'
        split_ifs at hv' with hks
        · cases hks; cases hv'
          exact ⟨u, by rw [r3 _ hts, PyDict.get?_set, if_pos rfl], hq⟩
        · exact r4 s' v' hv'

theorem freshColumn_keys : (freshColumn lib).map Prod.fst = columnNames.map Key.str := rfl

/-- A column, written, read and loaded. -/
theorem structured_trip (hl : LibOk lib) {new : String → Dict F T L} (hnew : NewOk new) {a : Dict F T L} (h : StructuredOk lib new a) :
    Trip lib (loadStructured lib new) (.obj "StructuredColProfiler" a) fun u =>
      ∃ r, u = .obj "StructuredColProfiler" r ∧ Same lib (.obj "StructuredColProfiler" a) u ∧ StructuredOk lib new r := by
  have hk : StrKeys a := ⟨h.nodup, fun k hk => by obtain ⟨s, _, hs⟩ := (h.names k).1 hk; exact ⟨s, hs⟩⟩
  have hfit : ∀ s v, (Key.str s, v) ∈ a → ColumnFits lib new s v := by
    intro s v hv
    exact ⟨fun hs => h.profiles v (hs ▸ hv), fun hs => h.options v (hs ▸ hv), fun hs => h.flags v (hs ▸ hv), fun hs => h.rows v (hs ▸ hv),
      fun hs => h.rest s v hv hs⟩
  have htrip : ∀ k v, (k, v) ∈ a → ∃ s, k = .str s ∧ Trip lib (columnValue lib new k) v fun u => Same lib v u ∧ ColumnFits lib new s u := by
    intro k v hv
    obtain ⟨s, rfl⟩ := hk.2 k (List.mem_map_of_mem (f := Prod.fst) hv)
    exact ⟨s, rfl, columnValue_trip hl hnew (hfit s v hv)⟩
  obtain ⟨e, e1, e2, e3⟩ := dump_dict (lib := lib) hk fun k v hv => by
    obtain ⟨s, _, w, _, hw, _⟩ := htrip k v hv; exact ⟨w, hw⟩
  obtain ⟨r, r1, r2, r3, r4⟩ := setColumn_ok a e (freshColumn lib) e3 h.nodup htrip
    (by unfold PyDict.WF PyDict.keys; rw [freshColumn_keys]; exact List.Nodup.map (fun a b h => Key.str.inj h) (by decide +kernel))
  have hkeys : ∀ k, k ∈ r.map Prod.fst ↔ k ∈ a.map Prod.fst := by
    intro k
    have k1 := PyDict.mem_keys_iff a k
    have k2 := PyDict.mem_keys_iff r k
    unfold PyDict.keys at k1 k2
    rw [k1, k2]
    constructor
    · rintro ⟨u, hu⟩
      cases hak : PyDict.get? a k with
      | some v => exact ⟨v, rfl⟩
      | none =>
        exfalso
        rw [r3 k hak] at hu
        have hkf := (PyDict.mem_keys_iff (freshColumn lib) k).2 ⟨u, hu⟩
        unfold PyDict.keys at hkf
        rw [freshColumn_keys] at hkf
        obtain ⟨s, hs, rfl⟩ := List.mem_map.1 hkf
        exact absurd ((h.names _).2 ⟨s, hs, rfl⟩) ((PyDict.get?_eq_none_iff a _).1 hak)
    · rintro ⟨v, hv⟩
      obtain ⟨s, rfl⟩ := hk.2 k (k1.2 ⟨v, hv⟩)
      obtain ⟨u, hu, _⟩ := r4 s v hv
      exact ⟨u, hu⟩
  have hback : ∀ s u, (Key.str s, u) ∈ r → ColumnFits lib new s u := by
    intro s u hu
    have hg := PyDict.get?_of_mem r2 hu
    obtain ⟨v, hv⟩ := (PyDict.mem_keys_iff a (.str s)).1 ((hkeys _).1 (List.mem_map_of_mem (f := Prod.fst) hu))
    obtain ⟨u', hu', _, hf⟩ := r4 s v hv
    rw [hg] at hu'; cases hu'; exact hf
  refine ⟨.dict [(.str "class", .str "StructuredColProfiler"), (.str "data", .dict e)], .obj "StructuredColProfiler" r, ?_, ?_, r, rfl,
    .obj (fun k => (hkeys k).symm) ?_, ?_⟩
  · rw [dump, e1]; simp [Except.map, e2]
  · simp [loadStructured, opened, item, PyDict.get?_cons, columnOf, r1, Except.map]
  · intro k v w hv hw
    obtain ⟨s, rfl⟩ := hk.2 k ((PyDict.mem_keys_iff a k).2 ⟨v, hv⟩)
    obtain ⟨u, hu, hs, _⟩ := r4 s v hv
    rw [hw] at hu; cases hu; exact hs
  · exact ⟨r2, fun k => (hkeys k).trans (h.names k), fun v hv => (hback _ v hv).1 rfl, fun v hv => (hback _ v hv).2.1 rfl,
      fun v hv => (hback _ v hv).2.2.1 rfl, fun v hv => (hback _ v hv).2.2.2.1 rfl, fun s v hv => (hback s v hv).2.2.2.2⟩

end Verif.ColumnJson
