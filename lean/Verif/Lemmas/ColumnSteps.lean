import Verif.Lemmas.ColumnJsonMore
import Verif.Model.ColumnSteps

/-! Helper lemmas about histories of column profiles. -/

namespace Verif.ColumnJson

open Verif
open Verif.Schema (Key)
open Verif.Spec.ColumnJson

variable {F T L : Type} {lib : Lib F T L}

/-! ### Dictionaries -/

theorem mem_set {d : Dict F T L} (hd : (d.map Prod.fst).Nodup) {k k' : Key} {v x : Val F T L} (h : (k', x) ∈ PyDict.set d k v) :
    (k' = k ∧ x = v) ∨ (k' ≠ k ∧ (k', x) ∈ d) := by
  have := PyDict.get?_of_mem (PyDict.WF_set hd k v) h
  rw [PyDict.get?_set] at this
  split_ifs at this with hk
  · cases this; exact .inl ⟨hk.symm, rfl⟩
  · exact .inr ⟨fun h => hk h.symm, PyDict.mem_of_get? this⟩

theorem mem_set_self {d : Dict F T L} (k : Key) (v : Val F T L) : (k, v) ∈ PyDict.set d k v := by
  apply PyDict.mem_of_get?; rw [PyDict.get?_set, if_pos rfl]

theorem mem_set_of_ne {d : Dict F T L} (hd : (d.map Prod.fst).Nodup) {k k' : Key} {v x : Val F T L} (hk : k' ≠ k) (h : (k', x) ∈ d) :
    (k', x) ∈ PyDict.set d k v := by
  apply PyDict.mem_of_get?; rw [PyDict.get?_set, if_neg (Ne.symm hk)]; exact PyDict.get?_of_mem hd h

theorem keys_set_mem (d : Dict F T L) (k k' : Key) (v : Val F T L) :
    k' ∈ (PyDict.set d k v).map Prod.fst ↔ k' = k ∨ k' ∈ d.map Prod.fst := by
  have : (PyDict.set d k v).map Prod.fst = PyDict.keys (PyDict.set d k v) := rfl
  rw [this, PyDict.keys_set]
  split_ifs with h
  · exact ⟨.inr, fun h' => h'.elim (fun e => e ▸ h) id⟩
  · simp [PyDict.keys, or_comm]

theorem strKeys_set {d : Dict F T L} (h : StrKeys d) (s : String) (v : Val F T L) : StrKeys (PyDict.set d (.str s) v) := by
  refine ⟨PyDict.WF_set h.1 _ _, fun k hk => ?_⟩
  rcases (keys_set_mem d _ k v).1 hk with rfl | hk
  · exact ⟨s, rfl⟩
  · exact h.2 k hk

theorem strKeys_del {d : Dict F T L} (h : StrKeys d) (s : String) : StrKeys (PyDict.del d (.str s)) := by
  refine ⟨PyDict.WF_del h.1 _, fun k hk => h.2 k ?_⟩
  have : k ∈ PyDict.keys (PyDict.del d (.str s)) := hk
  rw [PyDict.keys_del] at this
  exact List.mem_of_mem_erase this

theorem mem_del {d : Dict F T L} (hd : (d.map Prod.fst).Nodup) {k k' : Key} {x : Val F T L} (h : (k', x) ∈ PyDict.del d k) :
    (k', x) ∈ d := by
  have := PyDict.get?_of_mem (PyDict.WF_del hd k) h
  rw [PyDict.get?_del hd] at this
  split_ifs at this
  exact PyDict.mem_of_get? this

theorem related_set {R : Val F T L → Val F T L → Prop} {d e : Dict F T L} (h : Related R d e) (k : Key) {v w : Val F T L} (hv : R v w) :
    Related R (PyDict.set d k v) (PyDict.set e k w) := by
  induction h with
  | nil => exact .cons ⟨rfl, hv⟩ .nil
  | @cons x y _ _ h ht ih =>
    obtain ⟨a, b⟩ := x; obtain ⟨a', b'⟩ := y
    obtain ⟨h1, h2⟩ := h
    simp only at h1 h2; subst h1
    simp only [PyDict.set]
    split_ifs
    · exact .cons ⟨rfl, hv⟩ ht
    · exact .cons ⟨rfl, h2⟩ ih

theorem related_del {R : Val F T L → Val F T L → Prop} {d e : Dict F T L} (h : Related R d e) (k : Key) :
    Related R (PyDict.del d k) (PyDict.del e k) := by
  induction h with
  | nil => exact .nil
  | @cons x y _ _ h ht ih =>
    obtain ⟨a, b⟩ := x; obtain ⟨a', b'⟩ := y
    obtain ⟨h1, h2⟩ := h
    simp only at h1 h2; subst h1
    simp only [PyDict.del]
    split_ifs
    · exact ht
    · exact .cons ⟨rfl, h2⟩ ih

theorem related_of_get {d : Dict F T L} : ∀ {e : Dict F T L}, (d.map Prod.fst).Nodup → d.map Prod.fst = e.map Prod.fst →
    (∀ k v w, PyDict.get? d k = some v → PyDict.get? e k = some w → Same lib v w) → Related (Same lib) d e := by
  induction d with
  | nil => intro e _ hk _; simp at hk; subst hk; exact .nil
  | cons x t ih =>
    intro e hn hk hs
    cases e with
    | nil => simp at hk
    | cons y u =>
      obtain ⟨a, b⟩ := x; obtain ⟨a', b'⟩ := y
      simp only [List.map_cons, List.cons.injEq] at hk
      obtain ⟨rfl, hk⟩ := hk
      rw [List.map_cons, List.nodup_cons] at hn
      refine .cons ⟨rfl, hs a b b' (by simp [PyDict.get?]) (by simp [PyDict.get?])⟩ (ih hn.2 hk fun k v w hv hw => ?_)
      have hne : a ≠ k := by
        rintro rfl
        exact hn.1 ((PyDict.mem_keys_iff t _).2 ⟨v, hv⟩)
      exact hs k v w (by simpa [PyDict.get?, hne] using hv) (by simpa [PyDict.get?, hne] using hw)

theorem same_dict_inv {d : Dict F T L} {e : Dict F T L} (hd : (d.map Prod.fst).Nodup) (h : Same lib (.dict d) (.dict e)) :
    Related (Same lib) d e := by
  cases h with
  | num h => simp [number] at h
  | time h => simp [moment] at h
  | dict hk hs => exact related_of_get hd hk hs

theorem same_ddict_inv {f g : Factory} {d : Dict F T L} {e : Dict F T L} (hd : (d.map Prod.fst).Nodup)
    (h : Same lib (.ddict f d) (.ddict g e)) : f = g ∧ Related (Same lib) d e := by
  cases h with
  | num h => simp [number] at h
  | time h => simp [moment] at h
  | ddict hk hs => exact ⟨rfl, related_of_get hd hk hs⟩

theorem same_ddict {f : Factory} {d e : Dict F T L} (h : Related (Same lib) d e) : Same lib (.ddict f d) (.ddict f e) :=
  .ddict (related_keys h) (same_get h)

theorem foldl_set_props : ∀ (l acc : List (Key × Val F T L)), (acc.map Prod.fst).Nodup →
    ((l.foldl (fun acc kv => PyDict.set acc kv.1 kv.2) acc).map Prod.fst).Nodup ∧
      ∀ k v, (k, v) ∈ l.foldl (fun acc kv => PyDict.set acc kv.1 kv.2) acc → (k, v) ∈ l ∨ (k, v) ∈ acc
  | [], acc, h => ⟨h, fun _ _ h => .inr h⟩
  | (k, v) :: t, acc, h => by
    obtain ⟨h1, h2⟩ := foldl_set_props t (PyDict.set acc k v) (PyDict.WF_set h _ _)
    refine ⟨h1, fun k' v' hm => ?_⟩
    rcases h2 k' v' hm with hm | hm
    · exact .inl (List.mem_cons_of_mem _ hm)
    · rcases mem_set h hm with ⟨rfl, rfl⟩ | ⟨_, hm⟩
      · exact .inl List.mem_cons_self
      · exact .inr hm

theorem fromPairs_nodup' (l : List (Key × Val F T L)) : ((fromPairs l).map Prod.fst).Nodup := (foldl_set_props l [] (by simp)).1

theorem mem_fromPairs {l : List (Key × Val F T L)} {k v} (h : (k, v) ∈ fromPairs l) : (k, v) ∈ l := by
  rcases (foldl_set_props l [] (by simp)).2 k v h with h | h
  · exact h
  · simp at h

/-! ### Standing for itself -/

theorem related_refl {d : Dict F T L} (h : ∀ k v, (k, v) ∈ d → Same lib v v) : Related (Same lib) d d := by
  induction d with
  | nil => exact .nil
  | cons x t ih => exact .cons ⟨rfl, h x.1 x.2 List.mem_cons_self⟩ (ih fun k v hv => h k v (List.mem_cons_of_mem _ hv))

theorem plain_refl {v : Val F T L} (h : Plain v) : Same lib v v := by
  induction h with
  | none => exact .none
  | bool b => exact .bool b
  | str s => exact .str s
  | num hx => exact .num hx hx
  | list _ ih =>
    refine .list rfl fun i v w hv hw => ?_
    rw [hv] at hw; cases hw; exact ih v (List.mem_of_getElem? hv)
  | dict _ _ ih => exact same_dict (related_refl ih)

theorem optFloat_refl {v : Val F T L} (h : OptFloat v) : Same lib v v := plain_refl (optFloat_plain h)

theorem optArray_refl {v : Val F T L} (h : OptArray v) : Same lib v v := by
  rcases h with rfl | ⟨l, rfl, hl⟩
  · exact .none
  · exact .array (plain_refl hl)

theorem bins_refl {v : Val F T L} (h : Bins v) : Same lib v v := by
  obtain ⟨d, rfl, _, hd⟩ := h
  exact same_dict (related_refl fun k v hv => optArray_refl (hd k v hv))

theorem hist_refl {v : Val F T L} (h : Histogram v) : Same lib v v := by
  obtain ⟨d, rfl, hk, hp, _, _, ⟨z, hz, hzb⟩⟩ := h
  refine same_dict (related_refl fun k v hv => ?_)
  by_cases hh : k = .str "histogram"
  · subst hh
    have := (get_of_mem hk hv).symm.trans (get_of_mem hk hz); cases this
    exact bins_refl hzb
  · exact plain_refl (hp k v hv hh)

theorem ite_or {p a b : Prop} [Decidable p] (h : if p then a else b) : a ∨ b := by
  by_cases hp : p
  · rw [if_pos hp] at h; exact .inl h
  · rw [if_neg hp] at h; exact .inr h

theorem fits_refl {c : Cls} {s : String} {v : Val F T L} (h : Fits lib c s v) : Same lib v v := by
  unfold Fits at h
  rcases ite_or h with h | h
  · obtain ⟨d, rfl, _, hd⟩ := h
    exact same_ddict (related_refl fun k v hv => plain_refl (hd k v hv))
  rcases ite_or h with h | h
  · obtain ⟨d, rfl, _, hd⟩ := h
    refine same_dict (related_refl fun k v hv => ?_)
    obtain ⟨f, _, rfl⟩ := hd k v hv; exact .func f
  rcases ite_or h with h | h
  · exact hist_refl h
  rcases ite_or h with h | h
  · obtain ⟨d, rfl, _, hd⟩ := h
    exact same_dict (related_refl fun k v hv => hist_refl (hd k v hv))
  rcases ite_or h with h | h
  · exact optFloat_refl h
  rcases ite_or h with h | h
  · rcases h with rfl | ⟨z, rfl | rfl⟩
    · exact .none
    · exact .num (x := .inl z) rfl rfl
    · exact .num (x := .inl z) rfl rfl
  rcases ite_or h with h | h
  · rcases h with ⟨f, rfl | rfl⟩
    · exact .num (x := .inr f) rfl rfl
    · exact .num (x := .inr f) rfl rfl
  rcases ite_or h with h | h
  · obtain ⟨d, rfl, hd, _⟩ := h
    exact same_dict (related_refl fun k v hv => plain_refl (hd.2 k v hv))
  rcases ite_or h with h | h
  · rcases h with rfl | ⟨t, ht, _⟩
    · exact .none
    · exact .time ht ht
  rcases ite_or h with h | h
  · obtain ⟨d, rfl | rfl, _, hd⟩ := h
    · exact same_dict (related_refl fun k v hv => plain_refl (hd k v hv))
    · exact same_ddict (related_refl fun k v hv => plain_refl (hd k v hv))
  rcases ite_or h with h | h
  · rcases h with rfl | ⟨d, rfl, _, _, hd⟩
    · exact .none
    · exact same_dict (related_refl fun k v hv => plain_refl (hd k v hv))
  rcases ite_or h with h | h
  · exact optArray_refl h
  rcases ite_or h with h | h
  · obtain ⟨l, s, rfl, hs⟩ := h
    exact .labeler hs hs
  rcases ite_or h with h | h
  · rcases h with rfl | rfl
    · exact .func _
    · exact .func _
  · exact plain_refl h

/-! ### Changes of one value -/

/-- `f` keeps values of the kind `K`, and does the same to values that stand for each other. -/
def Keeps (lib : Lib F T L) (K : Val F T L → Prop) (f : Val F T L → Except Err (Val F T L)) : Prop :=
  ∀ v w, K v → K w → Same lib v w → ∃ v' w', f v = .ok v' ∧ f w = .ok w' ∧ K v' ∧ K w' ∧ Same lib v' w'

theorem Keeps.comp {K : Val F T L → Prop} {f g : Val F T L → Except Err (Val F T L)} (hf : Keeps lib K f) (hg : Keeps lib K g) :
    Keeps lib K (andThen f g) := by
  intro v w hv hw hs
  obtain ⟨v1, w1, h1, h2, h3, h4, h5⟩ := hf v w hv hw hs
  obtain ⟨v2, w2, g1, g2, g3, g4, g5⟩ := hg v1 w1 h3 h4 h5
  exact ⟨v2, w2, by simp [andThen, h1, g1], by simp [andThen, h2, g2], g3, g4, g5⟩

theorem good_times (s : String) {x : Val F T L} (hx : Plain x) : Keeps lib Times (putItem s x) := by
  rintro _ _ ⟨d, rfl, hd⟩ ⟨e, rfl, he⟩ hs
  obtain ⟨_, hr⟩ := same_ddict_inv hd.1.1 hs
  have key : ∀ d : Dict F T L, PlainDict d → Times (.ddict .float (PyDict.set d (.str s) x)) := by
    intro d hd
    refine ⟨_, rfl, strKeys_set hd.1 s x, fun k v hv => ?_⟩
    rcases mem_set hd.1.1 hv with ⟨_, rfl⟩ | ⟨_, hv⟩
    · exact hx
    · exact hd.2 k v hv
  exact ⟨_, _, rfl, rfl, key d hd, key e he, same_ddict (related_set hr _ (plain_refl hx))⟩

theorem good_calculations {m : List String} (s : String) : Keeps lib (Calculations m) (delItem s) := by
  rintro _ _ ⟨d, rfl, hd, hd'⟩ ⟨e, rfl, he, he'⟩ hs
  have hr := same_dict_inv hd.1 hs
  exact ⟨_, _, rfl, rfl, ⟨_, rfl, strKeys_del hd s, fun k w hw => hd' k w (mem_del hd.1 hw)⟩,
    ⟨_, rfl, strKeys_del he s, fun k w hw => he' k w (mem_del he.1 hw)⟩, same_dict (related_del hr _)⟩

theorem good_bins (s : String) {x : Val F T L} (hx : OptArray x) : Keeps lib Bins (putItem s x) := by
  rintro _ _ ⟨d, rfl, hd, hd'⟩ ⟨e, rfl, he, he'⟩ hs
  have hr := same_dict_inv hd.1 hs
  have key : ∀ d : Dict F T L, StrKeys d → (∀ k w, (k, w) ∈ d → OptArray w) → Bins (.dict (PyDict.set d (.str s) x)) := by
    intro d hd hd'
    refine ⟨_, rfl, strKeys_set hd s x, fun k v hv => ?_⟩
    rcases mem_set hd.1 hv with ⟨_, rfl⟩ | ⟨_, hv⟩
    · exact hx
    · exact hd' k v hv
  exact ⟨_, _, rfl, rfl, key d hd hd', key e he he', same_dict (related_set hr _ (optArray_refl hx))⟩

theorem hist_set {d : Dict F T L} {s : String} {x : Val F T L} (h : Histogram (.dict d)) (hx : s ≠ "histogram" → Plain x)
    (hb : s = "histogram" → Bins x) (hl : s = "total_loss" ∨ s = "current_loss" → OptFloat x) :
    Histogram (.dict (PyDict.set d (.str s) x)) := by
  obtain ⟨d', he, hk, hp, ⟨t, ht, htf⟩, ⟨u, hu, huf⟩, ⟨z, hz, hzb⟩⟩ := h
  cases he
  refine ⟨_, rfl, strKeys_set hk s x, ?_, ?_, ?_, ?_⟩
  · intro k w hw hn
    rcases mem_set hk.1 hw with ⟨rfl, rfl⟩ | ⟨_, hw⟩
    · exact hx fun h => hn (by rw [h])
    · exact hp k w hw hn
  · by_cases hs : s = "total_loss"
    · exact ⟨x, by rw [hs]; exact mem_set_self _ _, hl (.inl hs)⟩
    · exact ⟨t, mem_set_of_ne hk.1 (fun h => hs (Key.str.inj h).symm) ht, htf⟩
  · by_cases hs : s = "current_loss"
    · exact ⟨x, by rw [hs]; exact mem_set_self _ _, hl (.inr hs)⟩
    · exact ⟨u, mem_set_of_ne hk.1 (fun h => hs (Key.str.inj h).symm) hu, huf⟩
  · by_cases hs : s = "histogram"
    · exact ⟨x, by rw [hs]; exact mem_set_self _ _, hb hs⟩
    · exact ⟨z, mem_set_of_ne hk.1 (fun h => hs (Key.str.inj h).symm) hz, hzb⟩

theorem hist_nodup {d : Dict F T L} (h : Histogram (.dict d)) : (d.map Prod.fst).Nodup := by
  obtain ⟨d', he, hk, _⟩ := h; cases he; exact hk.1

theorem hist_dict {v : Val F T L} (h : Histogram v) : ∃ d, v = .dict d := by
  obtain ⟨d', rfl, _⟩ := h; exact ⟨d', rfl⟩

theorem good_hist {s : String} {x : Val F T L} (hx : s ≠ "histogram" → Plain x)
    (hb : s = "histogram" → Bins x) (hl : s = "total_loss" ∨ s = "current_loss" → OptFloat x) : Keeps lib Histogram (putItem s x) := by
  intro v w hv hw hs
  obtain ⟨d, rfl⟩ := hist_dict hv
  obtain ⟨e, rfl⟩ := hist_dict hw
  have hr := same_dict_inv (hist_nodup hv) hs
  refine ⟨_, _, rfl, rfl, hist_set hv hx hb hl, hist_set hw hx hb hl, same_dict (related_set hr _ ?_)⟩
  by_cases h : s = "histogram"
  · exact bins_refl (hb h)
  · exact plain_refl (hx h)

theorem good_inHist {g : Val F T L → Except Err (Val F T L)} (hg : Keeps lib Bins g) : Keeps lib Histogram (inItem "histogram" g) := by
  intro v w hv hw hs
  obtain ⟨d, rfl⟩ := hist_dict hv
  obtain ⟨e, rfl⟩ := hist_dict hw
  have hr := same_dict_inv (hist_nodup hv) hs
  have get : ∀ d : Dict F T L, Histogram (.dict d) → ∃ z, PyDict.get? d (.str "histogram") = some z ∧ Bins z := by
    intro d h
    obtain ⟨d', he, hk, _, _, _, ⟨z, hz, hzb⟩⟩ := h
    cases he; exact ⟨z, get_of_mem hk hz, hzb⟩
  obtain ⟨z, hz, hzb⟩ := get d hv
  obtain ⟨y, hy, hyb⟩ := get e hw
  obtain ⟨z', y', h1, h2, h3, h4, h5⟩ := hg z y hzb hyb (same_get hr _ _ _ hz hy)
  refine ⟨.dict (PyDict.set d (.str "histogram") z'), .dict (PyDict.set e (.str "histogram") y'), ?_, ?_,
    hist_set hv (by simp) (fun _ => h3) (by simp), hist_set hw (by simp) (fun _ => h4) (by simp), same_dict (related_set hr _ h5)⟩
  · simp [inItem, onItem, item, hz, h1, Except.map]
  · simp [inItem, onItem, item, hy, h2, Except.map]

theorem eachItem_ok {K : Val F T L → Prop} {f : Key → Val F T L → Except Err (Val F T L)} (hf : ∀ k, Keeps lib K (f k)) {d e : Dict F T L}
    (h : Related (Same lib) d e) : (∀ k v, (k, v) ∈ d → K v) → (∀ k v, (k, v) ∈ e → K v) →
      ∃ d' e', eachItem f d = .ok d' ∧ eachItem f e = .ok e' ∧ Related (Same lib) d' e' ∧ d'.map Prod.fst = d.map Prod.fst ∧
        (∀ k v, (k, v) ∈ d' → K v) ∧ (∀ k v, (k, v) ∈ e' → K v) := by
  induction h with
  | nil => exact fun _ _ => ⟨[], [], rfl, rfl, .nil, rfl, by simp, by simp⟩
  | @cons x y _ _ h ht ih =>
    intro hd he
    obtain ⟨a, b⟩ := x; obtain ⟨a', b'⟩ := y
    obtain ⟨h1, h2⟩ := h
    simp only at h1 h2; subst h1
    obtain ⟨d', e', i1, i2, i3, i4, i5, i6⟩ := ih (fun k v hv => hd k v (List.mem_cons_of_mem _ hv))
      (fun k v hv => he k v (List.mem_cons_of_mem _ hv))
    obtain ⟨v', w', g1, g2, g3, g4, g5⟩ := hf a b b' (hd a b List.mem_cons_self) (he a b' List.mem_cons_self) h2
    refine ⟨(a, v') :: d', (a, w') :: e', by simp [eachItem, g1, i1, Except.map], by simp [eachItem, g2, i2, Except.map],
      .cons ⟨rfl, g5⟩ i3, by simp [i4], ?_, ?_⟩
    · intro k v hv
      rcases List.mem_cons.1 hv with hv | hv
      · cases hv; exact g3
      · exact i5 k v hv
    · intro k v hv
      rcases List.mem_cons.1 hv with hv | hv
      · cases hv; exact g4
      · exact i6 k v hv

theorem good_hists {f : Key → Val F T L → Except Err (Val F T L)} (hf : ∀ k, Keeps lib Histogram (f k)) :
    Keeps lib Histograms (inItems f) := by
  rintro _ _ ⟨d, rfl, hd, hd'⟩ ⟨e, rfl, he, he'⟩ hs
  have hr := same_dict_inv hd.1 hs
  obtain ⟨d1, e1, h1, h2, h3, h4, h5, h6⟩ := eachItem_ok hf hr hd' he'
  have hk : StrKeys d1 := by unfold StrKeys at *; rw [h4]; exact hd
  exact ⟨.dict d1, .dict e1, by simp [inItems, h1, Except.map], by simp [inItems, h2, Except.map], ⟨d1, rfl, hk, h5⟩,
    ⟨e1, rfl, strKeys_of h3 hk, h6⟩, same_dict h3⟩

theorem good_precision {s : String} {x : Val F T L} (hx : Plain x)
    (hl : s ∈ ["min", "max", "sum", "mean", "biased_var"] → OptFloat x) : Keeps lib Precision (putItem s x) := by
  have key : ∀ d : Dict F T L, Precision (.dict d) → Precision (.dict (PyDict.set d (.str s) x)) := by
    rintro _ ⟨d, he, hd, h⟩
    cases he
    refine ⟨_, rfl, ⟨strKeys_set hd.1 s x, ?_⟩, ?_⟩
    · intro k v hv
      rcases mem_set hd.1.1 hv with ⟨_, rfl⟩ | ⟨_, hv⟩
      · exact hx
      · exact hd.2 k v hv
    · intro t ht
      by_cases hts : t = s
      · subst hts; exact ⟨x, mem_set_self _ _, hl ht⟩
      · obtain ⟨w, hw, hwf⟩ := h t ht
        exact ⟨w, mem_set_of_ne hd.1.1 (fun h => hts (Key.str.inj h)) hw, hwf⟩
  intro v w hv hw hs
  obtain ⟨d, rfl, hd, _⟩ := id hv
  obtain ⟨e, rfl, he, _⟩ := id hw
  have hr := same_dict_inv hd.1.1 hs
  exact ⟨_, _, rfl, rfl, key d hv, key e hw, same_dict (related_set hr _ (plain_refl hx))⟩

/-- An integer. -/
def AnInt (v : Val F T L) : Prop := ∃ z, number v = some (.inl z)

theorem keeps_addInt {K : Val F T L → Prop} (h1 : ∀ v, K v → AnInt v) (h2 : ∀ z, K (.int z)) (h3 : ∀ z, K (.npInt z)) (n : ℤ) :
    Keeps lib K (addInt n) := by
  intro v w hv hw hs
  have add : ∀ {v : Val F T L} {z}, number v = some (.inl z) → ∃ v', addInt n v = .ok v' ∧ (v' = .int (z + n) ∨ v' = .npInt (z + n)) := by
    intro v z hz
    cases v <;> simp [number] at hz
    · subst hz; exact ⟨_, rfl, .inl rfl⟩
    · subst hz; exact ⟨_, rfl, .inr rfl⟩
    · subst hz; exact ⟨_, rfl, .inl rfl⟩
  obtain ⟨y, hy⟩ := h1 v hv
  obtain ⟨z, hz⟩ := h1 w hw
  have : y = z := by
    cases hs with
    | num h1 h2 =>
      rw [hy] at h1; rw [hz, ← h1] at h2; cases h2; rfl
    | time h => cases v <;> simp [moment, number] at h hy
    | _ => simp [number] at hy
  subst this
  obtain ⟨v', h4, h5⟩ := add hy
  obtain ⟨w', h6, h7⟩ := add hz
  have kn : ∀ {u : Val F T L}, u = .int (y + n) ∨ u = .npInt (y + n) → K u ∧ number u = some (.inl (y + n)) := by
    rintro u (rfl | rfl)
    · exact ⟨h2 _, rfl⟩
    · exact ⟨h3 _, rfl⟩
  exact ⟨v', w', h4, h6, (kn h5).1, (kn h7).1, .num (kn h5).2 (kn h7).2⟩

/-- A list of plain values. -/
def PlainList (v : Val F T L) : Prop := ∃ l, v = .list l ∧ Plain (.list l)

theorem plain_list {l : List (Val F T L)} (h : Plain (.list l)) : ∀ v ∈ l, Plain v := by
  cases h with
  | num hx => simp [number] at hx
  | list h => exact h

theorem good_push {x : Val F T L} (hx : Plain x) : Keeps lib PlainList (pushBatch x) := by
  rintro _ _ ⟨l, rfl, hl⟩ ⟨m, rfl, hm⟩ hs
  have hlm : l.length = m.length ∧ ∀ (i : ℕ) v w, l[i]? = some v → m[i]? = some w → Same lib v w := by
    cases hs with
    | num h => simp [number] at h
    | time h => simp [moment] at h
    | list h1 h2 => exact ⟨h1, h2⟩
  have key : ∀ l : List (Val F T L), Plain (.list l) → PlainList (.list ((if l.length = 5 then l.tail else l) ++ [x])) := by
    intro l hl
    refine ⟨_, rfl, .list fun v hv => ?_⟩
    rcases List.mem_append.1 hv with hv | hv
    · split_ifs at hv
      · exact plain_list hl v (List.mem_of_mem_tail hv)
      · exact plain_list hl v hv
    · simp at hv; subst hv; exact hx
  refine ⟨_, _, rfl, rfl, key l hl, key m hm, .list ?_ ?_⟩
  · simp only [hlm.1, List.length_append]; split_ifs <;> simp [hlm.1]
  · have app : ∀ l m : List (Val F T L), l.length = m.length → (∀ (i : ℕ) v w, l[i]? = some v → m[i]? = some w → Same lib v w) →
        ∀ (i : ℕ) v w, (l ++ [x])[i]? = some v → (m ++ [x])[i]? = some w → Same lib v w := by
      intro l m hlen h i v w hv hw
      by_cases hi : i < l.length
      · rw [List.getElem?_append_left hi] at hv
        rw [List.getElem?_append_left (hlen ▸ hi)] at hw
        exact h i v w hv hw
      · rw [List.getElem?_append_right (by omega)] at hv
        rw [List.getElem?_append_right (by omega)] at hw
        have := List.mem_of_getElem? hv
        have h2 := List.mem_of_getElem? hw
        simp at this h2; subst this; subst h2; exact plain_refl hx
    rw [← hlm.1]
    split_ifs
    · refine app _ _ (by simp [hlm.1]) fun i v w hv hw => ?_
      rw [List.getElem?_tail] at hv hw
      exact hlm.2 _ v w hv hw
    · exact app _ _ hlm.1 hlm.2

end Verif.ColumnJson
