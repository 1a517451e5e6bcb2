import Verif.Lemmas.Avro
import Mathlib.Tactic.Tauto

/-!
# C95: the schema derived from records fits them

The reader of AVRO files derives a schema from a list of dictionaries: the keys of all of them are merged and every key becomes a
field that may be null, a text or a record.
-/

namespace Verif.Props.Avro

open Verif Verif.Json Verif.Avro Verif.Spec.Avro

variable {A : Type}

/-! ## Coverage -/

/-- Everything in a record has a field: nothing is left out, at any depth. -/
theorem C95_covers (name : Key) (records : List (List (Key × J A))) (n : Key) (f : List (Key × Ty))
    (h : schemaOf name records = .ok (.record n f)) (r : List (Key × J A)) (hr : r ∈ records) (p : List Key) (v : J A)
    (hv : At r p v) : ∃ t, Field f p t := by
  obtain ⟨known, hm, hd, he⟩ := schemaOf_ok h
  cases he
  have hg := mergeAll_ok _ _ _ hm
  rw [← field_some p hd]
  by_cases ho : Object v
  · exact hg.2.2 p true ⟨r, hr, v, hv, by simp [ho]⟩
  · exact hg.2.2 p false ⟨r, hr, v, hv, by simp [ho]⟩

/-- No field is made up: every field is there for a record that has it, and it is a record exactly if an object is there. -/
theorem C95_needed (name : Key) (records : List (List (Key × J A))) (n : Key) (f : List (Key × Ty))
    (h : schemaOf name records = .ok (.record n f)) (p : List Key) (t : Ty) (ht : Field f p t) :
    ∃ r ∈ records, ∃ v, At r p v ∧ (Object v ↔ Record t) := by
  obtain ⟨known, hm, hd, he⟩ := schemaOf_ok h
  cases he
  have hg := mergeAll_ok _ _ _ hm
  cases t with
  | text =>
    obtain ⟨r, hr, v, hv, hb⟩ := hg.2.1 p false (look_empty p) ((field_look p hd false).2 ⟨_, ht, by simp [Record]⟩)
    exact ⟨r, hr, v, hv, by rw [← hb]; simp [Record]⟩
  | record m g =>
    obtain ⟨r, hr, v, hv, hb⟩ := hg.2.1 p true (look_empty p) ((field_look p hd true).2 ⟨_, ht, by simp [Record]⟩)
    exact ⟨r, hr, v, hv, by rw [← hb]; simp [Record]⟩

/-- No record type of the schema has two fields of one name. -/
theorem C95_distinct (name : Key) (records : List (List (Key × J A))) (n : Key) (f : List (Key × Ty))
    (h : schemaOf name records = .ok (.record n f)) : n = name ∧ Distinct f := by
  obtain ⟨known, -, hd, he⟩ := schemaOf_ok h
  cases he
  exact ⟨rfl, distinct_schema hd⟩

/-- The fields are in the order in which the records first have them. -/
theorem C95_order (name : Key) (records : List (List (Key × J A))) (n : Key) (f : List (Key × Ty))
    (h : schemaOf name records = .ok (.record n f)) : f.map Prod.fst = firsts (records.flatMap fun r => r.map Prod.fst) := by
  obtain ⟨known, hm, -, he⟩ := schemaOf_ok h
  cases he
  rw [schemaFields_keys, mergeAll_keys _ _ _ hm]
  rfl

/-! ## Kinds -/

/-- The first record that has a key decides whether its field is a record or a text. -/
theorem C95_first (name : Key) (before after : List (List (Key × J A))) (r : List (Key × J A)) (n : Key) (f : List (Key × Ty))
    (h : schemaOf name (before ++ r :: after) = .ok (.record n f)) (p : List Key) (v : J A)
    (hb : ∀ s ∈ before, ∀ w, ¬ At s p w) (hv : At r p v) (hu : ∀ w, At r p w → w = v) :
    ∃ t, Field f p t ∧ (Record t ↔ Object v) := by
  obtain ⟨known, hm, hd, he⟩ := schemaOf_ok h
  cases he
  rw [mergeAll_append] at hm
  cases h0 : mergeAll before [] with
  | error e => rw [h0] at hm; cases hm
  | ok k0 =>
    rw [h0] at hm
    dsimp only at hm
    rw [mergeAll] at hm
    cases h1 : mergeFields r k0 with
    | error e => rw [h1] at hm; cases hm
    | ok k1 =>
      rw [h1] at hm
      dsimp only at hm
      have g0 := mergeAll_ok _ _ _ h0
      have g1 := (mergeFields_spec r k0).1 _ h1
      have g2 := mergeAll_ok _ _ _ hm
      have n0 : look p k0 = none := by
        cases hl : look p k0 with
        | none => rfl
        | some b =>
          obtain ⟨s, hs, w, hw, -⟩ := g0.2.1 p b (look_empty p) hl
          exact absurd hw (hb s hs w)
      have s1 : look p k1 ≠ none := by
        by_cases ho : Object v
        · exact g1.2.2 p true ⟨v, hv, by simp [ho]⟩
        · exact g1.2.2 p false ⟨v, hv, by simp [ho]⟩
      cases hl : look p k1 with
      | none => exact absurd hl s1
      | some b =>
        obtain ⟨w, hw, hwb⟩ := g1.2.1 p b n0 hl
        rw [hu w hw] at hwb
        obtain ⟨t, ht, hb'⟩ := (field_look p hd b).1 (g2.1 p b hl)
        exact ⟨t, ht, by rw [← hb', hwb]⟩

theorem look_before {p q : List Key} {d : PyDict Key Nested} (hp : p ≠ []) (hq : q ≠ []) (h : look (p ++ q) d ≠ none) :
    look p d = some true := by
  induction p generalizing d with
  | nil => exact absurd rfl hp
  | cons k p ih =>
    rw [List.cons_append] at h
    cases hk : PyDict.get? d k with
    | none => rw [look_none hk] at h; exact absurd rfl h
    | some x =>
      cases x with
      | one => rw [look_one hk, if_neg (by simp [hq])] at h; exact absurd rfl h
      | keys e =>
        rw [look_keys hk]
        rw [look_keys hk, if_neg (by simp [hq])] at h
        by_cases hn : p = []
        · rw [if_pos hn]
        · rw [if_neg hn]; exact ih hn h

theorem at_append {r : List (Key × J A)} {p o q v} (h : At r p (.obj o)) (hq : At o q v) : At r (p ++ q) v := by
  generalize hw : J.obj o = w at h
  induction h with
  | here h => subst hw; exact .deeper h hq
  | deeper h _ ih => exact .deeper h (ih hw)

theorem schemaOf_error {name : Key} {records : List (List (Key × J A))} {e} (h : schemaOf name records = .error e) :
    mergeAll records [] = .error e := by
  rw [schemaOf, nestedKeys] at h
  cases hm : mergeAll records [] with
  | error e' => rw [hm] at h; cases h; rfl
  | ok known => rw [hm] at h; cases h

/-- A schema is derived unless something that is not an object in a record is an object in the same or a later one. -/
theorem C95_error (name : Key) (records : List (List (Key × J A))) (e : Err) (h : schemaOf name records = .error e) :
    e = .typeError ∧ ∃ before r after p v o, records = before ++ r :: after ∧ (∃ s ∈ before ++ [r], At s p v) ∧ ¬ Object v ∧
      At r p (.obj o) := by
  obtain ⟨he, before, r, after, p, hr, hf, w, hw, hb⟩ := mergeAll_error _ _ _ (schemaOf_error h)
  rcases hf with hf | ⟨s, hs, v, hv, hvb⟩
  · rw [look_empty] at hf; cases hf
  · cases w with
    | obj o => exact ⟨he, before, r, after, p, v, o, hr, ⟨s, hs, hv⟩, by simpa using hvb, hw⟩
    | val a => simp [Object] at hb
    | list a => simp [Object] at hb

/-- Records that agree have a schema. -/
theorem C95_agree (name : Key) (records : List (List (Key × J A))) (h : Agree records) :
    ∃ f, schemaOf name records = .ok (.record name f) := by
  cases hs : schemaOf name records with
  | error e =>
    obtain ⟨-, before, r, after, p, v, o, rfl, ⟨s, hs', hv⟩, ho, hr⟩ := C95_error name records e hs
    exact absurd (h s (by simp at hs' ⊢; tauto) r (by simp) p v o hv hr) ho
  | ok ty =>
    obtain ⟨known, -, -, rfl⟩ := schemaOf_ok hs
    exact ⟨_, rfl⟩

/-- A key that first has a scalar and later an object with keys is refused. -/
theorem C95_clash (name : Key) (before after : List (List (Key × J A))) (r : List (Key × J A)) (p : List Key) (v : J A)
    (hb : ∀ s ∈ before, ∀ w, ¬ At s p w) (hv : At r p v) (hu : ∀ w, At r p w → w = v) (ho : ¬ Object v)
    (s : List (Key × J A)) (hs : s ∈ after) (o : List (Key × J A)) (hso : At s p (.obj o)) (hn : o ≠ []) :
    schemaOf name (before ++ r :: after) = .error .typeError := by
  cases h : schemaOf name (before ++ r :: after) with
  | error e => rw [(C95_error _ _ _ h).1]
  | ok ty =>
    exfalso
    obtain ⟨known, hm, hd, rfl⟩ := schemaOf_ok h
    obtain ⟨t, ht, hto⟩ := C95_first name before after r name _ h p v hb hv hu
    obtain ⟨⟨k, w⟩, hk⟩ := List.exists_mem_of_ne_nil o hn
    obtain ⟨u, hu'⟩ := C95_covers name _ name _ h s (by simp [hs]) _ w (at_append hso (.here hk))
    have h1 := look_before (at_nonempty hv) (by simp) ((field_some _ hd).2 ⟨u, hu'⟩)
    have h2 := (field_look p hd false).2 ⟨t, ht, by simp [hto, ho]⟩
    rw [h1] at h2
    cases h2

/-! ## Fitting -/

theorem nodup_unique {f : List (Key × Ty)} (h : (f.map Prod.fst).Nodup) {k t u} (ht : (k, t) ∈ f) (hu : (k, u) ∈ f) : t = u := by
  have h1 := PyDict.get?_of_mem (d := f) h ht
  rw [PyDict.get?_of_mem (d := f) h hu] at h1
  cases h1
  rfl

theorem fits_object (null : A → Prop) (n : Key) (f : List (Key × Ty)) (hd : Distinct f) (o : List (Key × J A))
    (h1 : ∀ p a, At o p (.val a) → ∃ t, Field f p t ∧ (Record t → null a))
    (h2 : ∀ p o', At o p (.obj o') → ∃ t, Field f p t ∧ Record t) (h3 : ∀ p xs, ¬ At o p (.list xs)) :
    Fits null (.record n f) (.obj o) := by
  classical
  have hnd : (f.map Prod.fst).Nodup := by cases hd; assumption
  have hsub : ∀ k m g, (k, .record m g) ∈ f → Distinct g := by cases hd; assumption
  have hex : ∀ k v, (k, v) ∈ o → ∃ t, (k, t) ∈ f := by
    intro k v hk
    cases v with
    | val a =>
      obtain ⟨t, ht, -⟩ := h1 [k] a (.here hk)
      cases ht with
      | here h => exact ⟨_, h⟩
      | deeper h _ => exact ⟨_, h⟩
    | obj o' =>
      obtain ⟨t, ht, -⟩ := h2 [k] o' (.here hk)
      cases ht with
      | here h => exact ⟨_, h⟩
      | deeper h _ => exact ⟨_, h⟩
    | list xs => exact absurd (.here hk) (h3 [k] xs)
  have hpick : ∀ k v, (k, v) ∈ o → (k, if h : ∃ t, (k, t) ∈ f then h.choose else .text) ∈ f := by
    intro k v hk
    rw [dif_pos (hex k v hk)]
    exact (hex k v hk).choose_spec
  refine .record (fun k _ => if h : ∃ t, (k, t) ∈ f then h.choose else .text) hpick ?_
  intro k v hk
  have hm := hpick k v hk
  generalize (if h : ∃ t, (k, t) ∈ f then h.choose else Ty.text) = t at hm
  have here : ∀ u, Field f [k] u → u = t := by
    intro u hu
    cases hu with
    | here h => exact nodup_unique hnd h hm
    | deeper _ h => exact absurd rfl (field_nonempty h)
  cases v with
  | val a =>
    obtain ⟨u, hu, hn⟩ := h1 [k] a (.here hk)
    rw [here u hu] at hn
    cases t with
    | text => exact .text a
    | record m g => exact .null (hn trivial)
  | list xs => exact absurd (.here hk) (h3 [k] xs)
  | obj o' =>
    obtain ⟨u, hu, hn⟩ := h2 [k] o' (.here hk)
    rw [here u hu] at hn
    cases t with
    | text => exact absurd hn (by simp [Record])
    | record m g =>
      have down : ∀ p u, p ≠ [] → Field f (k :: p) u → Field g p u := by
        intro p u hp hu
        cases hu with
        | here h => exact absurd rfl hp
        | deeper h hq =>
          have := nodup_unique hnd h hm
          cases this
          exact hq
      have hlt : sizeOf o' < sizeOf o := by
        have := List.sizeOf_lt_of_mem hk
        simp at this
        omega
      exact fits_object null m g (hsub k m g hm) o'
        (fun p a h => by
          obtain ⟨u, hu, hn⟩ := h1 (k :: p) a (.deeper hk h)
          exact ⟨u, down p u (at_nonempty h) hu, hn⟩)
        (fun p o'' h => by
          obtain ⟨u, hu, hn⟩ := h2 (k :: p) o'' (.deeper hk h)
          exact ⟨u, down p u (at_nonempty h) hu, hn⟩)
        (fun p xs h => h3 (k :: p) xs (.deeper hk h))
termination_by sizeOf o

/-- Every record fits the schema derived from all of them, if none has lists and where one has a scalar and another an object the
scalar is null and the object has keys. -/
theorem C95_fits_partial (null : A → Prop) (name : Key) (records : List (List (Key × J A))) (ty : Ty)
    (h : schemaOf name records = .ok ty) (hc : Compatible null records) (hp : ∀ r ∈ records, Plain r)
    (r : List (Key × J A)) (hr : r ∈ records) : Fits null ty (.obj r) := by
  obtain ⟨known, hm, hd, rfl⟩ := schemaOf_ok h
  have hg := mergeAll_ok _ _ _ hm
  refine fits_object null name _ (distinct_schema hd) r ?_ ?_ (hp r hr)
  · intro p a ha
    obtain ⟨t, ht⟩ := C95_covers name records name _ h r hr p _ ha
    refine ⟨t, ht, fun hrec => ?_⟩
    obtain ⟨s, hs, v, hv, hvo⟩ := C95_needed name records name _ h p t ht
    cases v with
    | obj o => exact (hc r hr s hs p a o ha hv).1
    | val b => exact absurd (hvo.2 hrec) (by simp [Object])
    | list b => exact absurd (hvo.2 hrec) (by simp [Object])
  · intro p o ho
    obtain ⟨t, ht⟩ := C95_covers name records name _ h r hr p _ ho
    refine ⟨t, ht, ?_⟩
    cases t with
    | record m g => trivial
    | text =>
      exfalso
      obtain ⟨s, hs, v, hv, hvo⟩ := C95_needed name records name _ h p _ ht
      cases v with
      | obj o' => exact hvo.1 trivial
      | list xs => exact hp s hs p xs hv
      | val a =>
        obtain ⟨⟨k, w⟩, hk⟩ := List.exists_mem_of_ne_nil o (hc s hs r hr p a o hv ho).2
        obtain ⟨u, hu⟩ := C95_covers name records name _ h r hr _ w (at_append ho (.here hk))
        have h1 := look_before (at_nonempty ho) (by simp) ((field_some _ hd).2 ⟨u, hu⟩)
        have h2 := (field_look p hd false).2 ⟨_, ht, by simp [Record]⟩
        rw [h1] at h2
        cases h2

/-- Records that agree and have no lists fit the schema derived from them. -/
theorem C95_agree_fits (null : A → Prop) (name : Key) (records : List (List (Key × J A))) (ha : Agree records)
    (hp : ∀ r ∈ records, Plain r) : ∃ ty, schemaOf name records = .ok ty ∧ ∀ r ∈ records, Fits null ty (.obj r) := by
  obtain ⟨f, hf⟩ := C95_agree name records ha
  refine ⟨_, hf, C95_fits_partial null name records _ hf ?_ hp⟩
  intro r hr s hs p a o h1 h2
  exact absurd (ha r hr s hs p _ o h1 h2) (by simp [Object])

/-! ## Names -/

/-- Every record type is named after its field, the last key of its path. -/
theorem C95_names (name : Key) (records : List (List (Key × J A))) (n : Key) (f : List (Key × Ty))
    (h : schemaOf name records = .ok (.record n f)) (p : List Key) (m : Key) (g : List (Key × Ty)) (ht : Field f p (.record m g)) :
    p.getLast? = some m := by
  obtain ⟨known, -, -, he⟩ := schemaOf_ok h
  cases he
  clear h
  generalize hd : schemaFields known = f at ht
  generalize hty : Ty.record m g = ty at ht
  induction ht generalizing known with
  | here h =>
    subst hty hd
    obtain ⟨rfl, -⟩ := mem_record.1 h
    rfl
  | deeper h hp ih =>
    subst hd
    obtain ⟨-, e, -, rfl⟩ := mem_record.1 h
    have := ih e rfl hty
    rw [List.getLast?_cons, this]
    rfl

/-! ## Cases -/

/-- Two records with an address, one of them without a city, and a key only the second has. -/
def people : List (List (Key × J (Option ℕ))) :=
  [[("name".toList, .val (some 1)), ("address".toList, .obj [("street".toList, .val (some 2))])],
   [("age".toList, .val (some 3)), ("address".toList, .obj [("city".toList, .val none), ("street".toList, .val none)])]]

example : schemaOf "t".toList people = .ok (.record "t".toList
    [("name".toList, .text), ("address".toList, .record "address".toList [("street".toList, .text), ("city".toList, .text)]),
     ("age".toList, .text)]) := by
  simp [schemaOf, nestedKeys, people, mergeAll, mergeFields, mergeField, schema, schemaFields, PyDict.get?, PyDict.set, PyDict.has]

/-- A null address in the first record makes the derivation fail, although the schema of the second fits both. -/
theorem C95_null_first_fails : ∃ r s : List (Key × J (Option ℕ)),
    schemaOf "t".toList [r, s] = .error .typeError ∧
      ∃ ty, schemaOf "t".toList [s, r] = .ok ty ∧ ∀ x ∈ [r, s], Fits (· = none) ty (.obj x) := by
  refine ⟨[("a".toList, .val none)], [("a".toList, .obj [("b".toList, .val (some 1))])], ?_, .record "t".toList
    [("a".toList, .record "a".toList [("b".toList, .text)])], ?_, ?_⟩
  · simp [schemaOf, nestedKeys, mergeAll, mergeFields, mergeField, PyDict.get?, PyDict.set, PyDict.has]
  · simp [schemaOf, nestedKeys, mergeAll, mergeFields, mergeField, schema, schemaFields, PyDict.get?, PyDict.set, PyDict.has]
  · intro x hx
    simp only [List.mem_cons, List.not_mem_nil, or_false] at hx
    rcases hx with rfl | rfl
    · refine .record (fun _ _ => .record "a".toList [("b".toList, .text)]) ?_ ?_
      · intro k v h; simp at h; simp [h]
      · intro k v h; simp at h; rw [h.2]; exact .null rfl
    · refine .record (fun _ _ => .record "a".toList [("b".toList, .text)]) ?_ ?_
      · intro k v h; simp at h; simp [h]
      · intro k v h
        simp at h
        rw [h.2]
        refine .record (fun _ _ => .text) ?_ ?_
        · intro k v h; simp at h; simp [h]
        · intro k v h; simp at h; rw [h.2]; exact .text _

/-- A scalar where an earlier record has an object gets a schema that it does not fit. -/
theorem C95_scalar_later_fails : ∃ r s : List (Key × J (Option ℕ)), ∃ ty,
    schemaOf "t".toList [r, s] = .ok ty ∧ ¬ Fits (· = none) ty (.obj s) := by
  refine ⟨[("a".toList, .obj [("b".toList, .val (some 1))])], [("a".toList, .val (some 2))], .record "t".toList
    [("a".toList, .record "a".toList [("b".toList, .text)])], ?_, ?_⟩
  · simp [schemaOf, nestedKeys, mergeAll, mergeFields, mergeField, schema, schemaFields, PyDict.get?, PyDict.set, PyDict.has]
  · intro h
    cases h with
    | record t h hv =>
      have h1 := h _ _ (List.mem_singleton.2 rfl)
      have h2 := hv _ _ (List.mem_singleton.2 rfl)
      generalize t "a".toList (.val (some 2)) = u at h1 h2
      have h3 : u = .record "a".toList [("b".toList, .text)] := by simpa using h1
      rw [h3] at h2
      cases h2 with
      | null h => cases h

/-- A list gets a field of text, which it does not fit. -/
theorem C95_list_fails : ∃ r : List (Key × J (Option ℕ)), ∃ ty, schemaOf "t".toList [r] = .ok ty ∧ ¬ Fits (· = none) ty (.obj r) := by
  refine ⟨[("a".toList, .list [.val (some 1)])], .record "t".toList [("a".toList, .text)], ?_, ?_⟩
  · simp [schemaOf, nestedKeys, mergeAll, mergeFields, mergeField, schema, schemaFields, PyDict.get?, PyDict.set, PyDict.has]
  · intro h
    cases h with
    | record t h hv =>
      have h2 := hv _ _ (List.mem_singleton.2 rfl)
      generalize t "a".toList (.list [.val (some 1)]) = u at h2
      cases h2

/-- One key for objects at two places gives two record types of one name, which AVRO does not allow. -/
theorem C95_names_fails : ∃ r : List (Key × J (Option ℕ)), ∃ f p q m g g', schemaOf "t".toList [r] = .ok (.record "t".toList f) ∧ p ≠ q ∧
    Field f p (.record m g) ∧ Field f q (.record m g') ∧ g.length ≠ g'.length := by
  refine ⟨[("home".toList, .obj [("address".toList, .obj [("street".toList, .val none), ("city".toList, .val none)])]),
      ("address".toList, .obj [("street".toList, .val none)])],
    [("home".toList, .record "home".toList [("address".toList, .record "address".toList [("street".toList, .text), ("city".toList, .text)])]),
      ("address".toList, .record "address".toList [("street".toList, .text)])],
    ["home".toList, "address".toList], ["address".toList], "address".toList, [("street".toList, .text), ("city".toList, .text)],
    [("street".toList, .text)], ?_, by simp, ?_, ?_, by simp⟩
  · simp [schemaOf, nestedKeys, mergeAll, mergeFields, mergeField, schema, schemaFields, PyDict.get?, PyDict.set, PyDict.has]
  · exact .deeper (n := "home".toList) (List.mem_cons_self ..) (.here (List.mem_singleton.2 rfl))
  · exact .here (by simp)

/-- The records above agree and have no lists. -/
example : ∃ ty, schemaOf "t".toList people = .ok ty ∧ ∀ r ∈ people, Fits (· = none) ty (.obj r) := by
  apply C95_agree_fits
  · intro r hr s hs p v o hv ho
    simp only [people, List.mem_cons, List.not_mem_nil, or_false] at hr hs
    have key : p = ["address".toList] := by
      rcases hs with rfl | rfl <;> (simp [at_cons (rest := _ :: _), at_single] at ho; simp [ho])
    subst key
    rcases hr with rfl | rfl <;> (simp [at_cons (rest := _ :: _), at_single] at hv; simp [hv, Object])
  · intro r hr p xs h
    simp only [people, List.mem_cons, List.not_mem_nil, or_false] at hr
    rcases hr with rfl | rfl <;> simp [at_cons (rest := _ :: _), at_single] at h

end Verif.Props.Avro
