import Mathlib.Algebra.Group.Defs
import Mathlib.Algebra.Group.Nat.Defs
import Verif.Lemmas.Nested

/-! # C24, C50: nested dictionaries -/

namespace Verif.Nested

open Verif

variable {A : Type}

/-! ## C24 -/

/-- **C24** Whenever adding two nested dictionaries succeeds, at every path the result holds the sum
of the leaves found there (absence being neutral), and it has a dictionary at a path exactly when
one of the operands has. -/
theorem C24_pointwise [Add A] (v w m : NV A) (h : addVal v w = .ok m) (p : List String) :
    m.leafAt p = addOpt (v.leafAt p) (w.leafAt p) ∧
    (m.DictAt p ↔ v.DictAt p ∨ w.DictAt p) :=
  ⟨(addVal_at p v w m h).1, (addVal_at p v w m h).2.1⟩

/-- **C24** Adding succeeds exactly when no path is a number on one side and a dictionary on the
other, and the result is again a well-formed dictionary. -/
theorem C24_ok_iff_compatible [Add A] (v w : NV A) (hv : v.WF) (hw : w.WF) :
    ((∃ m, addVal v w = .ok m) ↔ Compatible v w) ∧
    (∀ m, addVal v w = .ok m → m.WF) := by
  refine ⟨⟨?_, fun hc => addVal_ok v w hv hc⟩, ?_⟩
  · rintro ⟨m, hm⟩ p
    exact (addVal_at p v w m hm).2.2
  · intro m hm p d hd
    exact addVal_WF p v w m hm hv hw d hd

/-- **C24** A clash is a `TypeError`, never a wrong result. -/
theorem C24_clash_is_type_error [Add A] (v w : NV A) (e : Err) (h : addVal v w = .error e) :
    e = .typeError := by
  revert h
  refine addVal.induct (motive_2 := fun v w => addVal v w = .error e → e = .typeError)
    (motive_1 := fun d1 d2 => addItems d1 d2 = .error e → e = .typeError)
    ?_ ?_ ?_ ?_ ?_ ?_ ?_ v w
  · intro a b h; unfold addVal at h; cases h
  · intro d1 d2 ih h
    unfold addVal at h
    cases hi : addItems d1 d2 with
    | error e' => rw [hi] at h; cases h; exact ih hi
    | ok i => rw [hi] at h; cases h
  · intro d b h; unfold addVal at h; cases h; rfl
  · intro a d h; unfold addVal at h; cases h; rfl
  · intro d h; unfold addItems at h; cases h
  · intro k v rest second w hw ihrest ihv h
    rw [addItems_cons, hw] at h
    simp only at h
    cases hv : addVal v w with
    | error e' => rw [hv] at h; cases h; exact ihv hv
    | ok r =>
      rw [hv] at h
      cases hr : addItems rest second with
      | error e' => rw [hr] at h; cases h; exact ihrest hr
      | ok rs => rw [hr] at h; cases h
  · intro k v rest second hw ihrest h
    rw [addItems_cons, hw] at h
    simp only at h
    cases hr : addItems rest second with
    | error e' => rw [hr] at h; cases h; exact ihrest hr
    | ok rs => rw [hr] at h; cases h

/-- **C24** Adding nested dictionaries is commutative as a map. -/
theorem C24_comm [AddCommMonoid A] (v w m m' : NV A) (h : addVal v w = .ok m)
    (h' : addVal w v = .ok m') (p : List String) :
    m.leafAt p = m'.leafAt p ∧ (m.DictAt p ↔ m'.DictAt p) := by
  obtain ⟨a, b⟩ := C24_pointwise v w m h p
  obtain ⟨a', b'⟩ := C24_pointwise w v m' h' p
  constructor
  · rw [a, a']
    cases v.leafAt p <;> cases w.leafAt p <;> simp [addOpt, add_comm]
  · rw [b, b', or_comm]

/-- **C24** Adding nested dictionaries is associative as a map. -/
theorem C24_assoc [AddCommMonoid A] (u v w uv vw m m' : NV A) (h1 : addVal u v = .ok uv)
    (h2 : addVal uv w = .ok m) (h3 : addVal v w = .ok vw) (h4 : addVal u vw = .ok m')
    (p : List String) : m.leafAt p = m'.leafAt p ∧ (m.DictAt p ↔ m'.DictAt p) := by
  obtain ⟨a1, b1⟩ := C24_pointwise _ _ _ h1 p
  obtain ⟨a2, b2⟩ := C24_pointwise _ _ _ h2 p
  obtain ⟨a3, b3⟩ := C24_pointwise _ _ _ h3 p
  obtain ⟨a4, b4⟩ := C24_pointwise _ _ _ h4 p
  constructor
  · rw [a2, a4, a1, a3]
    cases u.leafAt p <;> cases v.leafAt p <;> cases w.leafAt p <;> simp [addOpt, add_assoc]
  · rw [b2, b4, b1, b3, or_assoc]

/-- A concrete pair of timing dictionaries: shared, one-sided and nested keys. -/
example :
    let v : NV Nat := .dict [("min", .leaf 1), ("hist", .dict [("a", .leaf 2)])]
    let w : NV Nat := .dict [("hist", .dict [("a", .leaf 5), ("b", .leaf 7)]), ("max", .leaf 3)]
    ∃ m, addVal v w = .ok m ∧ m.leafAt ["hist", "a"] = some 7 ∧ m.leafAt ["hist", "b"] = some 7 ∧
      m.leafAt ["min"] = some 1 ∧ m.leafAt ["max"] = some 3 := by
  refine ⟨.dict [("min", .leaf 1), ("hist", .dict [("a", .leaf 7), ("b", .leaf 7)]),
    ("max", .leaf 3)], ?_, ?_, ?_, ?_, ?_⟩
  · simp [addVal, addItems, PyDict.get?, bind, Except.bind, PyDict.has]
  all_goals simp [NV.leafAt, NV.at?, PyDict.get?]

/-- … and a clashing pair, where addition raises. -/
example : addVal (.dict [("a", .leaf 1)]) (.dict [("a", .dict [("b", .leaf (2 : Nat))])])
    = .error .typeError := by
  simp [addVal, addItems, PyDict.get?, bind, Except.bind]

/-! ## C50 -/

/-- **C50** After `recursive_dict_update(d, u)` a leaf is found at a path exactly when `u` has that
leaf there, or `d` has it and `u` has nothing at the path and no leaf on the way to it. -/
theorem C50_update_leaves (d u : PyDict String (NV A)) (hu : (NV.dict u).WF)
    (p : List String) (a : A) :
    (NV.dict (updItems d u)).leafAt p = some a ↔
      (NV.dict u).leafAt p = some a ∨
      ((NV.dict d).leafAt p = some a ∧ (NV.dict u).at? p = none ∧
        ∀ q, q <+: p → (NV.dict u).leafAt q = none) := by
  induction p generalizing d u with
  | nil => simp [NV.leafAt]
  | cons k p ih =>
    have hwf : PyDict.WF u := hu [] u (by simp)
    have pre : ∀ (x : NV A), (∀ q, q <+: (k :: p) → x.leafAt q = none) ↔
        (x.leafAt [] = none ∧ ∀ q, q <+: p → x.leafAt (k :: q) = none) := by
      intro x
      constructor
      · intro h
        exact ⟨h [] List.nil_prefix, fun q hq => h _ (List.cons_prefix_cons.2 ⟨rfl, hq⟩)⟩
      · rintro ⟨h0, h1⟩ q hq
        cases q with
        | nil => exact h0
        | cons k' q =>
          obtain ⟨rfl, hq'⟩ := List.cons_prefix_cons.1 hq
          exact h1 q hq'
    rw [pre]
    have hroot : (NV.dict u).leafAt [] = none := by simp [NV.leafAt]
    simp only [hroot, true_and]
    simp only [NV.leafAt, at?_dict_cons, updItems_get u d hwf k]
    cases hk : PyDict.get? u k with
    | none => simp
    | some v =>
      simp only [Option.bind_some]
      cases v with
      | leaf b =>
        simp only [merge1]
        constructor
        · intro h; exact Or.inl h
        · rintro (h | ⟨_, _, h⟩)
          · exact h
          · have := h [] List.nil_prefix
            simp at this
      | dict uv =>
        have huv : (NV.dict uv).WF := WF_sub hu hk
        cases hd : PyDict.get? d k with
        | none => simp [merge1]
        | some w =>
          cases w with
          | leaf c =>
            simp only [merge1, Option.bind_some]
            constructor
            · intro h; exact Or.inl h
            · rintro (h | ⟨h1, h2, _⟩)
              · exact h
              · cases p with
                | nil => simp at h2
                | cons => simp at h1
          | dict dv =>
            simp only [merge1, Option.bind_some]
            have := ih dv uv huv
            simp only [NV.leafAt] at this
            exact this

/-- **C50** Consequently every leaf of the update is set, and leaves of `d` on keys that `u` does not
mention survive. -/
theorem C50_update_sets_and_keeps (d u : PyDict String (NV A)) (hu : (NV.dict u).WF)
    (p : List String) (a : A) :
    ((NV.dict u).leafAt p = some a → (NV.dict (updItems d u)).leafAt p = some a) ∧
    (∀ k, p.head? = some k → PyDict.get? u k = none →
      (NV.dict (updItems d u)).leafAt p = (NV.dict d).leafAt p) := by
  refine ⟨fun h => (C50_update_leaves d u hu p a).2 (Or.inl h), ?_⟩
  intro k hk hn
  cases p with
  | nil => simp at hk
  | cons k' p =>
    simp at hk; subst hk
    simp only [NV.leafAt, at?_dict_cons, updItems_get u d (hu [] u (by simp)) k', hn]

/-- Updating twice with the same dictionary changes nothing more. -/
theorem C50_idempotent (d u : PyDict String (NV A)) (hu : (NV.dict u).WF) (p : List String) :
    (NV.dict (updItems (updItems d u) u)).leafAt p = (NV.dict (updItems d u)).leafAt p := by
  apply Option.ext
  intro a
  rw [C50_update_leaves _ u hu, C50_update_leaves d u hu]
  constructor
  · rintro (h | ⟨h | h, _⟩)
    · exact Or.inl h
    · exact Or.inl h
    · exact Or.inr h
  · rintro (h | h)
    · exact Or.inl h
    · exact Or.inr ⟨Or.inr h, h.2⟩

/-- Non-trivial update: a nested dictionary is merged, a leaf replaced by a dictionary, an untouched
branch kept. -/
example :
    let d : PyDict String (NV Nat) :=
      [("a", .dict [("x", .leaf 1), ("y", .leaf 2)]), ("b", .leaf 3), ("c", .leaf 4)]
    let u : PyDict String (NV Nat) := [("a", .dict [("y", .leaf 9)]), ("b", .dict [("z", .leaf 8)])]
    (NV.dict (updItems d u)).leafAt ["a", "x"] = some 1 ∧
    (NV.dict (updItems d u)).leafAt ["a", "y"] = some 9 ∧
    (NV.dict (updItems d u)).leafAt ["b", "z"] = some 8 ∧
    (NV.dict (updItems d u)).leafAt ["c"] = some 4 := by
  simp [updItems_cons, updItems_nil, merge1, PyDict.get?, PyDict.set, NV.leafAt, NV.at?]

end Verif.Nested
