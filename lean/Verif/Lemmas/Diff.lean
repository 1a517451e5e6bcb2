import Mathlib.Data.List.Basic
import Mathlib.Data.List.Perm.Basic
import Mathlib.Data.List.Count
import Mathlib.Data.List.Nodup
import Mathlib.Algebra.Order.Ring.Rat
import Mathlib.Tactic.Ring
import Mathlib.Tactic.Linarith
import Verif.Lemmas.PyDict
import Verif.Spec.Diff

/-! Helper lemmas about differences. -/

namespace Verif.Diffs

open Verif

variable {α : Type}

theorem Num.ne_false_iff (a b : Num) : a.ne b = false ↔ ∃ q, a = .fin q ∧ b = .fin q := by
  cases a <;> cases b <;> simp [Num.ne]
  exact eq_comm

theorem Num.ne_comm (a b : Num) : a.ne b = b.ne a := by
  cases a <;> cases b <;> simp [Num.ne, eq_comm]

theorem Num.sub_neg (a b : Num) : b.sub a = (a.sub b).neg := by
  cases a <;> cases b <;> simp [Num.sub, Num.neg]

section
variable [DecidableEq α]

theorem sharedLoop_count (l1 l2 : List α) (x : α) :
    (sharedLoop l1 l2).1.count x = min (l1.count x) (l2.count x) ∧
    (sharedLoop l1 l2).2.count x = l2.count x - l1.count x := by
  induction l1 generalizing l2 with
  | nil => simp [sharedLoop]
  | cons e es ih =>
    unfold sharedLoop
    split
    · rename_i he
      obtain ⟨a, b⟩ := ih (l2.erase e)
      have hpos := List.count_pos_iff.2 he
      simp only [List.count_cons]
      rw [a, b]
      by_cases hx : e = x
      · subst hx
        simp only [List.count_erase_self, beq_self_eq_true, if_true]
        omega
      · have hx' : ¬ (e == x) = true := by simpa using hx
        rw [List.count_erase_of_ne (Ne.symm hx)]
        simp [hx']
    · rename_i he
      obtain ⟨a, b⟩ := ih l2
      rw [a, b]
      by_cases hx : e = x
      · subst hx
        rw [List.count_eq_zero_of_not_mem he]
        omega
      · rw [List.count_cons_of_ne hx]
        exact ⟨rfl, rfl⟩

theorem removeAll_count (t s : List α) (x : α) :
    (removeAll t s).count x = t.count x - s.count x := by
  unfold removeAll
  induction s generalizing t with
  | nil => simp
  | cons e s ih =>
    rw [List.foldl_cons, ih, List.count_cons]
    by_cases hx : e = x
    · subst hx
      rw [List.count_erase_self]
      simp only [beq_self_eq_true, if_true]
      omega
    · have hx' : ¬ (e == x) = true := by simpa using hx
      rw [List.count_erase_of_ne (Ne.symm hx)]
      simp [hx']

theorem diffItems_cons (k : String) (v : PV α) (rest d2 : List (String × PV α)) :
    diffItems ((k, v) :: rest) d2 =
      match diffVal v ((PyDict.get? d2 k).getD .none), diffItems rest d2 with
      | .ok r, .ok rs => .ok ((k, r) :: rs)
      | .ok _, .error e => .error e
      | .error e, _ => .error e := by
  rw [diffItems]
  cases diffVal v ((PyDict.get? d2 k).getD .none) with
  | error e => rfl
  | ok r => cases diffItems rest d2 <;> rfl

/-- What the first loop computes: the keys of the first dictionary, each with its difference. -/
theorem diffItems_spec (d1 d2 : List (String × PV α)) (items : List (String × Diff α))
    (h : diffItems d1 d2 = .ok items) :
    PyDict.keys items = PyDict.keys d1 ∧
    ∀ k, match PyDict.get? d1 k with
      | some v => ∃ r, PyDict.get? items k = some r ∧
          diffVal v ((PyDict.get? d2 k).getD .none) = .ok r
      | none => PyDict.get? items k = none := by
  induction d1 generalizing items with
  | nil => rw [diffItems] at h; cases h; simp [PyDict.keys]
  | cons kv rest ih =>
    obtain ⟨k0, v0⟩ := kv
    rw [diffItems_cons] at h
    cases h1 : diffVal v0 ((PyDict.get? d2 k0).getD .none) with
    | error e => rw [h1] at h; simp at h
    | ok r =>
      rw [h1] at h
      cases h2 : diffItems rest d2 with
      | error e => rw [h2] at h; simp at h
      | ok rs =>
        rw [h2] at h
        simp only [Except.ok.injEq] at h
        subst h
        obtain ⟨a, b⟩ := ih rs h2
        refine ⟨by simp only [PyDict.keys, List.map_cons] at a ⊢; rw [a], ?_⟩
        intro k
        by_cases hk : k0 = k
        · subst hk
          simp only [PyDict.get?, if_true]
          exact ⟨r, rfl, h1⟩
        · simp only [PyDict.get?, if_neg hk]
          exact b k

omit [DecidableEq α] in
theorem get?_append_map (items : List (String × Diff α)) (d2 : List (String × PV α)) (k : String) :
    PyDict.get? (items ++ (d2.filter fun kv => !PyDict.has items kv.1).map
      fun kv => (kv.1, Diff.pair .none kv.2)) k =
      match PyDict.get? items k with
      | some r => some r
      | none => (PyDict.get? d2 k).map (Diff.pair .none) := by
  have happ : ∀ (a b : List (String × Diff α)), PyDict.get? (a ++ b) k =
      match PyDict.get? a k with
      | some r => some r
      | none => PyDict.get? b k := by
    intro a b
    induction a with
    | nil => rfl
    | cons p a ih =>
      obtain ⟨x, y⟩ := p
      simp only [List.cons_append, PyDict.get?]
      by_cases hx : x = k
      · simp [hx]
      · simp only [if_neg hx, ih]
  rw [happ]
  cases hi : PyDict.get? items k with
  | some r => rfl
  | none =>
    simp only
    have hno : PyDict.has items k = false := by simp [PyDict.has, hi]
    induction d2 with
    | nil => rfl
    | cons p d2 ih =>
      obtain ⟨x, y⟩ := p
      by_cases hx : x = k
      · subst hx
        simp [hno, PyDict.get?]
      · rw [List.filter_cons]
        split
        · simp only [List.map_cons, PyDict.get?, if_neg hx]
          exact ih
        · simp only [PyDict.get?, if_neg hx]
          exact ih

theorem diffVal_dict (d1 d2 : List (String × PV α)) :
    diffVal (.dict d1) (.dict d2) =
      match diffItems d1 d2 with
      | .ok items => .ok (assemble items d2)
      | .error e => .error e := by
  rw [diffVal]; cases diffItems d1 d2 <;> rfl

theorem diffShared_cons (k : String) (v : PV α) (rest d2 : List (String × PV α)) :
    diffShared ((k, v) :: rest) d2 =
      match PyDict.get? d2 k with
      | none => diffShared rest d2
      | some w =>
        match diffVal' v w, diffShared rest d2 with
        | .ok r, .ok rs => .ok ((k, r) :: rs)
        | .ok _, .error e => .error e
        | .error e, _ => .error e := by
  rw [diffShared]
  cases PyDict.get? d2 k with
  | none =>
    cases h : diffShared rest d2 <;> simp [bind, Except.bind]
  | some w =>
    simp only
    cases diffVal' v w with
    | error e => rfl
    | ok r => cases diffShared rest d2 <;> rfl

theorem diffVal'_dict (d1 d2 : List (String × PV α)) :
    diffVal' (.dict d1) (.dict d2) =
      match diffShared d1 d2 with
      | .ok shared => .ok (assemble' (d1.filter fun kv => !PyDict.has d2 kv.1) shared
          (d2.filter fun kv => !PyDict.has d1 kv.1))
      | .error e => .error e := by
  rw [diffVal']; cases diffShared d1 d2 <;> rfl

/-- What the first loop of the variant with three parts computes. -/
theorem diffShared_spec (d1 d2 : List (String × PV α)) (shared : List (String × Diff α))
    (h : diffShared d1 d2 = .ok shared) (k : String) :
    match PyDict.get? d1 k, PyDict.get? d2 k with
      | some v, some w => ∃ r, PyDict.get? shared k = some r ∧ diffVal' v w = .ok r
      | _, _ => PyDict.get? shared k = none := by
  induction d1 generalizing shared with
  | nil => rw [diffShared] at h; cases h; cases PyDict.get? d2 k <;> simp
  | cons kv rest ih =>
    obtain ⟨k0, v0⟩ := kv
    rw [diffShared_cons] at h
    cases hw : PyDict.get? d2 k0 with
    | none =>
      rw [hw] at h
      have := ih shared h
      by_cases hk : k0 = k
      · subst hk
        rw [hw] at this ⊢
        cases hr : PyDict.get? rest k0 <;> rw [hr] at this <;>
          cases PyDict.get? ((k0, v0) :: rest) k0 <;> exact this
      · simp only [PyDict.get?, if_neg hk]
        exact this
    | some w =>
      rw [hw] at h
      simp only at h
      cases h1 : diffVal' v0 w with
      | error e => rw [h1] at h; simp at h
      | ok r =>
        rw [h1] at h
        cases h2 : diffShared rest d2 with
        | error e => rw [h2] at h; simp at h
        | ok rs =>
          rw [h2] at h
          simp only [Except.ok.injEq] at h
          subst h
          by_cases hk : k0 = k
          · subst hk
            rw [hw]
            simp only [PyDict.get?, if_true]
            exact ⟨r, rfl, h1⟩
          · simp only [PyDict.get?, if_neg hk]
            exact ih rs h2

end

end Verif.Diffs
