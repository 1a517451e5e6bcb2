import Verif.Spec.MethodChoice
import Mathlib.Tactic.Ring
import Mathlib.Tactic.Linarith
import Mathlib.Tactic.FieldSimp
import Mathlib.Tactic.Common
import Mathlib.Tactic.NormNum

/-!
# Lemmas about the choice of a binning method
-/

namespace Verif.MethodChoice

open Verif Verif.Spec.MethodChoice

theorem excess_eq (l : List ℚ) (x : ℚ) (hl : l ≠ []) : (if mean l > 0 then (x - mean l) / mean l else 0) = excess l x := by
  have hn : (0 : ℚ) < l.length := by exact_mod_cast List.length_pos_iff.2 hl
  unfold mean excess
  by_cases h : 0 < l.sum
  · have : l.sum / l.length > 0 := div_pos h hn
    rw [if_pos this, if_pos h, sub_div, div_self (ne_of_gt this)]
    congr 1
    field_simp
  · have : ¬ l.sum / l.length > 0 := by
      push Not at h ⊢
      exact div_nonpos_of_nonpos_of_nonneg h hn.le
    rw [if_neg this, if_neg h]

theorem penalty_eq (l : List ℚ) (x : ℚ) : (if x - mean l ≥ 1 then (x - mean l) / mean l else 0) = penalty l x := by
  unfold mean penalty
  by_cases h : l.sum / l.length + 1 ≤ x
  · rw [if_pos (by linarith), if_pos h]
  · rw [if_neg (by intro h'; exact h (by linarith)), if_neg h]

theorem lossAt_eq (exact : ℚ) (est total run : List ℚ) (i : ℕ) (h1 : i < est.length) (h2 : i < total.length) (h3 : i < run.length) :
    lossAt ⟨est.map fun e => |exact - e|, total, run⟩ i = .ok (lossOf exact est total run i) := by
  unfold lossAt
  dsimp only
  rw [List.getElem?_map, List.getElem?_eq_getElem h1, List.getElem?_eq_getElem h2, List.getElem?_eq_getElem h3]
  dsimp only [Option.map_some]
  unfold loss lossOf
  rw [excess_eq _ _ (by intro h; have := congrArg List.length h; simp at this; subst this; simp at h1),
    excess_eq _ _ (by rintro rfl; simp at h2), penalty_eq]
  simp [List.getD_eq_getElem?_getD, h1, h2, h3]

theorem lossAt_short (q : Measures) (i : ℕ) (h : q.diff.length ≤ i ∨ q.total.length ≤ i ∨ q.run.length ≤ i) :
    lossAt q i = .error .indexError := by
  unfold lossAt
  rcases h with h | h | h
  · rw [List.getElem?_eq_none h]
  · rw [List.getElem?_eq_none h]
    cases q.diff[i]? <;> rfl
  · rw [List.getElem?_eq_none h]
    cases q.diff[i]? <;> cases q.total[i]? <;> rfl

/-- Whether the list is the methods with the losses added. -/
def added (f : ℕ → ℚ) : ℕ → List Method → List Method
  | _, [] => []
  | i, m :: ms => { m with current := f i, total := m.total + f i } :: added f (i + 1) ms

theorem added_eq (f : ℕ → ℚ) (i : ℕ) (ms : List Method) :
    added f i ms = ms.mapIdx fun j m => { m with current := f (i + j), total := m.total + f (i + j) } := by
  induction ms generalizing i with
  | nil => rfl
  | cons m ms ih =>
    rw [added, ih, List.mapIdx_cons]
    simp only [Nat.add_zero, Nat.add_assoc, Nat.add_comm 1]

theorem loop_ok (q : Measures) (f : ℕ → ℚ) (i : ℕ) (best : Option Method) (ms : List Method)
    (h : ∀ j, i ≤ j → j < i + ms.length → lossAt q j = .ok (f j)) :
    loop q i best ms = (.ok ((added f i ms).foldl better best), added f i ms) := by
  induction ms generalizing i best with
  | nil => rfl
  | cons m ms ih =>
    rw [loop, h i le_rfl (by simp)]
    dsimp only
    rw [ih (i + 1) _ fun j h1 h2 => h j (by omega) (by rw [List.length_cons]; omega)]
    rfl

/-- `m` is the best of a list. -/
theorem foldl_better (ms : List Method) (b : Method) :
    ∃ m, ms.foldl better (some b) = some m ∧ Best (b :: ms) m := by
  induction ms generalizing b with
  | nil => exact ⟨b, rfl, [], [], rfl, by simp, by simp⟩
  | cons a ms ih =>
    rw [List.foldl_cons, better]
    by_cases h1 : b.total ≥ a.total
    · rw [if_pos h1]
      by_cases h2 : a.bins ≤ b.bins ∧ b.total = a.total
      · rw [if_pos h2]
        obtain ⟨m, hm, pre, post, he, h3, h4⟩ := ih b
        refine ⟨m, hm, ?_⟩
        cases pre with
        | nil =>
          simp only [List.nil_append, List.cons.injEq] at he
          obtain ⟨rfl, rfl⟩ := he
          refine ⟨[], a :: ms, rfl, by simp, ?_⟩
          intro m' hm'
          rcases List.mem_cons.1 hm' with rfl | hm'
          · exact .inr ⟨h2.2, h2.1⟩
          · exact h4 m' hm'
        | cons c pre =>
          simp only [List.cons_append, List.cons.injEq] at he
          obtain ⟨rfl, rfl⟩ := he
          refine ⟨b :: a :: pre, post, rfl, ?_, h4⟩
          intro m' hm'
          rcases List.mem_cons.1 hm' with rfl | hm'
          · exact h3 _ (by simp)
          · rcases List.mem_cons.1 hm' with rfl | hm'
            · rcases h3 b (by simp) with h | ⟨h, h'⟩
              · exact .inl (by rw [← h2.2]; exact h)
              · exact .inr ⟨h.trans h2.2, by omega⟩
            · exact h3 _ (by simp [hm'])
      · rw [if_neg h2]
        obtain ⟨m, hm, pre, post, he, h3, h4⟩ := ih a
        have hab : a.total < b.total ∨ (a.total = b.total ∧ b.bins < a.bins) := by
          rcases lt_or_eq_of_le h1 with h | h
          · exact .inl h
          · right
            refine ⟨h, ?_⟩
            by_contra hc
            exact h2 ⟨by omega, h.symm⟩
        refine ⟨m, hm, b :: pre, post, by rw [he]; rfl, ?_, h4⟩
        intro m' hm'
        rcases List.mem_cons.1 hm' with rfl | hm'
        · cases pre with
          | nil =>
            simp only [List.nil_append, List.cons.injEq] at he
            obtain ⟨rfl, rfl⟩ := he
            exact hab
          | cons c pre =>
            simp only [List.cons_append, List.cons.injEq] at he
            obtain ⟨rfl, rfl⟩ := he
            rcases h3 a (by simp) with h | ⟨h, h'⟩
            · exact .inl (lt_of_lt_of_le h h1)
            · rcases hab with h5 | ⟨h5, h6⟩
              · exact .inl (by rw [h]; exact h5)
              · exact .inr ⟨h.trans h5, by omega⟩
        · exact h3 m' hm'
    · rw [if_neg h1]
      push Not at h1
      obtain ⟨m, hm, pre, post, he, h3, h4⟩ := ih b
      refine ⟨m, hm, ?_⟩
      cases pre with
      | nil =>
        simp only [List.nil_append, List.cons.injEq] at he
        obtain ⟨rfl, rfl⟩ := he
        refine ⟨[], a :: ms, rfl, by simp, ?_⟩
        intro m' hm'
        rcases List.mem_cons.1 hm' with rfl | hm'
        · exact .inl h1
        · exact h4 m' hm'
      | cons c pre =>
        simp only [List.cons_append, List.cons.injEq] at he
        obtain ⟨rfl, rfl⟩ := he
        refine ⟨b :: a :: pre, post, rfl, ?_, h4⟩
        intro m' hm'
        rcases List.mem_cons.1 hm' with rfl | hm'
        · exact h3 _ (by simp)
        · rcases List.mem_cons.1 hm' with rfl | hm'
          · rcases h3 b (by simp) with h | ⟨h, h'⟩
            · exact .inl (lt_trans h h1)
            · exact .inl (by rw [h]; exact h1)
          · exact h3 _ (by simp [hm'])

end Verif.MethodChoice
