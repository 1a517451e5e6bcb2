import Mathlib.Tactic.Ring
import Mathlib.Tactic.FieldSimp
import Mathlib.Tactic.Linarith
import Mathlib.Tactic.Positivity
import Mathlib.Algebra.Order.BigOperators.Group.Finset
import Mathlib.Algebra.Order.BigOperators.Group.List
import Mathlib.Algebra.BigOperators.Field
import Verif.Spec.FScore

/-! Helper lemmas about the metric of training. -/

namespace Verif.FScore

open Verif.Spec.FScore

/-! ### Batches -/

theorem added_reduced (m : Metric) (f g : Fin m.classes → ℚ) : added (reduced m f) (reduced m g) = reduced m fun i => f i + g i := by
  unfold reduced added
  split_ifs
  · simp only [List.zipWith_cons_cons, List.zipWith_nil_left, List.cons.injEq, and_true]
    induction List.finRange m.classes with
    | nil => simp
    | cons a t ih => simp only [List.map_cons, List.sum_cons, ← ih]; ring
  · rw [List.zipWith_map]
    induction List.finRange m.classes with
    | nil => rfl
    | cons a t ih => simp

/-- The counts of weighted samples. -/
def counts (m : Metric) (l : List (ℚ × Sample m.classes)) : State :=
  ⟨weightedSum m l fun x i => predicted m.threshold x.pred i * x.truth i,
    weightedSum m l fun x i => predicted m.threshold x.pred i * (1 - x.truth i),
    weightedSum m l fun x i => (1 - predicted m.threshold x.pred i) * x.truth i,
    weightedSum m l fun x i => x.truth i⟩

theorem added_sums (m : Metric) (l l' : List (ℚ × Sample m.classes)) (val : Sample m.classes → Fin m.classes → ℚ) :
    added (weightedSum m l val) (weightedSum m l' val) = weightedSum m (l ++ l') val := by
  unfold weightedSum
  rw [added_reduced]
  simp

theorem start_counts (m : Metric) : start m = counts m [] := by
  simp only [start, counts, weightedSum, List.map_nil, List.sum_nil]
  rfl

theorem weigh_of {n : ℕ} {samples : List (Sample n)} {ws : Option (List ℚ)} {l : List (ℚ × Sample n)} (h : Weighted samples ws l) :
    weigh samples ws = .ok l := by
  cases ws with
  | none => rw [weigh, h]
  | some ws =>
    unfold weigh
    simp only [if_pos h.1, h.2]

theorem updates_counts (m : Metric) : ∀ (bs : List (List (Sample m.classes) × Option (List ℚ))) (xs : List (List (ℚ × Sample m.classes)))
    (l : List (ℚ × Sample m.classes)), List.Forall₂ (fun b x => Weighted b.1 b.2 x) bs xs →
    updates m bs (counts m l) = .ok (counts m (l ++ xs.flatten))
  | [], _, l, h => by cases h; simp [updates]
  | (samples, ws) :: bs, _, l, h => by
    cases h with
    | @cons _ x _ xs h t =>
      rw [updates, update, weigh_of h]
      simp only
      have : (⟨added (counts m l).tp (weightedSum m x fun x i => predicted m.threshold x.pred i * x.truth i),
          added (counts m l).fp (weightedSum m x fun x i => predicted m.threshold x.pred i * (1 - x.truth i)),
          added (counts m l).fn (weightedSum m x fun x i => (1 - predicted m.threshold x.pred i) * x.truth i),
          added (counts m l).support (weightedSum m x fun x i => x.truth i)⟩ : State) = counts m (l ++ x) := by
        simp only [counts, added_sums]
      rw [this, updates_counts m bs xs (l ++ x) t]
      simp [List.append_assoc]

/-- The metric after all batches. -/
theorem updates_ok (m : Metric) {bs : List (List (Sample m.classes) × Option (List ℚ))} {l : List (ℚ × Sample m.classes)}
    (h : Given bs l) : updates m bs (start m) = .ok (counts m l) := by
  obtain ⟨xs, h, rfl⟩ := h
  rw [start_counts, updates_counts m bs xs [] h]
  simp

/-! ### Predictions -/

theorem foldl_max_le : ∀ (t : List ℚ) (a b : ℚ), t.foldl max a ≤ b ↔ a ≤ b ∧ ∀ x ∈ t, x ≤ b
  | [], a, b => by simp
  | x :: t, a, b => by
    rw [List.foldl_cons, foldl_max_le t (max a x) b, max_le_iff, List.forall_mem_cons, and_assoc]

theorem largest_le {n : ℕ} (p : Fin n → ℚ) (i : Fin n) : largest p ≤ p i ↔ ∀ j, p j ≤ p i := by
  have hall : ∀ b, (∀ j, p j ≤ b) ↔ ∀ x ∈ (List.finRange n).map p, x ≤ b := by
    intro b
    simp
  rw [hall]
  unfold largest
  have hne : (List.finRange n).map p ≠ [] := by
    intro h
    have : i ∈ List.finRange n := List.mem_finRange i
    rw [List.map_eq_nil_iff] at h
    rw [h] at this; cases this
  cases hl : (List.finRange n).map p with
  | nil => exact absurd hl hne
  | cons a t => simp only [foldl_max_le, List.forall_mem_cons]

open Classical in
theorem predicted_eq {n : ℕ} (t : Option ℚ) (p : Fin n → ℚ) (i : Fin n) : predicted t p i = if Predicted t p i then 1 else 0 := by
  cases t with
  | none =>
    unfold predicted Predicted
    simp only [ge_iff_le, gt_iff_lt, largest_le]
    norm_num
  | some t => unfold predicted Predicted; simp

open Classical in
theorem weight_sum {n : ℕ} (l : List (ℚ × Sample n)) (P : Sample n → Prop) :
    weight l P = (l.map fun x => if P x.2 then x.1 else 0).sum := by
  unfold weight
  induction l with
  | nil => rfl
  | cons x t ih =>
    by_cases h : P x.2
    · simp [h]; simpa using ih
    · simp [h]; simpa using ih

theorem sum_hits {n : ℕ} {t : Option ℚ} {l : List (ℚ × Sample n)} (h : ∀ x ∈ l, Labelled x.2) (i : Fin n) :
    (l.map fun x => predicted t x.2.pred i * x.2.truth i * x.1).sum = hits t l i := by
  classical
  unfold hits
  rw [weight_sum]
  congr 1
  refine List.map_congr_left fun x hx => ?_
  rw [predicted_eq]
  rcases h x hx i with h | h <;> by_cases hp : Predicted t x.2.pred i <;> simp [h, hp]

theorem sum_wrong {n : ℕ} {t : Option ℚ} {l : List (ℚ × Sample n)} (h : ∀ x ∈ l, Labelled x.2) (i : Fin n) :
    (l.map fun x => predicted t x.2.pred i * (1 - x.2.truth i) * x.1).sum = wrong t l i := by
  classical
  unfold wrong
  rw [weight_sum]
  congr 1
  refine List.map_congr_left fun x hx => ?_
  rw [predicted_eq]
  rcases h x hx i with h | h <;> by_cases hp : Predicted t x.2.pred i <;> simp [h, hp]

theorem sum_missed {n : ℕ} {t : Option ℚ} {l : List (ℚ × Sample n)} (h : ∀ x ∈ l, Labelled x.2) (i : Fin n) :
    (l.map fun x => (1 - predicted t x.2.pred i) * x.2.truth i * x.1).sum = missed t l i := by
  classical
  unfold missed
  rw [weight_sum]
  congr 1
  refine List.map_congr_left fun x hx => ?_
  rw [predicted_eq]
  rcases h x hx i with h | h <;> by_cases hp : Predicted t x.2.pred i <;> simp [h, hp]

theorem sum_size {n : ℕ} {l : List (ℚ × Sample n)} (h : ∀ x ∈ l, Labelled x.2) (i : Fin n) :
    (l.map fun x => x.2.truth i * x.1).sum = size l i := by
  classical
  unfold size
  rw [weight_sum]
  congr 1
  refine List.map_congr_left fun x hx => ?_
  rcases h x hx i with h | h <;> simp [h]

theorem weight_nonneg {n : ℕ} {l : List (ℚ × Sample n)} (h : ∀ x ∈ l, 0 ≤ x.1) (P : Sample n → Prop) : 0 ≤ weight l P := by
  classical
  rw [weight_sum]
  refine List.sum_nonneg fun y hy => ?_
  obtain ⟨x, hx, rfl⟩ := List.mem_map.1 hy
  split_ifs
  · exact h x hx
  · exact le_refl 0

/-! ### Scores -/

theorem divNoNan_eq (x y : ℚ) : divNoNan x y = x / y := by
  unfold divNoNan
  split_ifs with h
  · rw [h, div_zero]
  · rfl

theorem score_eq {beta a b c : ℚ} (hb : 0 < beta) (ha : 0 ≤ a) (hb' : 0 ≤ b) (hc : 0 ≤ c) : score beta a b c = F beta a b c := by
  unfold score F
  simp only [divNoNan_eq]
  rcases ha.eq_or_lt with rfl | ha
  · simp
  · have h1 : a + b ≠ 0 := by positivity
    have h2 : a + c ≠ 0 := by positivity
    have h3 : beta ^ 2 * (a / (a + b)) + a / (a + c) ≠ 0 := by positivity
    have h4 : (1 + beta ^ 2) * a + beta ^ 2 * c + b ≠ 0 := by positivity
    have h5 : beta ^ 2 * (a + c) + (a + b) ≠ 0 := by positivity
    rw [show beta ^ 2 * (a / (a + b)) + a / (a + c) = a * (beta ^ 2 * (a + c) + (a + b)) / ((a + b) * (a + c)) by field_simp]
    rw [show (1 + beta ^ 2) * a + beta ^ 2 * c + b = beta ^ 2 * (a + c) + (a + b) by ring]
    field_simp

theorem F_range {beta a b c : ℚ} (ha : 0 ≤ a) (hb' : 0 ≤ b) (hc : 0 ≤ c) : 0 ≤ F beta a b c ∧ F beta a b c ≤ 1 := by
  unfold F
  have h1 : 0 ≤ beta ^ 2 * c := by positivity
  have h2 : 0 ≤ (1 + beta ^ 2) * a := by positivity
  constructor
  · positivity
  · exact div_le_one_of_le₀ (by linarith) (by linarith)

theorem F_perfect {beta a : ℚ} (ha : 0 < a) : F beta a 0 0 = 1 := by
  unfold F
  have : (1 + beta ^ 2) * a ≠ 0 := by positivity
  simp [this]

theorem F_zero (beta b c : ℚ) : F beta 0 b c = 0 := by simp [F]

theorem scores_map {α : Type} (beta : ℚ) (f g h : α → ℚ) (l : List α) :
    scores beta (l.map f) (l.map g) (l.map h) = l.map fun i => score beta (f i) (g i) (h i) := by
  induction l with
  | nil => rfl
  | cons a t ih => simp [scores, ih]

theorem zipWith_map_same {α : Type} (f g : α → ℚ) (l : List α) :
    List.zipWith (· * ·) (l.map f) (l.map g) = l.map fun i => f i * g i := by
  induction l with
  | nil => rfl
  | cons a t ih => simp [ih]

theorem sum_finRange {n : ℕ} (f : Fin n → ℚ) : ((List.finRange n).map f).sum = ∑ i, f i := by
  rw [Fin.sum_univ_def]

end Verif.FScore
