import Mathlib.Algebra.BigOperators.Group.List.Basic
import Mathlib.Tactic.Ring
import Mathlib.Tactic.Linarith
import Mathlib.Tactic.FieldSimp
import Mathlib.Tactic.Positivity
import Verif.Spec.Moments
import Verif.Model.NumericStats

/-! Algebra of power sums and central sums used for the merge formulas. -/

namespace Verif.Moments

open Verif

/-- Power sum. -/
noncomputable def P (k : ℕ) (xs : List ℝ) : ℝ := (xs.map fun x => x ^ k).sum

/-- Central sum. -/
noncomputable def M (k : ℕ) (xs : List ℝ) : ℝ := (xs.map fun x => (x - Spec.mean xs) ^ k).sum

theorem P_append (k) (xs ys : List ℝ) : P k (xs ++ ys) = P k xs + P k ys := by
  simp [P]

theorem P_one (xs : List ℝ) : P 1 xs = xs.sum := by simp [P]

theorem sum_eq (xs : List ℝ) : xs.sum = xs.length * Spec.mean xs := by
  rcases xs with _ | ⟨a, l⟩
  · simp
  · have : (((a :: l).length : ℕ) : ℝ) ≠ 0 := by
      simp only [List.length_cons]; positivity
    unfold Spec.mean
    field_simp

theorem dev2 (c : ℝ) (xs : List ℝ) :
    (xs.map fun x => (x - c) ^ 2).sum = P 2 xs - 2 * c * P 1 xs + xs.length * c ^ 2 := by
  induction xs with
  | nil => simp [P]
  | cons a l ih =>
    simp only [List.map_cons, List.sum_cons, ih, P, List.length_cons]
    push_cast; ring

theorem dev3 (c : ℝ) (xs : List ℝ) :
    (xs.map fun x => (x - c) ^ 3).sum
      = P 3 xs - 3 * c * P 2 xs + 3 * c ^ 2 * P 1 xs - xs.length * c ^ 3 := by
  induction xs with
  | nil => simp [P]
  | cons a l ih =>
    simp only [List.map_cons, List.sum_cons, ih, P, List.length_cons]
    push_cast; ring

theorem dev4 (c : ℝ) (xs : List ℝ) :
    (xs.map fun x => (x - c) ^ 4).sum
      = P 4 xs - 4 * c * P 3 xs + 6 * c ^ 2 * P 2 xs - 4 * c ^ 3 * P 1 xs + xs.length * c ^ 4 := by
  induction xs with
  | nil => simp [P]
  | cons a l ih =>
    simp only [List.map_cons, List.sum_cons, ih, P, List.length_cons]
    push_cast; ring

theorem M2_eq (xs : List ℝ) :
    M 2 xs = P 2 xs - xs.length * Spec.mean xs ^ 2 := by
  unfold M; rw [dev2, P_one, sum_eq]; ring

theorem M3_eq (xs : List ℝ) :
    M 3 xs = P 3 xs - 3 * Spec.mean xs * P 2 xs + 2 * xs.length * Spec.mean xs ^ 3 := by
  unfold M; rw [dev3, P_one, sum_eq]; ring

theorem M4_eq (xs : List ℝ) :
    M 4 xs = P 4 xs - 4 * Spec.mean xs * P 3 xs + 6 * Spec.mean xs ^ 2 * P 2 xs
      - 3 * xs.length * Spec.mean xs ^ 4 := by
  unfold M; rw [dev4, P_one, sum_eq]; ring

theorem len_pos {xs : List ℝ} (h : xs ≠ []) : (0 : ℝ) < xs.length := by
  exact_mod_cast List.length_pos_of_ne_nil h

theorem mean_append {xs ys : List ℝ} :
    Spec.mean (xs ++ ys)
      = (xs.length * Spec.mean xs + ys.length * Spec.mean ys) / (xs.length + ys.length) := by
  conv_lhs => unfold Spec.mean
  rw [List.sum_append, List.length_append, sum_eq xs, sum_eq ys]
  push_cast; rfl

theorem M2_append {xs ys : List ℝ} (hx : xs ≠ []) (hy : ys ≠ []) :
    M 2 (xs ++ ys) = M 2 xs + M 2 ys
      + (Spec.mean ys - Spec.mean xs) ^ 2 * xs.length * ys.length / (xs.length + ys.length) := by
  have h1 := len_pos hx
  have h2 := len_pos hy
  simp only [M2_eq, mean_append, P_append, List.length_append]
  push_cast
  generalize (xs.length : ℝ) = n at *
  generalize (ys.length : ℝ) = m at *
  generalize Spec.mean xs = a
  generalize Spec.mean ys = b
  field_simp
  ring

theorem M3_append {xs ys : List ℝ} (hx : xs ≠ []) (hy : ys ≠ []) :
    M 3 (xs ++ ys) = M 3 xs + M 3 ys
      + (Spec.mean ys - Spec.mean xs) ^ 3 * xs.length * ys.length
          * ((xs.length : ℝ) - ys.length) / ((xs.length : ℝ) + ys.length) ^ 2
      + 3 * (Spec.mean ys - Spec.mean xs) * (xs.length * M 2 ys - ys.length * M 2 xs)
          / ((xs.length : ℝ) + ys.length) := by
  have h1 := len_pos hx
  have h2 := len_pos hy
  simp only [M3_eq, M2_eq, mean_append, P_append, List.length_append]
  push_cast
  generalize (xs.length : ℝ) = n at *
  generalize (ys.length : ℝ) = m at *
  generalize Spec.mean xs = a
  generalize Spec.mean ys = b
  field_simp
  ring

theorem M4_append {xs ys : List ℝ} (hx : xs ≠ []) (hy : ys ≠ []) :
    M 4 (xs ++ ys) = M 4 xs + M 4 ys
      + (Spec.mean ys - Spec.mean xs) ^ 4 * (xs.length * ys.length
          * ((xs.length : ℝ) ^ 2 - xs.length * ys.length + (ys.length : ℝ) ^ 2))
          / ((xs.length : ℝ) + ys.length) ^ 3
      + 6 * (Spec.mean ys - Spec.mean xs) ^ 2
          * ((xs.length : ℝ) ^ 2 * M 2 ys + (ys.length : ℝ) ^ 2 * M 2 xs)
          / ((xs.length : ℝ) + ys.length) ^ 2
      + 4 * (Spec.mean ys - Spec.mean xs) * (xs.length * M 3 ys - ys.length * M 3 xs)
          / ((xs.length : ℝ) + ys.length) := by
  have h1 := len_pos hx
  have h2 := len_pos hy
  simp only [M4_eq, M3_eq, M2_eq, mean_append, P_append, List.length_append]
  push_cast
  generalize (xs.length : ℝ) = n at *
  generalize (ys.length : ℝ) = m at *
  generalize Spec.mean xs = a
  generalize Spec.mean ys = b
  field_simp
  ring

theorem M2_nonneg (xs : List ℝ) : 0 ≤ M 2 xs := by
  unfold M
  apply List.sum_nonneg
  intro y hy
  obtain ⟨x, _, rfl⟩ := List.mem_map.1 hy
  positivity

theorem sum_sq_zero (c : ℝ) (xs : List ℝ) (h : (xs.map fun x => (x - c) ^ 2).sum = 0) :
    ∀ x ∈ xs, x = c := by
  induction xs with
  | nil => simp
  | cons a l ih =>
    simp only [List.map_cons, List.sum_cons] at h
    have hl : 0 ≤ (l.map fun x => (x - c) ^ 2).sum := by
      apply List.sum_nonneg
      intro y hy
      obtain ⟨x, _, rfl⟩ := List.mem_map.1 hy
      positivity
    have ha : 0 ≤ (a - c) ^ 2 := by positivity
    have h1 : (a - c) ^ 2 = 0 := by linarith
    have h2 : (l.map fun x => (x - c) ^ 2).sum = 0 := by linarith
    intro x hx
    rcases List.mem_cons.1 hx with rfl | hx
    · have : x - c = 0 := by simpa using h1
      linarith
    · exact ih h2 x hx

theorem M_zero_of_M2_zero {xs : List ℝ} (h : M 2 xs = 0) (k : ℕ) (hk : k ≠ 0) : M k xs = 0 := by
  have hc := sum_sq_zero _ _ h
  unfold M
  apply List.sum_eq_zero
  intro y hy
  obtain ⟨x, hx, rfl⟩ := List.mem_map.1 hy
  rw [hc x hx]
  simp [hk]

theorem variance_eq (xs : List ℝ) : Spec.variance xs = M 2 xs / xs.length := by
  simp [Spec.variance, Spec.moment, M, Spec.mean]

theorem moment_eq (k) (xs : List ℝ) : Spec.moment k xs = M k xs / xs.length := by
  simp [Spec.moment, M, Spec.mean]

theorem npVar_eq (xs : List ℝ) : Numeric.npVar xs = Spec.variance xs := by
  rw [variance_eq]; rfl

theorem variance_mul {xs : List ℝ} (hx : xs ≠ []) : xs.length * Spec.variance xs = M 2 xs := by
  have := len_pos hx
  rw [variance_eq]; field_simp

theorem variance_eq_zero {xs : List ℝ} (hx : xs ≠ []) : Spec.variance xs = 0 ↔ M 2 xs = 0 := by
  have := len_pos hx
  rw [variance_eq]
  constructor
  · intro h
    rcases div_eq_zero_iff.1 h with h | h
    · exact h
    · linarith
  · intro h; simp [h]

theorem sqrt_cube {a : ℝ} (ha : 0 ≤ a) : Real.sqrt (a ^ 3) = Real.sqrt a ^ 3 := by
  have h : a ^ 3 = (Real.sqrt a ^ 3) ^ 2 := by
    have := Real.sq_sqrt ha
    calc a ^ 3 = (Real.sqrt a ^ 2) ^ 3 := by rw [this]
      _ = _ := by ring
  rw [h, Real.sqrt_sq (by positivity)]

/-- Skewness in the form used by the code. -/
theorem skewness_eq {xs : List ℝ} (hx : xs ≠ []) (h : M 2 xs ≠ 0) :
    Spec.skewness xs = Real.sqrt xs.length * M 3 xs / Real.sqrt (M 2 xs ^ 3) := by
  have hn := len_pos hx
  have hv : Spec.variance xs ≠ 0 := fun h' => h ((variance_eq_zero hx).1 h')
  have hM : 0 < M 2 xs := lt_of_le_of_ne (M2_nonneg xs) (Ne.symm h)
  unfold Spec.skewness
  rw [if_neg hv, moment_eq, Spec.stddev, variance_eq, Real.sqrt_div hM.le, sqrt_cube hM.le]
  have h1 : Real.sqrt xs.length ^ 2 = xs.length := Real.sq_sqrt hn.le
  have h2 : 0 < Real.sqrt (xs.length : ℝ) := Real.sqrt_pos.2 hn
  have h3 : 0 < Real.sqrt (M 2 xs) := Real.sqrt_pos.2 hM
  rw [div_pow]
  generalize Real.sqrt (M 2 xs) = r at *
  rw [← h1]
  simp only [Real.sqrt_sq h2.le]
  generalize Real.sqrt (xs.length : ℝ) = q at *
  field_simp

theorem skewness_zero {xs : List ℝ} (hx : xs ≠ []) (h : M 2 xs = 0) : Spec.skewness xs = 0 := by
  unfold Spec.skewness
  rw [if_pos ((variance_eq_zero hx).2 h)]

/-- Recovering the third central sum from the stored skewness. -/
theorem M3_of_skewness {xs : List ℝ} (hx : xs ≠ []) :
    Spec.skewness xs * Real.sqrt (M 2 xs ^ 3) / Real.sqrt xs.length = M 3 xs := by
  have hn := len_pos hx
  have h2 : 0 < Real.sqrt (xs.length : ℝ) := Real.sqrt_pos.2 hn
  by_cases h : M 2 xs = 0
  · rw [skewness_zero hx h, M_zero_of_M2_zero h 3 (by norm_num)]; simp
  · have hM : 0 < M 2 xs := lt_of_le_of_ne (M2_nonneg xs) (Ne.symm h)
    have h3 : 0 < Real.sqrt (M 2 xs ^ 3) := Real.sqrt_pos.2 (by positivity)
    rw [skewness_eq hx h]
    field_simp

theorem kurtosis_eq {xs : List ℝ} (hx : xs ≠ []) (h : M 2 xs ≠ 0) :
    Spec.kurtosis xs = xs.length * M 4 xs / M 2 xs ^ 2 - 3 := by
  have hn := len_pos hx
  unfold Spec.kurtosis
  rw [moment_eq, variance_eq]
  field_simp

/-- Recovering the fourth central sum from the stored kurtosis. -/
theorem M4_of_kurtosis {xs : List ℝ} (hx : xs ≠ []) (k : ℝ)
    (hk : M 2 xs ≠ 0 → k = Spec.kurtosis xs) :
    (k + 3) * M 2 xs ^ 2 / xs.length = M 4 xs := by
  have hn := len_pos hx
  by_cases h : M 2 xs = 0
  · rw [h, M_zero_of_M2_zero h 4 (by norm_num)]; simp
  · rw [hk h, kurtosis_eq hx h]; field_simp; ring

theorem mean_perm {xs ys : List ℝ} (h : xs.Perm ys) : Spec.mean xs = Spec.mean ys := by
  unfold Spec.mean; rw [h.sum_eq, h.length_eq]

theorem moment_perm (k : ℕ) {xs ys : List ℝ} (h : xs.Perm ys) :
    Spec.moment k xs = Spec.moment k ys := by
  unfold Spec.moment
  rw [mean_perm h]
  exact mean_perm (h.map _)

theorem variance_perm {xs ys : List ℝ} (h : xs.Perm ys) : Spec.variance xs = Spec.variance ys :=
  moment_perm 2 h

theorem skewness_perm {xs ys : List ℝ} (h : xs.Perm ys) : Spec.skewness xs = Spec.skewness ys := by
  unfold Spec.skewness Spec.stddev
  rw [variance_perm h, moment_perm 3 h]

theorem kurtosis_perm {xs ys : List ℝ} (h : xs.Perm ys) : Spec.kurtosis xs = Spec.kurtosis ys := by
  unfold Spec.kurtosis
  rw [variance_perm h, moment_perm 4 h]

end Verif.Moments
