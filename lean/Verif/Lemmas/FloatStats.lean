import Verif.Model.FloatStats
import Verif.Spec.FloatStats
import Verif.Lemmas.Double
import Mathlib.Tactic.Linarith
import Mathlib.Tactic.Ring
import Mathlib.Tactic.FieldSimp
import Mathlib.Tactic.Positivity
import Mathlib.Tactic.GCongr
import Mathlib.Tactic.Common
import Mathlib.Algebra.Order.Ring.Pow
import Mathlib.Algebra.BigOperators.Ring.List
import Mathlib.Algebra.Order.BigOperators.Group.List
import Mathlib.Data.List.Perm.Basic

/-!
# Lemmas on statistics in floating point
-/

namespace Verif.FloatStats

open Spec.FloatStats

/-- `y` is `x` up to `k` roundings relative to `A`. -/
def Near (u : ℚ) (k : ℕ) (A y x : ℚ) : Prop := |y - x| ≤ ((1 + u) ^ k - 1) * A ∧ |x| ≤ A

variable {fl : ℚ → ℚ} {u : ℚ}

theorem one_le_grow (hu : 0 ≤ u) (k : ℕ) : 1 ≤ (1 + u) ^ k := one_le_pow₀ (by linarith)

theorem grow_mono (hu : 0 ≤ u) {j k : ℕ} (h : j ≤ k) : (1 + u) ^ j ≤ (1 + u) ^ k :=
  pow_le_pow_right₀ (by linarith) h

theorem Near.pos {k : ℕ} {A y x : ℚ} (h : Near u k A y x) : 0 ≤ A := le_trans (abs_nonneg _) h.2

theorem Near.refl (hu : 0 ≤ u) {k : ℕ} {A x : ℚ} (h : |x| ≤ A) : Near u k A x x := by
  refine ⟨?_, h⟩
  have := one_le_grow hu k
  have hA : 0 ≤ A := le_trans (abs_nonneg _) h
  rw [sub_self, abs_zero]
  exact mul_nonneg (by linarith) hA

theorem Near.mono (hu : 0 ≤ u) {j k : ℕ} {A B y x : ℚ} (h : Near u j A y x) (hk : j ≤ k) (hA : A ≤ B) : Near u k B y x := by
  have h1 := grow_mono hu hk
  have h2 := one_le_grow hu j
  refine ⟨h.1.trans ?_, h.2.trans hA⟩
  exact mul_le_mul (by linarith) hA h.pos (by linarith)

theorem Near.size {k : ℕ} {A y x : ℚ} (h : Near u k A y x) : |y| ≤ (1 + u) ^ k * A := by
  have h1 := abs_sub_abs_le_abs_sub y x
  have := h.1
  have := h.2
  nlinarith [h.1, h.2]

theorem Near.round (hr : Rounds fl u) {k : ℕ} {A y x : ℚ} (h : Near u k A y x) : Near u (k + 1) A (fl y) x := by
  refine ⟨?_, h.2⟩
  obtain ⟨hu, -, hf⟩ := hr
  have h1 := hf y
  have h2 := mul_le_mul_of_nonneg_left h.size hu
  calc |fl y - x| = |(fl y - y) + (y - x)| := by congr 1; ring
    _ ≤ |fl y - y| + |y - x| := abs_add_le _ _
    _ ≤ u * ((1 + u) ^ k * A) + ((1 + u) ^ k - 1) * A := add_le_add (h1.trans h2) h.1
    _ = ((1 + u) ^ (k + 1) - 1) * A := by ring

theorem Near.add {k : ℕ} {A B y x z w : ℚ} (h : Near u k A y x) (h' : Near u k B z w) : Near u k (A + B) (y + z) (x + w) := by
  constructor
  · calc |y + z - (x + w)| = |(y - x) + (z - w)| := by congr 1; ring
      _ ≤ |y - x| + |z - w| := abs_add_le _ _
      _ ≤ _ := by linarith [h.1, h'.1]
  · exact (abs_add_le _ _).trans (add_le_add h.2 h'.2)

theorem Near.neg {k : ℕ} {A y x : ℚ} (h : Near u k A y x) : Near u k A (-y) (-x) := by
  refine ⟨?_, by rw [abs_neg]; exact h.2⟩
  rw [show -y - -x = -(y - x) by ring, abs_neg]
  exact h.1

theorem Near.sub {k : ℕ} {A B y x z w : ℚ} (h : Near u k A y x) (h' : Near u k B z w) : Near u k (A + B) (y - z) (x - w) := by
  rw [sub_eq_add_neg, sub_eq_add_neg]
  exact h.add h'.neg

theorem Near.mul (hu : 0 ≤ u) {j k : ℕ} {A B y x z w : ℚ} (h : Near u j A y x) (h' : Near u k B z w) :
    Near u (j + k) (A * B) (y * z) (x * w) := by
  have hA := h.pos
  have hB := h'.pos
  have gj := one_le_grow hu j
  have gk := one_le_grow hu k
  constructor
  · calc |y * z - x * w| = |y * (z - w) + w * (y - x)| := by congr 1; ring
      _ ≤ |y * (z - w)| + |w * (y - x)| := abs_add_le _ _
      _ = |y| * |z - w| + |w| * |y - x| := by rw [abs_mul, abs_mul]
      _ ≤ ((1 + u) ^ j * A) * (((1 + u) ^ k - 1) * B) + B * (((1 + u) ^ j - 1) * A) := by
          refine add_le_add ?_ ?_
          · exact mul_le_mul h.size h'.1 (abs_nonneg _) (by positivity)
          · exact mul_le_mul h'.2 h.1 (abs_nonneg _) hB
      _ = _ := by rw [pow_add]; ring
  · rw [abs_mul]
    exact mul_le_mul h.2 h'.2 (abs_nonneg _) hA

theorem Near.scale {k : ℕ} {A y x c : ℚ} (h : Near u k A y x) (hc : 0 ≤ c) : Near u k (A * c) (y * c) (x * c) := by
  constructor
  · rw [← sub_mul, abs_mul, abs_of_nonneg hc, ← mul_assoc]
    exact mul_le_mul_of_nonneg_right h.1 hc
  · rw [abs_mul, abs_of_nonneg hc]
    exact mul_le_mul_of_nonneg_right h.2 hc

theorem Near.div {k : ℕ} {A y x c : ℚ} (h : Near u k A y x) (hc : 0 ≤ c) : Near u k (A / c) (y / c) (x / c) := by
  simp only [div_eq_mul_inv]
  exact h.scale (inv_nonneg.2 hc)

theorem Near.sq (hu : 0 ≤ u) {k : ℕ} {A y x : ℚ} (h : Near u k A y x) : Near u (k + k) (A ^ 2) (y ^ 2) (x ^ 2) := by
  simp only [pow_two]
  exact h.mul hu h

/-- Two errors relative to a size that the exact sum does not exceed. -/
theorem Near.join (hu : 0 ≤ u) {j k : ℕ} {A B C y x z w : ℚ} (h : Near u j A y x) (h' : Near u k B z w) (hA : A ≤ C) (hB : B ≤ C)
    (hs : |x + w| ≤ C) : Near u (j + k) C (y + z) (x + w) := by
  have gj := one_le_grow hu j
  have gk := one_le_grow hu k
  have hC : 0 ≤ C := le_trans h.pos hA
  refine ⟨?_, hs⟩
  have e1 : |y - x| ≤ ((1 + u) ^ j - 1) * C := h.1.trans (mul_le_mul_of_nonneg_left hA (by linarith))
  have e2 : |z - w| ≤ ((1 + u) ^ k - 1) * C := h'.1.trans (mul_le_mul_of_nonneg_left hB (by linarith))
  calc |y + z - (x + w)| = |(y - x) + (z - w)| := by congr 1; ring
    _ ≤ |y - x| + |z - w| := abs_add_le _ _
    _ ≤ ((1 + u) ^ j - 1) * C + ((1 + u) ^ k - 1) * C := add_le_add e1 e2
    _ ≤ ((1 + u) ^ (j + k) - 1) * C := by
        rw [← add_mul, pow_add]
        refine mul_le_mul_of_nonneg_right ?_ hC
        nlinarith [mul_nonneg (sub_nonneg.2 gj) (sub_nonneg.2 gk)]

/-- A size four times too large counts as four times the roundings. -/
theorem Near.quarter (hu : 0 ≤ u) {k : ℕ} {A y x : ℚ} (h : Near u k (4 * A) y x) (hx : |x| ≤ A) : Near u (4 * k) A y x := by
  refine ⟨h.1.trans ?_, hx⟩
  have hA : 0 ≤ A := le_trans (abs_nonneg _) hx
  have g := one_le_grow hu k
  have e : (1 + u) ^ (4 * k) = ((1 + u) ^ k) ^ 4 := by rw [← pow_mul, mul_comm]
  rw [e]
  set y' := (1 + u) ^ k
  have : 4 * (y' - 1) ≤ y' ^ 4 - 1 := by nlinarith [sq_nonneg (y' - 1), sq_nonneg (y' ^ 2 - 1)]
  calc (y' - 1) * (4 * A) = (4 * (y' - 1)) * A := by ring
    _ ≤ _ := mul_le_mul_of_nonneg_right this hA

/-! ## Sums -/

theorem Tree.eval_near (hr : Rounds fl u) (f g a : ℚ → ℚ) (k : ℕ) :
    ∀ t : Tree, (∀ x ∈ t.leaves, Near u k (a x) (f x) (g x)) →
      Near u (k + t.depth) (t.leaves.map a).sum (t.eval fl f) (t.leaves.map g).sum
  | .leaf x, h => by
      have := h x (List.mem_singleton.2 rfl)
      simpa [Tree.leaves, Tree.eval, Tree.depth] using this
  | .node l r, h => by
      have hl := eval_near hr f g a k l fun x hx => h x (List.mem_append_left _ hx)
      have hr' := eval_near hr f g a k r fun x hx => h x (List.mem_append_right _ hx)
      simp only [Tree.leaves, Tree.eval, Tree.depth, List.map_append, List.sum_append]
      have a1 := hl.mono hr.1 (k := k + max l.depth r.depth) (by omega) le_rfl
      have a2 := hr'.mono hr.1 (k := k + max l.depth r.depth) (by omega) le_rfl
      exact (a1.add a2).round hr

theorem Tree.leaves_pos : ∀ t : Tree, 0 < t.leaves.length
  | .leaf _ => by simp [Tree.leaves]
  | .node l r => by simp only [Tree.leaves, List.length_append]; have := l.leaves_pos; omega

theorem Tree.depth_lt : ∀ t : Tree, t.depth < t.leaves.length
  | .leaf _ => by simp [Tree.leaves, Tree.depth]
  | .node l r => by
      simp only [Tree.leaves, Tree.depth, List.length_append]
      have := l.depth_lt
      have := r.depth_lt
      omega

theorem Tree.eval_nonneg (hf : ∀ x, 0 ≤ x → 0 ≤ fl x) (f : ℚ → ℚ) (h : ∀ x, 0 ≤ f x) : ∀ t : Tree, 0 ≤ t.eval fl f
  | .leaf x => h x
  | .node l r => hf _ (add_nonneg (l.eval_nonneg hf f h) (r.eval_nonneg hf f h))

theorem rounds_nonneg (hr : Rounds fl u) {x : ℚ} (hx : 0 ≤ x) : 0 ≤ fl x := by
  obtain ⟨-, h1, hf⟩ := hr
  have := (abs_le.1 (hf x)).1
  rw [abs_of_nonneg hx] at this
  nlinarith

/-! ## Exact means and variances -/

theorem sum_sq_sub (c : ℚ) : ∀ xs : List ℚ, (xs.map fun x => (x - c) ^ 2).sum =
    (xs.map fun x => x ^ 2).sum - 2 * c * xs.sum + c ^ 2 * xs.length
  | [] => by simp
  | x :: xs => by
      simp only [List.map_cons, List.sum_cons, sum_sq_sub c xs, List.length_cons]
      push_cast
      ring

theorem variance_eq {xs : List ℚ} (h : 0 < xs.length) :
    variance xs * xs.length = (xs.map fun x => x ^ 2).sum - xs.sum ^ 2 / xs.length := by
  have hn : (xs.length : ℚ) ≠ 0 := by exact_mod_cast h.ne'
  unfold variance
  rw [div_mul_cancel₀ _ hn, sum_sq_sub]
  unfold mean
  field_simp
  ring

theorem variance_nonneg (xs : List ℚ) : 0 ≤ variance xs := by
  unfold variance
  refine div_nonneg (List.sum_nonneg ?_) (Nat.cast_nonneg _)
  intro y hy
  obtain ⟨x, -, rfl⟩ := List.mem_map.1 hy
  positivity

theorem sum_le_const {f : ℚ → ℚ} {B : ℚ} : ∀ {xs : List ℚ}, (∀ x ∈ xs, f x ≤ B) → (xs.map f).sum ≤ B * xs.length
  | [], _ => by simp
  | x :: xs, h => by
      have := sum_le_const (xs := xs) fun y hy => h y (List.mem_cons_of_mem _ hy)
      have := h x List.mem_cons_self
      simp only [List.map_cons, List.sum_cons, List.length_cons]
      push_cast
      linarith

theorem variance_le {xs : List ℚ} {A : ℚ} (h : ∀ x ∈ xs, |x| ≤ A) : variance xs ≤ A ^ 2 := by
  rcases Nat.eq_zero_or_pos xs.length with h0 | h0
  · rw [List.length_eq_zero_iff.1 h0]
    simp [variance]
    positivity
  · have hn : (0 : ℚ) < xs.length := by exact_mod_cast h0
    have e := variance_eq h0
    have h1 : (xs.map fun x => x ^ 2).sum ≤ A ^ 2 * xs.length := sum_le_const fun x hx => by
      rw [← sq_abs]
      exact pow_le_pow_left₀ (abs_nonneg _) (h x hx) 2
    have h2 : 0 ≤ xs.sum ^ 2 / xs.length := by positivity
    exact le_of_mul_le_mul_right (by linarith) hn

theorem abs_sum_le : ∀ xs : List ℚ, |xs.sum| ≤ size xs
  | [] => by simp [size]
  | x :: xs => by
      have := abs_sum_le xs
      simp only [size, List.sum_cons, List.map_cons] at this ⊢
      exact (abs_add_le _ _).trans (by linarith)

theorem size_le {xs : List ℚ} {A : ℚ} (h : ∀ x ∈ xs, |x| ≤ A) : size xs ≤ A * xs.length := sum_le_const h

theorem size_append (xs ys : List ℚ) : size (xs ++ ys) = size xs + size ys := by simp [size]

theorem variance_append {xs ys : List ℚ} (hx : 0 < xs.length) (hy : 0 < ys.length) :
    variance (xs ++ ys) * ((xs.length + ys.length : ℕ) : ℚ) = (variance xs * xs.length + variance ys * ys.length) +
      (mean ys - mean xs) ^ 2 * xs.length * ys.length / ((xs.length + ys.length : ℕ) : ℚ) := by
  have e := variance_eq (xs := xs ++ ys) (by rw [List.length_append]; omega)
  rw [List.length_append] at e
  rw [e, variance_eq hx, variance_eq hy]
  have h1 : (xs.length : ℚ) ≠ 0 := by exact_mod_cast hx.ne'
  have h2 : (ys.length : ℚ) ≠ 0 := by exact_mod_cast hy.ne'
  have h3 : ((xs.length : ℚ) + ys.length) ≠ 0 := by
    have : (0 : ℚ) < xs.length := by exact_mod_cast hx
    have : (0 : ℚ) < ys.length := by exact_mod_cast hy
    positivity
  simp only [List.map_append, List.sum_append, mean]
  push_cast
  field_simp
  ring

theorem variance_perm {xs ys : List ℚ} (h : xs.Perm ys) : variance xs = variance ys := by
  unfold variance mean
  rw [h.sum_eq, h.length_eq, (h.map _).sum_eq]

end Verif.FloatStats
