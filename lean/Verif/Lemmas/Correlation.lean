import Mathlib.Algebra.Order.BigOperators.Group.List
import Mathlib.Tactic.FieldSimp
import Mathlib.Tactic.LinearCombination
import Mathlib.Tactic.Linarith
import Mathlib.Tactic.Positivity
import Verif.Spec.Correlation

/-!
# Lemmas on correlation matrices
-/

namespace Verif.Correlation

open Verif.CorrelationSpec

noncomputable section

theorem some_add (a b : ℝ) : (some a : Num) + some b = some (a + b) := rfl
theorem some_sub (a b : ℝ) : (some a : Num) - some b = some (a - b) := rfl
theorem some_mul (a b : ℝ) : (some a : Num) * some b = some (a * b) := rfl
theorem some_div (a b : ℝ) (h : b ≠ 0) : (some a : Num) / some b = some (a / b) := if_neg h
theorem div_some (a b : ℝ) (h : b ≠ 0) : div (some a) (some b) = some (a / b) := if_neg h
theorem root_some (a : ℝ) (h : 0 ≤ a) : root (some a) = some (Real.sqrt a) := if_neg (not_lt.2 h)
theorem none_div (a : Num) : (none : Num) / a = none := rfl
theorem none_add (a : Num) : (none : Num) + a = none := rfl
theorem none_mul (a : Num) : (none : Num) * a = none := rfl
theorem mul_none (a : Num) : a * (none : Num) = none := by cases a <;> rfl
theorem div_none (a : Num) : a / (none : Num) = none := by cases a <;> rfl
theorem add_none (a : Num) : a + (none : Num) = none := by cases a <;> rfl

/-! ## Co-moments -/

theorem sum_map_fst_snd_mul (ps : List (ℝ × ℝ)) (a b : ℝ) :
    (ps.map fun p => (p.1 - a) * (p.2 - b)).sum =
      (ps.map fun p => p.1 * p.2).sum - b * (ps.map Prod.fst).sum - a * (ps.map Prod.snd).sum + ps.length * a * b := by
  induction ps with
  | nil => simp
  | cons p ps ih =>
    simp only [List.map_cons, List.sum_cons, ih, List.length_cons, Nat.cast_add, Nat.cast_one]
    ring

theorem comoment_eq (ps : List (ℝ × ℝ)) (h : ps ≠ []) :
    comoment ps = (ps.map fun p => p.1 * p.2).sum - (ps.map Prod.fst).sum * (ps.map Prod.snd).sum / ps.length := by
  have hn : (ps.length : ℝ) ≠ 0 := by
    have := List.length_pos_iff.2 h
    exact_mod_cast this.ne'
  unfold comoment
  rw [sum_map_fst_snd_mul]
  unfold average
  simp only [List.length_map]
  field_simp
  ring

/-- Co-moments of a concatenation. -/
theorem comoment_append (ps qs : List (ℝ × ℝ)) (hp : ps ≠ []) (hq : qs ≠ []) :
    comoment (ps ++ qs) = comoment ps + comoment qs +
      (average (ps.map Prod.fst) - average (qs.map Prod.fst)) * (average (ps.map Prod.snd) - average (qs.map Prod.snd)) *
        (ps.length * qs.length) / (ps.length + qs.length) := by
  rw [comoment_eq _ hp, comoment_eq _ hq, comoment_eq _ (by simp [hp])]
  have h1 : (ps.length : ℝ) ≠ 0 := by exact_mod_cast (List.length_pos_iff.2 hp).ne'
  have h2 : (qs.length : ℝ) ≠ 0 := by exact_mod_cast (List.length_pos_iff.2 hq).ne'
  have h3 : (ps.length : ℝ) + qs.length ≠ 0 := by
    have a : (0 : ℝ) < ps.length := by exact_mod_cast List.length_pos_iff.2 hp
    have b : (0 : ℝ) < qs.length := by exact_mod_cast List.length_pos_iff.2 hq
    positivity
  unfold average
  simp only [List.map_append, List.sum_append, List.length_append, List.length_map, Nat.cast_add]
  generalize (ps.map fun p => p.1 * p.2).sum = a
  generalize (qs.map fun p => p.1 * p.2).sum = b
  generalize (ps.map Prod.fst).sum = x1
  generalize (ps.map Prod.snd).sum = y1
  generalize (qs.map Prod.fst).sum = x2
  generalize (qs.map Prod.snd).sum = y2
  field_simp
  ring

theorem comoment_self_nonneg (xs : List ℝ) : 0 ≤ comoment (xs.map fun x => (x, x)) := by
  unfold comoment
  apply List.sum_nonneg
  intro z hz
  simp only [List.map_map, List.mem_map] at hz
  obtain ⟨x, _, rfl⟩ := hz
  exact mul_self_nonneg _

theorem comoment_self_pos (xs : List ℝ) (x y : ℝ) (hx : x ∈ xs) (hy : y ∈ xs) (hne : x ≠ y) :
    0 < comoment (xs.map fun x => (x, x)) := by
  rcases (comoment_self_nonneg xs).lt_or_eq with h | h
  · exact h
  · exfalso
    have hz : ∀ z ∈ xs, z = average xs := by
      intro z hz
      have : comoment (xs.map fun x => (x, x)) = (xs.map fun x => (x - average xs) * (x - average xs)).sum := by
        unfold comoment
        simp [List.map_map, Function.comp_def]
      rw [this] at h
      have hnn : ∀ w ∈ xs.map fun x => (x - average xs) * (x - average xs), 0 ≤ w := by
        intro w hw
        obtain ⟨v, _, rfl⟩ := List.mem_map.1 hw
        exact mul_self_nonneg _
      have := List.all_zero_of_le_zero_le_of_sum_eq_zero hnn h.symm (List.mem_map.2 ⟨z, hz, rfl⟩)
      have := mul_self_eq_zero.1 this
      linarith
    exact hne ((hz x hx).trans (hz y hy).symm)

/-! ## The merging formula -/

theorem num_eq (n : ℤ) : num n = some (n : ℝ) := rfl

/-- Sums of squares of the two coordinates. -/
def sxx (ps : List (ℝ × ℝ)) : ℝ := comoment (ps.map fun p => (p.1, p.1))

@[inherit_doc sxx]
def syy (ps : List (ℝ × ℝ)) : ℝ := comoment (ps.map fun p => (p.2, p.2))

theorem sxx_append (ps qs : List (ℝ × ℝ)) (hp : ps ≠ []) (hq : qs ≠ []) :
    sxx (ps ++ qs) = sxx ps + sxx qs + (average (qs.map Prod.fst) - average (ps.map Prod.fst)) *
      (average (qs.map Prod.fst) - average (ps.map Prod.fst)) * ps.length * qs.length / (ps.length + qs.length) := by
  unfold sxx
  rw [List.map_append, comoment_append _ _ (by simp [hp]) (by simp [hq])]
  simp only [List.map_map, Function.comp_def, List.length_map]
  ring

theorem syy_append (ps qs : List (ℝ × ℝ)) (hp : ps ≠ []) (hq : qs ≠ []) :
    syy (ps ++ qs) = syy ps + syy qs + (average (qs.map Prod.snd) - average (ps.map Prod.snd)) *
      (average (qs.map Prod.snd) - average (ps.map Prod.snd)) * ps.length * qs.length / (ps.length + qs.length) := by
  unfold syy
  rw [List.map_append, comoment_append _ _ (by simp [hp]) (by simp [hq])]
  simp only [List.map_map, Function.comp_def, List.length_map]
  ring

theorem sqrt_div_mul_self (a n : ℝ) (ha : 0 < a) (hn : 0 < n) : n * (√(a / n) * √(a / n)) = a := by
  rw [Real.mul_self_sqrt (by positivity)]
  field_simp

/-- Covariance recovered from correlation and deviations. -/
theorem corr_times_std (s a b n : ℝ) (ha : 0 < a) (hb : 0 < b) (hn : 0 < n) :
    s / (√a * √b) * (√(a / n) * √(b / n)) * n = s := by
  rw [Real.sqrt_div ha.le, Real.sqrt_div hb.le]
  have h1 : √a ≠ 0 := (Real.sqrt_pos.2 ha).ne'
  have h2 : √b ≠ 0 := (Real.sqrt_pos.2 hb).ne'
  have h3 : √n ≠ 0 := (Real.sqrt_pos.2 hn).ne'
  have h4 : √n * √n = n := Real.mul_self_sqrt hn.le
  field_simp
  rw [pow_two, h4]

theorem cov_div_std (s a b n : ℝ) (ha : 0 < a) (hb : 0 < b) (hn : 0 < n) :
    s / n / (√(a / n) * √(b / n)) = s / (√a * √b) := by
  rw [Real.sqrt_div ha.le, Real.sqrt_div hb.le]
  have h1 : √a ≠ 0 := (Real.sqrt_pos.2 ha).ne'
  have h2 : √b ≠ 0 := (Real.sqrt_pos.2 hb).ne'
  have h3 : √n ≠ 0 := (Real.sqrt_pos.2 hn).ne'
  have h4 : √n * √n = n := Real.mul_self_sqrt hn.le
  field_simp
  rw [pow_two, h4]

/-- The statistics of columns `i` and `j` in `c`, `m`, `s` are those of `ps`. -/
structure Holds (c : Mat) (m s : Vec) (i j : ℕ) (ps : List (ℝ × ℝ)) : Prop where
  two : 2 ≤ ps.length
  sx : 0 < sxx ps
  sy : 0 < syy ps
  corr : c.get i j = some (pearson ps)
  mi : m.get i = some (average (ps.map Prod.fst))
  mj : m.get j = some (average (ps.map Prod.snd))
  si : s.get i = some (√(sxx ps / (ps.length - 1)))
  sj : s.get j = some (√(syy ps / (ps.length - 1)))

theorem combine_entry {c1 c2 : Mat} {m1 s1 m2 s2 : Vec} {i j : ℕ} {ps qs : List (ℝ × ℝ)}
    (h1 : Holds c1 m1 s1 i j ps) (h2 : Holds c2 m2 s2 i j qs) :
    (combine c1 m1 s1 ps.length c2 m2 s2 qs.length).get i j = some (pearson (ps ++ qs)) := by
  have hp : ps ≠ [] := by rintro rfl; simpa using h1.two
  have hq : qs ≠ [] := by rintro rfl; simpa using h2.two
  have n1 : (2 : ℝ) ≤ ps.length := by exact_mod_cast h1.two
  have n2 : (2 : ℝ) ≤ qs.length := by exact_mod_cast h2.two
  have hx := sxx_append ps qs hp hq
  have hy := syy_append ps qs hp hq
  have hxy := comoment_append ps qs hp hq
  have hxp : 0 < sxx (ps ++ qs) := by
    rw [hx]
    have : 0 ≤ (average (qs.map Prod.fst) - average (ps.map Prod.fst)) *
      (average (qs.map Prod.fst) - average (ps.map Prod.fst)) * ps.length * qs.length / (ps.length + qs.length) := by
      have := mul_self_nonneg (average (qs.map Prod.fst) - average (ps.map Prod.fst))
      positivity
    have := h1.sx
    have := h2.sx
    linarith
  have hyp : 0 < syy (ps ++ qs) := by
    rw [hy]
    have : 0 ≤ (average (qs.map Prod.snd) - average (ps.map Prod.snd)) *
      (average (qs.map Prod.snd) - average (ps.map Prod.snd)) * ps.length * qs.length / (ps.length + qs.length) := by
      have := mul_self_nonneg (average (qs.map Prod.snd) - average (ps.map Prod.snd))
      positivity
    have := h1.sy
    have := h2.sy
    linarith
  have e1 := corr_times_std (comoment ps) _ _ (ps.length - 1) h1.sx h1.sy (by linarith)
  have e2 := corr_times_std (comoment qs) _ _ (qs.length - 1) h2.sx h2.sy (by linarith)
  have e3 := sqrt_div_mul_self _ (ps.length - 1) h1.sx (by linarith)
  have e4 := sqrt_div_mul_self _ (qs.length - 1) h2.sx (by linarith)
  have e5 := sqrt_div_mul_self _ (ps.length - 1) h1.sy (by linarith)
  have e6 := sqrt_div_mul_self _ (qs.length - 1) h2.sy (by linarith)
  have hn : (ps.length : ℝ) + qs.length ≠ 0 := by linarith
  have hn1 : (ps.length : ℝ) + qs.length - 1 ≠ 0 := by linarith
  have hn1' : 0 < (ps.length : ℝ) + qs.length - 1 := by linarith
  unfold combine
  simp only [h1.corr, h1.mi, h1.mj, h1.si, h1.sj, h2.corr, h2.mi, h2.mj, h2.si, h2.sj, num_eq, some_mul, some_add, some_sub]
  push_cast
  rw [some_div _ _ hn, some_div _ _ hn, some_div _ _ hn]
  simp only [some_add]
  have p1 : pearson ps = comoment ps / (√(sxx ps) * √(syy ps)) := rfl
  have p2 : pearson qs = comoment qs / (√(sxx qs) * √(syy qs)) := rfl
  rw [p1, p2, e1, e2, e3, e4, e5, e6, ← hx, ← hy, ← hxy]
  rw [some_div _ _ hn1, some_div _ _ hn1, some_div _ _ hn1, root_some _ (by positivity), root_some _ (by positivity),
    some_mul, some_div _ _ (by positivity), cov_div_std _ _ _ _ hxp hyp hn1']
  rfl

end

end Verif.Correlation
