import Verif.Spec.BinWidth

/-!
# Quartiles, and the rule of Freedman and Diaconis

Written with whole numbers: the `k`-th quartile of sorted values lies at `k * (n - 1) / 4`, between two of them if this is not whole.
-/

namespace Verif.Spec.BatchBins

open Verif.Spec.BinWidth

/-- The values in ascending order. -/
def Ascending (s vs : List ℝ) : Prop := s.Perm vs ∧ s.Pairwise (· ≤ ·)

/-- The `k`-th quartile of sorted values, `k ≤ 3`. -/
noncomputable def quartile (k : ℕ) (s : List ℝ) : ℝ :=
  let j := k * (s.length - 1) / 4
  let r := k * (s.length - 1) % 4
  ((4 - r) * s.getD j 0 + r * s.getD (j + 1) 0) / 4

/-- The width of Freedman and Diaconis for sorted values. -/
noncomputable def fdWidth (s : List ℝ) : ℝ := 2 * (quartile 3 s - quartile 1 s) / (s.length : ℝ) ^ (1 / 3 : ℝ)

/-- All values are the same. -/
def Same (vs : List ℝ) : Prop := ∀ x ∈ vs, ∀ y ∈ vs, x = y

/-- The number of bins for a width: as many as needed to cover the range; one for the width zero. -/
noncomputable def cover (range w : ℝ) : ℤ := if w = 0 then 1 else ⌈range / w⌉

end Verif.Spec.BatchBins
