import Mathlib.Algebra.BigOperators.Group.Finset.Basic
import Mathlib.Data.Real.Basic
import Verif.Model.PyDict

/-! # Pearson's statistic for two samples -/

namespace Verif.ChiSquared

open Verif

variable {K : Type} [DecidableEq K]

/-- How often category `k` was counted. -/
def count (c : PyDict K ℕ) (k : K) : ℕ := (PyDict.get? c k).getD 0

/-- All categories of the two samples. -/
def categories (c1 c2 : PyDict K ℕ) : Finset K := ((PyDict.keys c1) ++ (PyDict.keys c2)).toFinset

/-- Expected count of a cell: row total times column total over grand total. -/
noncomputable def expected (c1 c2 : PyDict K ℕ) (row n1 n2 : ℕ) (k : K) : ℝ :=
  (row : ℝ) * ((count c1 k + count c2 k : ℕ) : ℝ) / ((n1 + n2 : ℕ) : ℝ)

/-- Pearson's chi-squared statistic of the 2 × k table with row totals `n1`, `n2`. -/
noncomputable def pearson (c1 c2 : PyDict K ℕ) (n1 n2 : ℕ) : ℝ :=
  ∑ k ∈ categories c1 c2,
    (((count c1 k : ℝ) - expected c1 c2 n1 n1 n2 k) ^ 2 / expected c1 c2 n1 n1 n2 k +
     ((count c2 k : ℝ) - expected c1 c2 n2 n1 n2 k) ^ 2 / expected c1 c2 n2 n1 n2 k)

end Verif.ChiSquared
