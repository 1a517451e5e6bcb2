import Verif.Model.BinWidth
import Mathlib.Algebra.BigOperators.Group.List.Basic

/-!
# numpy's rules for the number of bins

Statistics of data and the rules numpy documents for `np.histogram_bin_edges`, written for lists of real numbers.
-/

namespace Verif.Spec.BinWidth

open Verif.BinWidth

/-- The mean. -/
noncomputable def mean (d : List ℝ) : ℝ := d.sum / d.length

/-- The mean of the `k`-th powers of the distances from the mean. -/
noncomputable def moment (k : ℕ) (d : List ℝ) : ℝ := mean (d.map fun x => (x - mean d) ^ k)

/-- The standard deviation `np.std`. -/
noncomputable def std (d : List ℝ) : ℝ := Real.sqrt (moment 2 d)

/-- The standard deviation of a sample: the variance divided by `n - 1`. -/
noncomputable def sampleStd (d : List ℝ) : ℝ := Real.sqrt (moment 2 d * d.length / (d.length - 1))

/-- The skewness, the mean cube of the normalised values. -/
noncomputable def skewness (d : List ℝ) : ℝ := mean (d.map fun x => ((x - mean d) / std d) ^ 3)

/-- The smallest and the greatest value. -/
def Extremes (lo hi : ℝ) (d : List ℝ) : Prop := (lo ∈ d ∧ ∀ x ∈ d, lo ≤ x) ∧ hi ∈ d ∧ ∀ x ∈ d, x ≤ hi

/-- The widths numpy documents for its rules. -/
noncomputable def numpyWidth (range : ℝ) (d : List ℝ) : String → ℝ
  | "sturges" => range / (Real.logb 2 d.length + 1)
  | "rice" => range / (2 * (d.length : ℝ) ^ (1 / 3 : ℝ))
  | "sqrt" => range / Real.sqrt d.length
  | "doane" =>
    if 2 < d.length ∧ 0 < std d then
      range / (1 + Real.logb 2 d.length +
        Real.logb 2 (1 + |skewness d| / Real.sqrt (6 * ((d.length : ℝ) - 2) / (((d.length : ℝ) + 1) * ((d.length : ℝ) + 3)))))
    else 0
  | "scott" => (24 * Real.sqrt Real.pi / d.length) ^ (1 / 3 : ℝ) * std d
  | _ => 0

/-- The number of bins: the range over the width, rounded up; one if the width is zero. -/
noncomputable def numpyBins (lo hi : ℝ) (d : List ℝ) (m : String) : ℤ :=
  if numpyWidth (hi - lo) d m = 0 then 1 else ⌈(hi - lo) / numpyWidth (hi - lo) d m⌉

/-- A profile with the statistics of the data; the standard deviation is that of the sample. -/
structure Faithful (p : Prof) (d : List ℝ) (low high : ℝ) : Prop where
  n : p.n = d.length
  ends : Extremes low high d
  lo : lo p = .fin low
  hi : hi p = .fin high
  std : p.stddev = .fin (sampleStd d)
  skew : p.skew = .fin (skewness d)

/-- The least natural number with a property. -/
def LeastWith (k : ℤ) (P : ℕ → Prop) : Prop := ∃ j : ℕ, k = j ∧ P j ∧ ∀ i, P i → j ≤ i

end Verif.Spec.BinWidth
