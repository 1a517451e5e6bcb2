import Mathlib.Analysis.Real.Sqrt

/-!
# Textbook descriptive statistics of a list of reals

Independent of the model: population mean, variance, standard deviation, skewness and
(excess) kurtosis, exactly as in a statistics text.
-/

namespace Verif.Spec

/-- Arithmetic mean. -/
noncomputable def mean (xs : List ℝ) : ℝ := xs.sum / xs.length

/-- `k`-th central moment: the mean of `(x - mean) ^ k`. -/
noncomputable def moment (k : ℕ) (xs : List ℝ) : ℝ :=
  mean (xs.map fun x => (x - mean xs) ^ k)

/-- Population variance. -/
noncomputable def variance (xs : List ℝ) : ℝ := moment 2 xs

/-- Population standard deviation. -/
noncomputable def stddev (xs : List ℝ) : ℝ := Real.sqrt (variance xs)

/-- Population skewness, `0` for constant data. -/
noncomputable def skewness (xs : List ℝ) : ℝ :=
  if variance xs = 0 then 0 else moment 3 xs / stddev xs ^ 3

/-- Population excess kurtosis (meaningful for non-constant data). -/
noncomputable def kurtosis (xs : List ℝ) : ℝ := moment 4 xs / variance xs ^ 2 - 3

/-- Unbiased sample variance: squared deviations over `n - 1`. -/
noncomputable def sampleVariance (xs : List ℝ) : ℝ :=
  (xs.map fun x => (x - mean xs) ^ 2).sum / ((xs.length : ℝ) - 1)

/-- Adjusted Fisher–Pearson sample skewness `G1`. -/
noncomputable def sampleSkewness (xs : List ℝ) : ℝ :=
  let n : ℝ := xs.length
  Real.sqrt (n * (n - 1)) / (n - 2) * skewness xs

/-- Sample excess kurtosis `G2`. -/
noncomputable def sampleKurtosis (xs : List ℝ) : ℝ :=
  let n : ℝ := xs.length
  (n - 1) / ((n - 2) * (n - 3)) * ((n + 1) * kurtosis xs + 6)

/-- `m` is the smallest value of the list. -/
def IsMinOf (m : ℝ) (xs : List ℝ) : Prop := m ∈ xs ∧ ∀ x ∈ xs, m ≤ x

/-- `m` is the largest value of the list. -/
def IsMaxOf (m : ℝ) (xs : List ℝ) : Prop := m ∈ xs ∧ ∀ x ∈ xs, x ≤ m

/-- Least magnitude distinguished from zero by the one-batch moment code. -/
noncomputable def resolution : ℝ := 1 / 10 ^ 14

/-- The deviation sums of the batch are not in the open interval `(0, 1e-14)`, so that the
one-batch code does not round them to zero. -/
def Resolved (xs : List ℝ) : Prop :=
  ∀ k ∈ [2, 3, 4], let M := (xs.map fun x => (x - mean xs) ^ k).sum
    M = 0 ∨ resolution ≤ |M|

end Verif.Spec
