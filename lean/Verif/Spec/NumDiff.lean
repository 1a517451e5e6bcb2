import Verif.Spec.Histogram
import Mathlib.Analysis.SpecialFunctions.Log.Basic
import Mathlib.Analysis.Real.Sqrt
import Mathlib.Data.List.Forall2
import Mathlib.Data.Int.Notation

/-!
# Specification of the t-test and of the stability index

Written from the definitions in textbooks.
-/

namespace Verif.Spec.NumDiff

open Verif.HistSpec

/-- What is needed of a family of distribution functions that are symmetric around zero. -/
structure Balanced (cdf : ℝ → ℝ → ℝ) : Prop where
  mono : ∀ df, Monotone (cdf df)
  half : ∀ df, cdf df 0 = 1 / 2
  le_one : ∀ df x, cdf df x ≤ 1

/-- Student's distributions: more degrees of freedom, lighter tails. -/
def LighterTails (cdf : ℝ → ℝ → ℝ) : Prop := ∀ d1 d2 x, 0 < d1 → d1 ≤ d2 → 0 ≤ x → cdf d1 x ≤ cdf d2 x

/-- The shares of the bins. -/
noncomputable def shares (n : ℕ) (c : List ℚ) : List ℝ := c.map fun x : ℚ => (x : ℝ) / n

open Classical in
/-- The stability index of two lists of shares: the sum of `(q - p) ln (q / p)` over the bins both use. -/
noncomputable def stability (p q : List ℝ) : ℝ :=
  (((p.zip q).filter fun x => decide (x.1 ≠ 0 ∧ x.2 ≠ 0)).map fun x => (x.2 - x.1) * Real.log (x.2 / x.1)).sum

/-- Evenly spaced edges of `n` bins from `lo` to `hi`. -/
def Even (lo hi : ℚ) (n : ℕ) (de : List ℚ) : Prop := de.length = n + 1 ∧ ∀ i ≤ n, de[i]? = some (lo + i * ((hi - lo) / n))

/-- The edges of a float histogram are used as they are, those of others are rounded. -/
def Rounded (isFloat : Bool) (es rs : List ℚ) : Prop :=
  if isFloat then rs = es else List.Forall₂ (fun e r : ℚ => (∃ z : ℤ, r = (z : ℚ)) ∧ |e - r| ≤ 1 / 2) es rs

/-- `out` are counts over the bins with edges `de` that hold the same values as `cs` over `es`: the same total, and what lies before an edge agrees up
to the bins that contain it. -/
structure Rebinned (cs es de out : List ℚ) : Prop where
  length : out.length + 1 = de.length
  total : out.sum = cs.sum
  whole : ∀ c ∈ out, Whole c
  before : ∀ j x, 0 < j → j < out.length → de[j]? = some x →
    endingBefore cs es x ≤ (out.take j).sum ∧ (out.take j).sum ≤ startingBefore cs es x

/-- A histogram of whole counts with sorted edges. -/
structure Valid (cs es : List ℚ) : Prop where
  length : es.length = cs.length + 1
  sorted : es.Pairwise (· ≤ ·)
  whole : ∀ c ∈ cs, Whole c

end Verif.Spec.NumDiff
