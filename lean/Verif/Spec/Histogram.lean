import Mathlib.Algebra.Order.Field.Rat
import Mathlib.Algebra.BigOperators.Group.List.Basic

/-!
# Specification vocabulary for histograms

Histograms here are just a list of counts and a list of edges (one longer).
-/

namespace Verif.HistSpec

/-- A whole, non-negative count. -/
def Whole (x : ℚ) : Prop := ∃ m : ℕ, x = m

/-- Count in bins that end strictly before `x`. -/
def endingBefore (counts edges : List ℚ) (x : ℚ) : ℚ :=
  (((counts.zip edges.tail).filter fun p => decide (p.2 < x)).map Prod.fst).sum

/-- Count in bins that start strictly before `x`. -/
def startingBefore (counts edges : List ℚ) (x : ℚ) : ℚ :=
  (((counts.zip edges).filter fun p => decide (p.2 < x)).map Prod.fst).sum

/-- Count in bins that start at or before `x`. -/
def startingBy (counts edges : List ℚ) (x : ℚ) : ℚ :=
  (((counts.zip edges).filter fun p => decide (p.2 ≤ x)).map Prod.fst).sum

/-- Indices of the bins with maximal count, in order. -/
def maximalBins (counts : List ℚ) : List ℕ :=
  (List.range counts.length).filter fun i => counts.all fun c => decide (c ≤ counts.getD i 0)

/-- Length of the common part of two intervals. -/
def overlap (l r lo hi : ℚ) : ℚ := max 0 (min r hi - max l lo)

/-- Count lying in `[lo, hi]` when the count of each bin is spread evenly over the bin. -/
def massWithin (counts edges : List ℚ) (lo hi : ℚ) : ℚ :=
  ((counts.zip (edges.zip edges.tail)).map fun p =>
    p.1 * overlap p.2.1 p.2.2 lo hi / (p.2.2 - p.2.1)).sum

end Verif.HistSpec
