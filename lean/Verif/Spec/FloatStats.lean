import Mathlib.Data.Rat.Defs
import Mathlib.Algebra.Order.Field.Rat
import Mathlib.Algebra.Order.Group.Unbundled.Abs
import Mathlib.Algebra.BigOperators.Group.List.Basic
import Verif.Model.Double
import Verif.Model.FloatStats

/-!
# What statistics in floating point are compared with
-/

namespace Verif.Spec.FloatStats

/-- A rounding with relative error `u`. -/
def Rounds (fl : ℚ → ℚ) (u : ℚ) : Prop := 0 ≤ u ∧ u < 1 ∧ ∀ x, |fl x - x| ≤ u * |x|

/-- The exact mean. -/
def mean (xs : List ℚ) : ℚ := xs.sum / xs.length

/-- The exact variance: the mean squared distance from the mean. -/
def variance (xs : List ℚ) : ℚ := (xs.map fun x => (x - mean xs) ^ 2).sum / xs.length

/-- The total size of numbers. -/
def size (xs : List ℚ) : ℚ := (xs.map abs).sum

/-- Rounding to a double, for numbers of either sign. -/
def double (x : ℚ) : ℚ := if x = 0 then 0 else if x < 0 then -Double.dbl (-x) else Double.dbl x

open Verif.FloatStats (Hist Batch)

/-- The numbers that went into a column. -/
def values : Hist → List ℚ
  | .new => []
  | .update h b => values h ++ b.sum.leaves
  | .merge h h' => values h ++ values h'

/-- How many updates and merges made a column. -/
def operations : Hist → ℕ
  | .new => 0
  | .update h _ => operations h + 1
  | .merge h h' => operations h + operations h' + 1

/-- How many additions a number went through at most. -/
def adds : Hist → ℕ
  | .new => 0
  | .update h b => max (adds h) b.sum.depth + 1
  | .merge h h' => max (adds h) (adds h') + 1

/-- The roundings counted against the variance of a batch. -/
def batchLoss (b : Batch) : ℕ := 4 * (2 * b.mean.depth + b.squares.depth + 6)

/-- The roundings counted against the variance of a column. -/
def loss : Hist → ℕ
  | .new => 0
  | .update h b => max (loss h) (batchLoss b) + 2 * adds (.update h b) + 10
  | .merge h h' => max (loss h) (loss h') + 2 * adds (.merge h h') + 10

end Verif.Spec.FloatStats
