import Verif.Model.MethodChoice
import Mathlib.Algebra.BigOperators.Group.Finset.Basic

/-!
# What the choice of a binning method should be
-/

namespace Verif.Spec.MethodChoice

open Verif Verif.MethodChoice

/-- How much larger than the average of all a value is, as a share of the average. -/
def excess (l : List ℚ) (x : ℚ) : ℚ := if 0 < l.sum then x * l.length / l.sum - 1 else 0

/-- The same for a time that is at least a second above the average. -/
def penalty (l : List ℚ) (x : ℚ) : ℚ := if l.sum / l.length + 1 ≤ x then (x - l.sum / l.length) / (l.sum / l.length) else 0

/-- The loss of the method at `i`: relative distance of the estimated variance from the exact one, relative variance inside the bins, and time. -/
def lossOf (exact : ℚ) (est total run : List ℚ) (i : ℕ) : ℚ :=
  excess (est.map fun e => |exact - e|) |exact - est.getD i 0| + excess total (total.getD i 0) + penalty run (run.getD i 0)

/-- The first of the methods with the most bins among those with the least loss. -/
def Best (ms : List Method) (m : Method) : Prop :=
  ∃ pre post, ms = pre ++ m :: post ∧
    (∀ m' ∈ pre, m.total < m'.total ∨ (m.total = m'.total ∧ m'.bins < m.bins)) ∧
    ∀ m' ∈ post, m.total < m'.total ∨ (m.total = m'.total ∧ m'.bins ≤ m.bins)

/-- The mean squared distance from the mean. -/
def variance (xs : List ℚ) : ℚ := (xs.map fun x => (x - xs.sum / xs.length) ^ 2).sum / xs.length

/-- The histogram is one of the data: `bin` says into which bin a value goes. -/
structure HistOf (counts edges : List ℚ) (bin : ℚ → ℕ) (xs : List ℚ) : Prop where
  size : edges.length = counts.length + 1
  inside : ∀ x ∈ xs, bin x < counts.length ∧ edges.getD (bin x) 0 ≤ x ∧ x ≤ edges.getD (bin x + 1) 0
  number : ∀ i < counts.length, counts.getD i 0 = (xs.filter fun x => decide (bin x = i)).length

end Verif.Spec.MethodChoice
