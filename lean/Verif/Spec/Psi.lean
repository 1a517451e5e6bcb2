import Mathlib.Analysis.SpecialFunctions.Log.Basic
import Mathlib.Algebra.BigOperators.Group.Finset.Basic

/-!
# Specification of the population stability index
-/

namespace Verif.PsiSpec

variable {K : Type} [DecidableEq K]

/-- Relative frequency of a value. -/
noncomputable def freq (l : List K) (k : K) : ℝ := (l.count k : ℝ) / l.length

/-- The index over the values both columns contain. -/
noncomputable def index (l1 l2 : List K) : ℝ :=
  ∑ k ∈ l1.toFinset ∩ l2.toFinset, (freq l2 k - freq l1 k) * Real.log (freq l2 k / freq l1 k)

end Verif.PsiSpec
