import Mathlib.Data.Rat.Floor

/-!
# Whole parts

Independent of the model.
-/

namespace Verif.Spec.WholeText

/-- `j` is what is left of `q` when the digits after the point are dropped. -/
def WholePart (q : ℚ) (j : ℤ) : Prop :=
  |(j : ℚ)| ≤ |q| ∧ |q| < |(j : ℚ)| + 1 ∧ (0 < j → 0 < q) ∧ (j < 0 → q < 0)

end Verif.Spec.WholeText
