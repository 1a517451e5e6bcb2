import Mathlib.Data.Nat.Notation

/-!
# Training samples
-/

namespace Verif.Spec.Training

/-- A rearrangement of the positions below `n`. -/
def IsPerm (n : ℕ) (p : List ℕ) : Prop := p.Nodup ∧ ∀ i, i ∈ p ↔ i < n

end Verif.Spec.Training
