import Mathlib.Data.Nat.Notation
import Mathlib.Data.Rat.Defs

/-!
# How many samples are flattened
-/

namespace Verif.Spec.CharShare

variable {α : Type}

/-- One mark per sample; a sample that is not marked as flattened is a part of a single text. -/
def Marks (data samples : List (List α)) (flags : List Bool) : Prop :=
  samples.length = flags.length ∧
    ∀ (i : ℕ) (x : List α), samples[i]? = some x → flags[i]? = some false → ∃ d ∈ data, x <:+: d

/-- At any time the share of the marked ones is as requested, up to one sample. -/
def Share (s : ℚ) (flags : List Bool) : Prop :=
  ∀ k ≤ flags.length, (((flags.take k).count true : ℕ) : ℚ) ≤ s * k + 1 ∧ s * ((k : ℚ) - 1) ≤ ((flags.take k).count true : ℕ)

end Verif.Spec.CharShare
