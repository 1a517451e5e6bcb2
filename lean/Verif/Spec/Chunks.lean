import Mathlib.Data.Nat.Notation

/-! # What it means to cut a sequence into pieces -/

namespace Verif.Chunks

/-- `pieces` is `data` cut, in order, into non-empty pieces of `size` elements, the last one possibly
shorter. -/
structure CutsInto {α : Type} (data : List α) (size : ℕ) (pieces : List (List α)) : Prop where
  concat : pieces.flatten = data
  nonempty : ∀ p ∈ pieces, p ≠ []
  bounded : ∀ p ∈ pieces, p.length ≤ size
  full : ∀ p ∈ pieces.dropLast, p.length = size

end Verif.Chunks
