import Mathlib.Data.Nat.Notation

/-! # What the random generator may return -/

namespace Verif.Shuffle

/-- Every draw for position `j` lies in the half-open range `[j, n)` it was asked for. -/
def ValidDraws (n : ℕ) (draws : ℕ → ℕ) : Prop := ∀ j, j < n → j ≤ draws j ∧ draws j < n

end Verif.Shuffle
