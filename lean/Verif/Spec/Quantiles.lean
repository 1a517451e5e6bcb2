import Mathlib.Data.Rat.Floor

/-!
# Specification: picking quantiles

`n` stored quantiles divide the data into `n + 1` parts: number `k` (from zero) is the quantile of `(k + 1) / (n + 1)`. The
quantile of `(i + 1) / g` is approximated by the first stored one that is not below it.
-/

namespace Verif.QuantilesSpec

/-- `k` is the first stored quantile that is not below quantile `i` of `g` groups. -/
def Best (g n i k : ℕ) : Prop :=
  ((i + 1 : ℕ) : ℚ) / (g : ℚ) ≤ ((k + 1 : ℕ) : ℚ) / ((n + 1 : ℕ) : ℚ) ∧
    ∀ j, ((i + 1 : ℕ) : ℚ) / (g : ℚ) ≤ ((j + 1 : ℕ) : ℚ) / ((n + 1 : ℕ) : ℚ) → k ≤ j

/-- Rounding with relative error at most `2⁻⁵³` that keeps moderate natural numbers. -/
structure Rounding (rnd : ℚ → ℚ) : Prop where
  error : ∀ x, 0 < x → |rnd x - x| ≤ x / 2 ^ 53
  nat : ∀ k : ℕ, 0 < k → k < 2 ^ 53 → rnd k = k

end Verif.QuantilesSpec
