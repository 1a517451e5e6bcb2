import Verif.Model.Precision
import Verif.Spec.Moments

/-!
# What the precision statistics should be
-/

namespace Verif.PrecisionSpec

open Verif Verif.Precision

/-- Significant digits of a plain decimal `core` whose leading zeros are gone: the digits that remain when zeros at the
very end are dropped. -/
def significant (core : List Char) : ℕ := ((core.reverse.dropWhile (· == '0')).filter Char.isDigit).length

/-- All values of a history. -/
def values : History → List String
  | .new _ => []
  | .update h b => values h ++ b.values
  | .merge h1 h2 => values h1 ++ values h2

/-- All values drawn during a history. -/
def drawn : History → List String
  | .new _ => []
  | .update h b => drawn h ++ b.sample
  | .merge h1 h2 => drawn h1 ++ drawn h2

/-- Something was drawn from every batch with values. -/
def Drawn : History → Prop
  | .new _ => True
  | .update h b => Drawn h ∧ (b.values ≠ [] → b.sample ≠ [])
  | .merge h1 h2 => Drawn h1 ∧ Drawn h2

/-- No profile is updated twice: data come together by merging only. -/
def Once : History → Prop
  | .new _ => True
  | .update h b => Once h ∧ (drawn h = [] ∨ b.sample = [])
  | .merge h1 h2 => Once h1 ∧ Once h2

/-- No sampling option is set. -/
def Default : History → Prop
  | .new r => r = none
  | .update h _ => Default h
  | .merge h1 h2 => Default h1 ∧ Default h2

/-- Every batch has at most `n` values. -/
def AtMost (n : ℕ) : History → Prop
  | .new _ => True
  | .update h b => AtMost n h ∧ b.values.length ≤ n
  | .merge h1 h2 => AtMost n h1 ∧ AtMost n h2

/-- `p` has the count, sum, mean and extremes of `xs`. -/
structure Describes (xs : List ℝ) (p : Stats) : Prop where
  min : ∃ a ∈ xs, p.min = some a ∧ ∀ x ∈ xs, a ≤ x
  max : ∃ a ∈ xs, p.max = some a ∧ ∀ x ∈ xs, x ≤ a
  sum : p.sum = xs.sum
  mean : p.mean = some (Spec.mean xs)
  size : p.size = xs.length

/-- The figures of texts as real numbers. -/
def counts (texts : List String) : List ℝ := texts.map fun t => (figures t.toList : ℝ)

end Verif.PrecisionSpec
