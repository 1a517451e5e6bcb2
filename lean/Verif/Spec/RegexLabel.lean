import Mathlib.Algebra.Order.Field.Rat
import Mathlib.Data.Rat.Defs
import Mathlib.Data.Nat.Notation

/-!
# Labelling with regular expressions
-/

namespace Verif.Spec.RegexLabel

variable {K R T : Type}

/-- Some pattern of the label matches the character. -/
def Matched (find : R → T → List (ℕ × ℕ)) (patterns : List (K × List R)) (text : T) (label : K) (i : ℕ) : Prop :=
  ∃ e ∈ patterns, e.1 = label ∧ ∃ r ∈ e.2, ∃ s ∈ find r text, s.1 ≤ i ∧ i < s.2

/-- The votes on a character: one column per label number, a one where a pattern of a label with that number matches, the
default where none does. -/
structure Votes (mapping : List (K × ℕ)) (find : R → T → List (ℕ × ℕ)) (patterns : List (K × List R)) (text : T) (dflt i : ℕ)
    (row : List ℕ) : Prop where
  wide : ∀ k id, (k, id) ∈ mapping → id < row.length
  bit : ∀ x ∈ row, x = 0 ∨ x = 1
  vote : ∀ l, l < row.length → l ≠ dflt → (row[l]? = some 1 ↔ ∃ k, (k, l) ∈ mapping ∧ Matched find patterns text k i)
  background : (∀ k, ¬ Matched find patterns text k i) → row[dflt]? = some 1
  foreground : (∃ k, Matched find patterns text k i) → (∀ k, (k, dflt) ∈ mapping → ¬ Matched find patterns text k i) →
    row[dflt]? = some 0
  some : ∃ l : ℕ, row[l]? = some 1

/-- A row of votes is shared equally by the labels voted for. -/
structure Shares (row : List ℕ) (out : List ℚ) : Prop where
  len : out.length = row.length
  sum : out.sum = 1
  zero : ∀ l : ℕ, row[l]? = some 0 → out[l]? = some 0
  equal : ∀ l l' : ℕ, row[l]? = some 1 → row[l']? = some 1 → out[l]? = out[l']?

/-- The first of the largest. -/
def FirstMax (xs : List ℚ) (k : ℕ) : Prop :=
  ∃ x, xs[k]? = some x ∧ (∀ y ∈ xs, y ≤ x) ∧ ∀ (j : ℕ) y, j < k → xs[j]? = some y → y < x

end Verif.Spec.RegexLabel
