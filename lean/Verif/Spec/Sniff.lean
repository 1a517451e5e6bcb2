import Mathlib.Data.Nat.Notation

/-!
# Runs of characters
-/

namespace Verif.Spec.Sniff

/-- A run of a character starts at a position. -/
def Starts (c : Char) (s : List Char) (i : ℕ) : Prop := s[i]? = some c ∧ ∀ j, j + 1 = i → s[j]? ≠ some c

/-- The positions where runs start, in increasing order. -/
def RunStarts (c : Char) (s : List Char) (l : List ℕ) : Prop := l.Pairwise (· < ·) ∧ ∀ i, i ∈ l ↔ Starts c s i

/-- A text has `k` runs of line ends. -/
def HasRuns (s : List Char) (k : ℕ) : Prop := ∃ l, RunStarts '\n' s l ∧ l.length = k

/-- The positions of a character, in increasing order. -/
def Occurrences (c : Char) (s : List Char) (l : List ℕ) : Prop := l.Pairwise (· < ·) ∧ ∀ i, i ∈ l ↔ s[i]? = some c

end Verif.Spec.Sniff
