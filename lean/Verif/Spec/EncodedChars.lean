import Mathlib.Data.Int.Notation
import Mathlib.Data.Nat.Notation

/-!
# A text as a row of numbers
-/

namespace Verif.Spec.EncodedChars

/-- At each position the code of the character there, and zero where the text has ended. -/
def row (maxLen : ℕ) (code : Char → ℤ) (text : List Char) : List ℤ :=
  (List.range maxLen).map fun j => match text[j]? with
    | some c => code c
    | none => 0

/-- The part of a row before its first zero. -/
def front (r : List ℤ) : List ℤ := r.takeWhile (fun x => decide (x ≠ 0))

end Verif.Spec.EncodedChars
