import Verif.Model.Memory
import Verif.Spec.FloatStats

/-! # Specification of the memory of text -/

namespace Verif.Spec.Memory

open Verif.Memory

/-- The code points of a string. -/
def points (s : String) : PyText := s.toList.map Char.toNat

/-- A text that is a sequence of characters: no code point is a surrogate. -/
def Characters (t : PyText) : Prop := ∃ s : String, points s = t

/-- The bytes of strings in UTF-8, as the library of Lean has them. -/
def bytes (ls : List String) : ℕ := (ls.map String.utf8ByteSize).sum

/-- A history of a profile of strings. -/
inductive Strings where
  | new
  | update (h : Strings) (lines : List String)
  | merge (h1 h2 : Strings)

/-- As a history of code points. -/
def Strings.history : Strings → History
  | .new => .new
  | .update h ls => .update h.history (ls.map points)
  | .merge h1 h2 => .merge h1.history h2.history

/-- All lines of a history. -/
def Strings.lines : Strings → List String
  | .new => []
  | .update h ls => h.lines ++ ls
  | .merge h1 h2 => h1.lines ++ h2.lines

/-- All texts of a history of code points. -/
def texts : History → List PyText
  | .new => []
  | .update h ls => texts h ++ ls
  | .merge h1 h2 => texts h1 ++ texts h2

/-- Numbers of bytes, also divided by a unit, are not changed by rounding. -/
def Exact (fl : ℚ → ℚ) : Prop := ∀ n k : ℕ, n < 2 ^ 53 → k ≤ 30 → fl (n / 2 ^ k) = n / 2 ^ k

/-- How many bytes a unit has. -/
def Unit (unit : String) (size : ℕ) : Prop :=
  (unit = "B" ∧ size = 1) ∨ (unit = "K" ∧ size = 1024) ∨ (unit = "M" ∧ size = 1048576) ∨ (unit = "G" ∧ size = 1073741824)

end Verif.Spec.Memory
