import Mathlib.Data.List.Basic
import Verif.Model.NullMatch

/-!
# Specification vocabulary: which cells are null
-/

namespace Verif.Spec.NullMatch

open Verif Verif.NullMatch

/-- `*`, `+` and `?` repeat the character before them. -/
def Repeat (c : Char) : Prop := c = '*' ∨ c = '+' ∨ c = '?'

instance (c : Char) : Decidable (Repeat c) := inferInstanceAs (Decidable (_ ∨ _ ∨ _))

/-- A character that stands for one character: itself, or any for the dot. -/
def Plain (c : Char) : Prop := ¬ Repeat c ∧ c ∉ ['\\', '^', '$', '{', '[', '(', ')', '|']

instance (c : Char) : Decidable (Plain c) := inferInstanceAs (Decidable (_ ∧ _))

/-- A null value made of such characters, each repeated at most in one way. -/
inductive Simple : List Char → Prop where
  | nil : Simple []
  | one (p : Char) (ps : List Char) : Plain p → Simple ps → Simple (p :: ps)
  | rep (p r : Char) (ps : List Char) : Plain p → Repeat r → Simple ps → Simple (p :: r :: ps)

/-- A character of a null value stands for a character of the cell, `eq` telling which characters count as equal. -/
def Single (eq : Char → Char → Prop) (p c : Char) : Prop := (p = '.' ∧ c ≠ '\n') ∨ (p ≠ '.' ∧ eq p c)

/-- The text fits the null value read as a regular expression. -/
inductive Fits (eq : Char → Char → Prop) : List Char → List Char → Prop where
  | nil : Fits eq [] []
  | one (p : Char) (ps : List Char) (c : Char) (t : List Char) : (∀ q ∈ ps.head?, ¬ Repeat q) → Single eq p c → Fits eq ps t →
      Fits eq (p :: ps) (c :: t)
  | skip (p r : Char) (ps t : List Char) : r = '*' ∨ r = '?' → Fits eq ps t → Fits eq (p :: r :: ps) t
  | last (p r : Char) (ps : List Char) (c : Char) (t : List Char) : Repeat r → Single eq p c → Fits eq ps t →
      Fits eq (p :: r :: ps) (c :: t)
  | more (p r : Char) (ps : List Char) (c : Char) (t : List Char) : r = '*' ∨ r = '+' → Single eq p c →
      Fits eq (p :: r :: ps) t → Fits eq (p :: r :: ps) (c :: t)

/-- The cell is the text, or the text and a line end. -/
def Holds (cell u : List Char) : Prop := cell = u ∨ cell = u ++ ['\n']

/-- The texts that are null by default. -/
def ByDefault (cell : String) : Prop :=
  cell = "" ∨ (cell.toList.map Char.toLower) ∈ ["nan".toList, "none".toList, "null".toList] ∨
    (cell ≠ "" ∧ ((∀ c ∈ cell.toList, c = ' ') ∨ (∀ c ∈ cell.toList, c = '-') ∨ ∀ c ∈ cell.toList, c = '_'))

/-- `re` ignores the case of these characters, and only that. -/
def Folds (same : Char → Char → Bool) (chars : List Char) : Prop :=
  ∀ p ∈ chars, ∀ c, same p c = true ↔ c.toLower = p

/-- What the options promise: a cell is null if it fits a null value, case being ignored for those with the flag
`re.IGNORECASE` only. -/
def Promised (same : Char → Char → Bool) (d : NullValues) (cell : String) : Prop :=
  ∃ kv ∈ d, Fits (fun p c => if kv.2 % 4 / 2 = 1 then same p c = true else p = c) kv.1.toList cell.toList

end Verif.Spec.NullMatch
