import Mathlib.Data.Nat.Notation

/-! # Lines of delimited text -/

namespace Verif.Spec.CsvRecords

/-- A text between quote characters: quote characters in it are doubled. -/
inductive Escaped (q : Char) : List Char → List Char → Prop
  | nil : Escaped q [] []
  | char {c : Char} {w f : List Char} : c ≠ q → Escaped q w f → Escaped q (c :: w) (c :: f)
  | quote {w f : List Char} : Escaped q w f → Escaped q (q :: q :: w) (q :: f)

/-- A field as written, and the text it stands for. -/
inductive Field (d q : Char) : List Char → List Char → Prop
  | bare {f : List Char} : (∀ c ∈ f, c ≠ d ∧ c ≠ q) → Field d q f f
  | quoted {w f : List Char} : Escaped q w f → Field d q (q :: w ++ [q]) f

/-- A line as written, and the texts of its fields. -/
inductive Line (d q : Char) : List Char → List (List Char) → Prop
  | last {w f : List Char} : Field d q w f → Line d q w [f]
  | more {w f l : List Char} {fs : List (List Char)} : Field d q w f → Line d q l fs → Line d q (w ++ d :: l) (f :: fs)

/-- Characters at which Python splits lines: line feed, vertical tab, form feed, carriage return, file, group and record separator, next
line, line and paragraph separator. -/
def LineBreak (c : Char) : Prop :=
  (10 ≤ c.toNat ∧ c.toNat ≤ 13) ∨ (28 ≤ c.toNat ∧ c.toNat ≤ 30) ∨ c.toNat = 0x85 ∨ c.toNat = 0x2028 ∨ c.toNat = 0x2029

instance (c : Char) : Decidable (LineBreak c) := by unfold LineBreak; infer_instance

/-- The rows of a table with its header; a missing cell is an empty one. -/
def table (names : List (List Char)) (rows : List (List (Option (List Char)))) : List (List (List Char)) :=
  names :: rows.map fun r => r.map fun
    | some t => t
    | none => []

/-- The character used for a setting: the default if nothing is set. -/
def Chosen (setting : Option String) (dflt c : Char) : Prop :=
  ((setting = none ∨ setting = some "") ∧ c = dflt) ∨ setting = some (String.singleton c)

/-- A table: every row has as many cells as there are names, and there is one. -/
def Rectangular (names : List (List Char)) (rows : List (List (Option (List Char)))) : Prop :=
  names ≠ [] ∧ ∀ r ∈ rows, r.length = names.length

/-- Every character of a table satisfies `p`. -/
def Chars (p : Char → Prop) (names : List (List Char)) (rows : List (List (Option (List Char)))) : Prop :=
  ∀ r ∈ table names rows, ∀ f ∈ r, ∀ c ∈ f, p c

/-- The number of line feeds in the cells and names of a table. -/
def feeds (names : List (List Char)) (rows : List (List (Option (List Char)))) : ℕ :=
  ((table names rows).map fun r => (r.map fun f => f.count '\n').sum).sum

end Verif.Spec.CsvRecords
