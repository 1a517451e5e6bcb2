import Verif.Model.Embedding

/-! # Specification of files of embeddings -/

namespace Verif.Spec.Embedding

open Verif.Embedding

/-- White space includes blanks and the ends of lines. -/
def Usual (sp : Char → Bool) : Prop := sp ' ' = true ∧ sp '\n' = true ∧ sp '\r' = true

/-- A text that is not empty and without white space. -/
def Word (sp : Char → Bool) (w : Text) : Prop := w ≠ [] ∧ ∀ c ∈ w, sp c = false

/-- Only white space. -/
def Blank (sp : Char → Bool) (s : Text) : Prop := ∀ c ∈ s, sp c = true

/-- A text consists of these words, with white space between them and perhaps at the ends. -/
inductive Consists (sp : Char → Bool) : Text → List Text → Prop
  | blank {s} : Blank sp s → Consists sp s []
  | last {s w} : Blank sp s → Word sp w → Consists sp (s ++ w) [w]
  | word {s w c rest ws} : Blank sp s → Word sp w → sp c = true → Consists sp (c :: rest) ws → Consists sp (s ++ w ++ c :: rest) (w :: ws)

/-- The lines of a text: put together they are the text, and only the last one may lack its line feed. -/
def Lines (text : Text) (ls : List Text) : Prop :=
  ls.flatten = text ∧ (∀ l ∈ ls, l ≠ []) ∧ (∀ l ∈ ls, '\n' ∉ l.dropLast) ∧ ∀ l ∈ ls.dropLast, l.getLast? = some '\n'

/-- The vector of a word: that of the last line that begins with the word. -/
def vectorOf (rows : List (Text × List Text)) (w : Text) : Option (List Text) :=
  ((rows.filter fun r => decide (r.1 = w)).getLast?).map Prod.snd

end Verif.Spec.Embedding
