import Verif.Model.Entities

/-!
# What the profile of entities should report
-/

namespace Verif.EntitiesSpec

open Verif.Entities

/-- All samples of a history. -/
def samples : History → List Sample
  | .new => []
  | .update h ss => samples h ++ ss
  | .merge h1 h2 => samples h1 ++ samples h2

/-- The entities come in order, do not overlap and lie between `from_` and `to_`. -/
def Ordered (to_ : ℕ) : ℕ → List Entity → Prop
  | from_, [] => from_ ≤ to_
  | from_, e :: es => from_ ≤ e.first ∧ e.first ≤ e.last ∧ Ordered to_ e.last es

/-- Ordered within the text. -/
def Sample.Ordered (s : Sample) : Prop := EntitiesSpec.Ordered s.text.length 0 s.entities

/-- The label of a position: that of the entity around it, or background. -/
def labelAt (es : List Entity) (i : ℕ) : String :=
  match es.find? fun e => decide (e.first ≤ i ∧ i < e.last) with
  | some e => e.label
  | none => "UNKNOWN"

/-- Number of characters of a text with a label. -/
def labelled (s : Sample) (l : String) : ℕ := (List.range s.text.length).countP fun i => decide (labelAt s.entities i = l)

/-- The characters outside all entities. -/
def background (s : Sample) : List Char :=
  ((List.range s.text.length).filter fun i => s.entities.all fun e => !decide (e.first ≤ i ∧ i < e.last)).filterMap
    (s.text[·]?)

/-- Blank, tabulator, end of line, and the punctuation that ends words. -/
def Ends (c : Char) : Prop :=
  c = ' ' ∨ c = '\t' ∨ c = '\n' ∨ c = ',' ∨ c = ';' ∨ c = ':' ∨ c = '.' ∨ c = '!' ∨ c = '"' ∨ c = '\''

instance : DecidablePred Ends := fun c => by unfold Ends; infer_instance

/-- Number of words that are followed by a separator. -/
def endedWords (cs : List Char) : ℕ :=
  (cs.zip cs.tail).countP fun cc => decide (¬Ends cc.1 ∧ Ends cc.2)

/-- Number of words. -/
def allWords (cs : List Char) : ℕ :=
  endedWords cs + if ∃ c, cs.getLast? = some c ∧ ¬Ends c then 1 else 0

/-- Characters in the texts. -/
def textChars (ss : List Sample) : ℤ := (ss.map fun s => (s.text.length : ℤ)).sum

/-- Characters with a prediction. -/
def predictedChars (ss : List Sample) : ℤ := (ss.map fun s => (s.chars.length : ℤ)).sum

end Verif.EntitiesSpec
