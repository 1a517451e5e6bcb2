import Verif.Props.Unstructured

/-!
# C80: cases, and what does not hold
-/

namespace Verif.Props.Unstructured

open Verif Verif.Unstructured Verif.UnstructuredSpec
open Verif.Words (Chars Word)

/-- Default settings, no word stopped. -/
def opts : Opts := ⟨some ⟨true, ["the".toList], none, none⟩, 0, 0, 1 / 5⟩

/-- A batch as given by a user. -/
def batch (d : Data) : Batch := ⟨d, none, 0, 0, id⟩

/-- The number of lines. -/
def memLines (ls : List String) : ℚ := ls.length

/-- The report after a history, if there is one. -/
def reported (h : History) : Option Report :=
  match run WordsProps.ascii memLines h with
  | .ok s => (report s).toOption
  | .error _ => none

/-- Samples used and empty lines. -/
def sizes (h : History) : Option (ℕ × ℕ) := (reported h).map fun r => (r.samplesUsed, r.emptyLineCount)

/-- The table of words. -/
def table (h : History) : Option (List (Word × ℕ)) := (reported h).bind fun r => r.tables.map Prod.snd

/-- Two updates, the second with a data frame of one column, merged with a text. -/
def sample : History :=
  .merge (.update (.update (.new opts) ⟨.list ["to be", " ", "or not to be"], some (some "utf-8", "text"), 0, 0, id⟩)
    (batch (.list ["", "the end"]))) (.update (.new opts) (batch (.text "be")))

example : sizes sample = some (6, 2) ∧ table sample = some [("be".toList, 3), ("to".toList, 2), ("or".toList, 1),
    ("not".toList, 1), ("end".toList, 1)] := by decide +kernel

theorem validDraws_id (n : ℕ) : Shuffle.ValidDraws n id := fun _ h => ⟨le_rfl, h⟩

example : Sensible sample ∧ Whole sample ∧ Fed sample := by
  refine ⟨⟨⟨⟨trivial, trivial, validDraws_id _⟩, trivial, validDraws_id _⟩, trivial, trivial, validDraws_id _⟩,
    ⟨⟨⟨trivial, by decide⟩, by decide⟩, trivial, by decide⟩, ?_⟩
  exact ⟨Or.inr (by decide), Or.inr (by decide)⟩

/-- A sample of two of four lines, at least one of which is not blank. -/
def part : History := .update (.new opts) ⟨.list ["a b", "c", " ", "d"], none, 2, 1, id⟩

example : sizes part = some (2, 0) ∧ table part = some [("a".toList, 1), ("b".toList, 1), ("c".toList, 1)] ∧
    ¬Whole part := by
  refine ⟨by decide +kernel, by decide +kernel, fun h => absurd h.2 (by decide)⟩

/-- With repeated labels, as after concatenating two series, lines that are not blank count as empty, and blank lines are
profiled. -/
theorem C80_labels_fails :
    (∃ h, Whole h ∧ (∀ l ∈ allLines h, ¬Blank WordsProps.ascii l) ∧
      sizes h = some (2, 1)) ∧
    ∃ h s c p, Whole h ∧ run WordsProps.ascii memLines h = .ok s ∧ s.profile = some c ∧ c.text = some p ∧
      ((allLines h).filter fun l => ¬Blank WordsProps.ascii l) = ["a"] ∧ PyDict.getD p.vocab ' ' 0 = 1 := by
  refine ⟨⟨.update (.new opts) (batch (.series none [(0, "a"), (0, "b")])), ⟨trivial, by decide⟩, by decide +kernel,
    by decide +kernel⟩, .update (.new opts) (batch (.series none [(0, "a"), (0, " ")])), _, _, _, ⟨trivial, by decide⟩,
    rfl, rfl, rfl, by decide +kernel, by decide +kernel⟩

/-- A profile without lines, such as the one of empty data, can be neither reported nor merged. -/
theorem C80_unfed_fails : ∃ s t, run WordsProps.ascii memLines (.update (.new opts) (batch (.list []))) = .ok s ∧
    run WordsProps.ascii memLines (.update (.new opts) (batch (.list ["a"]))) = .ok t ∧
    (∀ e, report s = .error e ↔ e = .attributeError) ∧ merge WordsProps.ascii s t = .error .typeError ∧
    merge WordsProps.ascii t s = .error .typeError := by
  refine ⟨new opts, _, rfl, rfl, fun e => ?_, rfl, rfl⟩
  constructor
  · intro h; cases h; rfl
  · rintro rfl; rfl

/-- The same lines, once as a list and once as a named column, cannot be merged. -/
theorem C80_names_fails : ∃ s t, run WordsProps.ascii memLines (.update (.new opts) (batch (.list ["a"]))) = .ok s ∧
    run WordsProps.ascii memLines (.update (.new opts) (batch (.frame [0] [("text", ["a"])]))) = .ok t ∧
    merge WordsProps.ascii s t = .error .valueError :=
  ⟨_, _, rfl, rfl, rfl⟩

example : update WordsProps.ascii memLines (new opts) (batch (.frame [0] [("x", ["a"]), ("y", ["b"])])) =
    .error .valueError := rfl

example : Distinct (.frame [0] [("x", ["a"]), ("y", ["b"])]) := ⟨by decide, by decide⟩

end Verif.Props.Unstructured
