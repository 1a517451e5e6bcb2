import Verif.Model.Basic
import Mathlib.Data.Nat.Notation

/-!
# The printed table of scores

Models `f1_report_dict_to_str` (dataprofiler/labelers/labeler_utils.py:22-77).

Simplifications
* what numbers look like with two decimals (`fmt`) is a parameter, and the support of a class is given as its text;
* an entry is a dictionary with the four scores or a number, as `classification_report` of sklearn makes them.
-/

namespace Verif.F1Text

open Verif

/-- A text, as its characters (labeler_utils.py:22). -/
abbrev Text := List Char

/-- `{:>w}`: a text at the right end of `w` characters (the formats at labeler_utils.py:51-70). -/
def pad (w : ℕ) (s : Text) : Text := List.replicate (w - s.length) ' ' ++ s

/-- An entry of the report: the scores of a class or an average, or a number (the accuracy), as described at labeler_utils.py:26-37. -/
inductive Entry (α : Type) where
  | row (precision recall f1 : α) (support : Text)
  | num (x : α)

variable {α : Type}

/-- The names of averages (labeler_utils.py:61). -/
def atEnd (key : Text) : Bool :=
  key == "accuracy".toList || key == "macro avg".toList || key == "weighted avg".toList || key == "micro avg".toList

/-- A line of a name and four cells, each after a blank (labeler_utils.py:51, 55-59, 65-70). -/
def line (width : ℕ) (key a b c d : Text) : Text :=
  pad width key ++ ' ' :: (' ' :: pad 9 a ++ ' ' :: pad 9 b ++ ' ' :: pad 9 c ++ ' ' :: pad 9 d)

/-- The line of an entry: scores (labeler_utils.py:62, 75), or the accuracy in the third cell (64-73). The formats raise for an entry of the other kind. -/
def entryLine (fmt : α → Text) (width : ℕ) (key : Text) : Entry α → Except Err Text
  | .row p r f s => if key = "accuracy".toList then .error .typeError else .ok (line width key (fmt p) (fmt r) (fmt f) s)
  | .num x => if key = "accuracy".toList then .ok (line width key [] [] (fmt x) []) else .error .typeError

/-- The loop (labeler_utils.py:60-75): the text of the classes and that of the averages. -/
def loop (fmt : α → Text) (width : ℕ) (body tail : Text) : List (Text × Entry α) → Except Err (Text × Text)
  | [] => .ok (body, tail)
  | (key, e) :: rest => do
    let l ← entryLine fmt width key e
    if atEnd key then loop fmt width body (tail ++ (l ++ ['\n'])) rest else loop fmt width (body ++ (l ++ ['\n'])) tail rest

/-- `max(len(name) for name in label_names)` (labeler_utils.py:49). -/
def longest : List Text → Except Err ℕ
  | [] => .error .valueError
  | [x] => .ok x.length
  | x :: xs => do .ok (max x.length (← longest xs))

/-- `f1_report_dict_to_str` (labeler_utils.py:22-77). -/
def toText (fmt : α → Text) (report : List (Text × Entry α)) (labels : List Text) : Except Err Text := do
  let nameWidth ← longest labels
  let width := max (max nameWidth "weighted avg".toList.length) 2
  let head := line width [] "precision".toList "recall".toList "f1-score".toList "support".toList
  let (body, tail) ← loop fmt width (head ++ ['\n', '\n']) ['\n'] report
  .ok (body ++ tail)

end Verif.F1Text
