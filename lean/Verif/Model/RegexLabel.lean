import Verif.Model.Basic
import Verif.Model.PyDict
import Mathlib.Algebra.Order.Field.Rat
import Mathlib.Data.Rat.Defs
import Mathlib.Data.Nat.Notation

/-!
# Labelling with regular expressions

Model of `RegexModel.predict` (dataprofiler/labelers/regex_model.py:168-264), `RegexPostProcessor` (dataprofiler/labelers/
data_processing.py:1997-2058) and `StructRegexPostProcessor.process` (data_processing.py:2167-2195).  The compiler of regular
expressions and `finditer` are parameters; a text is known by its length and its matches.
-/

namespace Verif.RegexLabel

open Verif

variable {K S R T : Type} [DecidableEq K]

/-- A pattern: a text, or an object already compiled, which validation accepts too (regex_model.py:137). -/
inductive Pattern (S R : Type)
  | text (s : S)
  | compiled (r : R)

/-- `start_pattern + pattern + end_pattern`, compiled (regex_model.py:207-213): objects cannot be added to texts; `comp` is
`re.compile` of the sum. -/
def compile (comp : S → Option R) : Pattern S R → Except Err R
  | .text s => match comp s with
    | some r => .ok r
    | none => .error .exception
  | .compiled _ => .error .typeError

/-- The compiled patterns of every label (regex_model.py:205-213). -/
def compileAll (comp : S → Option R) (patterns : List (K × List (Pattern S R))) : Except Err (List (K × List R)) :=
  patterns.mapM fun e => (e.2.mapM (compile comp)).map fun rs => (e.1, rs)

/-- The matches of a label, with its number. -/
def labelFound (mapping : PyDict K ℕ) (find : R → T → List (ℕ × ℕ)) (text : T) (e : K × List R) : Except Err (List (ℕ × ℕ × ℕ)) :=
  match PyDict.get? mapping e.1 with
  | some id => .ok (e.2.flatMap fun r => (find r text).map fun s => (id, s))
  | none => .error .keyError

/-- The matches of all labels in the order of the loops (regex_model.py:231-237), as label number, start and end. -/
def found (mapping : PyDict K ℕ) (find : R → T → List (ℕ × ℕ)) (patterns : List (K × List R)) (text : T) :
    Except Err (List (ℕ × ℕ × ℕ)) :=
  (patterns.mapM (labelFound mapping find text)).map List.flatten

/-- A row of a character under a match (regex_model.py:238-239). -/
def hit (dflt id : ℕ) (row : List ℕ) : List ℕ := (row.set dflt 0).set id 1

/-- The rows of the characters after a match. -/
def mark (dflt : ℕ) (rows : List (List ℕ)) (x : ℕ × ℕ × ℕ) : List (List ℕ) :=
  rows.mapIdx fun i row => if x.2.1 ≤ i ∧ i < x.2.2 then hit dflt x.1 row else row

/-- `num_labels` (base_model.py:138-141). -/
def numLabels (mapping : PyDict K ℕ) : ℕ := (mapping.map (·.2)).foldl max 0 + 1

/-- The rows of a text (regex_model.py:228-239). -/
def textRows (mapping : PyDict K ℕ) (dflt : ℕ) (find : R → T → List (ℕ × ℕ)) (patterns : List (K × List R)) (len : T → ℕ)
    (text : T) : Except Err (List (List ℕ)) :=
  (found mapping find patterns text).map fun xs =>
    xs.foldl (mark dflt) (List.replicate (len text) ((List.replicate (numLabels mapping) 0).set dflt 1))

/-- The loop over the texts with its growing list of arrays (regex_model.py:217-243); `none` is the empty one-dimensional array.
The last index seen is returned too. -/
def fillAll (f : T → Except Err (List (List ℕ))) :
    List (Option (List (List ℕ))) → ℕ → ℕ → List T → Except Err (List (Option (List (List ℕ))) × ℕ)
  | preds, last, _, [] => .ok (preds, last)
  | preds, _, i, t :: ts =>
    let grown := if preds.length ≤ i then preds ++ List.replicate preds.length none else preds
    match f t with
    | .error e => .error e
    | .ok rows => fillAll f (grown.set i (some rows)) i (i + 1) ts

/-- `RegexModel.predict` without confidences (regex_model.py:168-264). -/
def predict (comp : S → Option R) (mapping : PyDict K ℕ) (dfltLabel : K) (find : R → T → List (ℕ × ℕ))
    (patterns : List (K × List (Pattern S R))) (len : T → ℕ) (data : List T) : Except Err (List (Option (List (List ℕ)))) :=
  match PyDict.get? mapping dfltLabel with
  | none => .error .keyError
  | some dflt =>
    match compileAll comp patterns with
    | .error e => .error e
    | .ok ps =>
      match fillAll (textRows mapping dflt find ps len) (List.replicate 100 none) 0 0 data with
      | .error e => .error e
      | .ok (preds, last) => .ok (if last + 1 < preds.length then preds.take (last + 1) else preds)

/-! ### Postprocessing -/

/-- `row / norm(row, ord=1)`. -/
def normalize (row : List ℕ) : List ℚ := row.map fun (x : ℕ) => (x : ℚ) / ((row.sum : ℕ) : ℚ)

/-- One array: those of one dimension have no axis 1. -/
def splitOne (p : Option (List (List ℕ))) : Except Err (List (List ℚ)) :=
  match p with
  | some rows => .ok (rows.map normalize)
  | none => .error .valueError

/-- `split_prediction` (data_processing.py:2016-2027), also the confidences of the model (regex_model.py:256-262). -/
def split (preds : List (Option (List (List ℕ)))) : Except Err (List (List (List ℚ))) :=
  preds.mapM splitOne

/-- `np.argmax`: the first index of a maximum. -/
def argmax : List ℚ → ℕ
  | [] => 0
  | x :: xs => if xs.all (fun y => decide (y ≤ x)) then 0 else argmax xs + 1

/-- One row under an order of priority (data_processing.py:2010-2013). -/
def pick (order : List ℕ) (row : List ℕ) : ℕ := order.getD (argmax (order.map fun l => ((row.getD l 0 : ℕ) : ℚ))) 0

/-- One array: an empty order is no array of integers, and labels without a column raise as well. -/
def priorityOne (num : ℕ) (order : List ℕ) (p : Option (List (List ℕ))) : Except Err (List ℕ) :=
  match p with
  | some rows => if order = [] ∨ order.any (fun l => decide (num ≤ l)) then .error .indexError else .ok (rows.map (pick order))
  | none => .error .indexError

/-- `priority_prediction` (data_processing.py:1997-2013). -/
def priority (num : ℕ) (order : List ℕ) (preds : List (Option (List (List ℕ)))) : Except Err (List (List ℕ)) :=
  preds.mapM (priorityOne num order)

/-- The mean over the characters of a cell; the mean of nothing is not a number (data_processing.py:2184-2185). -/
def mean (num : ℕ) (rows : List (List ℚ)) : Option (List ℚ) :=
  if rows = [] then none
  else some ((List.range num).map fun l => (rows.map fun r => r.getD l 0).sum / ((rows.length : ℕ) : ℚ))

/-- The label of a cell (data_processing.py:2194): the first among numbers that are none is chosen. -/
def label (m : Option (List ℚ)) : ℕ :=
  match m with
  | some xs => argmax xs
  | none => 0

/-- `StructRegexPostProcessor.process` (data_processing.py:2167-2195): labels, and what confidences are set to. -/
def cells (num : ℕ) (preds : List (Option (List (List ℕ)))) : Except Err (List ℕ × List (Option (List ℚ))) :=
  (split preds).map fun s => ((s.map (mean num)).map label, s.map (mean num))

end Verif.RegexLabel
