import Verif.Model.Basic
import Verif.Model.PyDict
import Mathlib.Data.Rat.Defs
import Mathlib.Data.List.Sort

/-!
# Evaluation of predictions

`evaluate_accuracy` (labelers/labeler_utils.py:80-210), `convert_confusion_matrix_to_MCM`, `precision_recall_fscore_support` and
`classification_report` (labelers/classification_report_utils.py:11-53, 57-225, 228-407). Numbers are rationals; the file of the
confusion matrix, the printed report and warnings are left out.
-/

namespace Verif.ClassReport

open Verif

/-! ### Confusion matrix -/

/-- One padded row (labeler_utils.py:125-127): a longer row does not fit, except that numpy spreads a single value. -/
def padRow (w : ℕ) (row : List ℕ) : Except Err (List ℕ) :=
  if row.length ≤ w ∨ row.length = 1 then .ok (row.take w ++ List.replicate (w - row.length) 0) else .error .valueError

/-- One batch (labeler_utils.py:141-153); `coo_matrix` demands equal lengths and labels below the number of labels, and adds up
repeated places. -/
def addBatch (n b : ℕ) (ts ps : List ℕ) (C : ℕ → ℕ → ℕ) (k : ℕ) : Except Err (ℕ → ℕ → ℕ) :=
  let tb := (ts.drop (b * k)).take b
  let pb := (ps.drop (b * k)).take b
  if tb.length = pb.length ∧ (∀ t ∈ tb, t < n) ∧ (∀ p ∈ pb, p < n) then .ok fun i j => C i j + (tb.zip pb).count (i, j)
  else .error .valueError

/-- The confusion matrix (labeler_utils.py:139-153). -/
def confusion (n : ℕ) (ts ps : List ℕ) : Except Err (ℕ → ℕ → ℕ) :=
  let b := min (2 ^ 20) ts.length
  if b = 0 then .error .zeroDivision
  else (List.range (ts.length / b + 1)).foldlM (addBatch n b ts ps) fun _ _ => 0

/-! ### Scores -/

/-- True positives, false negatives and false positives of a label (classification_report_utils.py:37-49). -/
def tp (n : ℕ) (C : ℕ → ℕ → ℕ) (i : ℕ) : ℕ := ((List.range n).map fun j => C i j * if i = j then 1 else 0).sum
def fn (n : ℕ) (C : ℕ → ℕ → ℕ) (i : ℕ) : ℕ := ((List.range n).map fun j => C i j * (1 - if i = j then 1 else 0)).sum
def fp (n : ℕ) (C : ℕ → ℕ → ℕ) (i : ℕ) : ℕ := ((List.range n).map fun j => C j i * (1 - if i = j then 1 else 0)).sum

/-- `_prf_divide` of sklearn: zero where the denominator is. -/
def divide (a b : ℕ) : ℚ := if b = 0 then 0 else (a : ℚ) / (b : ℚ)

/-- The F-score with `beta = 1` (classification_report_utils.py:195-205). -/
def fscore (p r : ℚ) : ℚ :=
  let d := p + r
  (1 + 1) * p * r / (if d = 0 then 1 else d)

/-- A row of the report; `none` is NaN. -/
inductive Entry where
  | row (p r f : Option ℚ) (support : ℕ)
  | num (v : ℚ)
  deriving DecidableEq

/-- Precision, recall and F-score of a label. -/
def scores (n : ℕ) (C : ℕ → ℕ → ℕ) (i : ℕ) : ℚ × ℚ × ℚ :=
  let p := divide (tp n C i) (tp n C i + fp n C i)
  let r := divide (tp n C i) (tp n C i + fn n C i)
  (p, r, fscore p r)

def support (n : ℕ) (C : ℕ → ℕ → ℕ) (i : ℕ) : ℕ := tp n C i + fn n C i

/-- Micro averages (classification_report_utils.py:185-188). -/
def micro (n : ℕ) (C : ℕ → ℕ → ℕ) (ls : List ℕ) : ℚ × ℚ × ℚ :=
  let t := (ls.map (tp n C)).sum
  let p := divide t ((ls.map fun i => tp n C i + fp n C i).sum)
  let r := divide t ((ls.map (support n C)).sum)
  (p, r, fscore p r)

/-- `np.average` with and without weights, of a non-empty list. -/
def mean (l : List ℚ) : ℚ := l.sum / (l.length : ℚ)
def wmean (ws : List ℕ) (l : List ℚ) : ℚ := ((ws.zip l).map fun x => (x.1 : ℚ) * x.2).sum / ((ws.sum : ℕ) : ℚ)

/-- Macro and weighted averages (classification_report_utils.py:208-223). -/
def macroAvg (n : ℕ) (C : ℕ → ℕ → ℕ) (ls : List ℕ) : ℚ × ℚ × ℚ :=
  (mean (ls.map fun i => (scores n C i).1), mean (ls.map fun i => (scores n C i).2.1), mean (ls.map fun i => (scores n C i).2.2))

def weighted (n : ℕ) (C : ℕ → ℕ → ℕ) (ls : List ℕ) : ℚ × ℚ × ℚ :=
  let ws := ls.map (support n C)
  if ws.sum = 0 then (0, 0, 0)
  else (wmean ws (ls.map fun i => (scores n C i).1), wmean ws (ls.map fun i => (scores n C i).2.1),
    wmean ws (ls.map fun i => (scores n C i).2.2))

def entryOf (x : ℚ × ℚ × ℚ) (s : ℕ) : Entry := .row (some x.1) (some x.2.1) (some x.2.2) s

/-- The rows of the labels (classification_report_utils.py:347-360). -/
def labelRows (n : ℕ) (C : ℕ → ℕ → ℕ) (ls : List ℕ) (names : List String) : PyDict String Entry :=
  (names.zip ls).foldl (fun d x => PyDict.set d x.1 (entryOf (scores n C x.2) (support n C x.2))) []

/-- The line of the accuracy becomes a number (classification_report_utils.py:401-403). -/
def squash (d : PyDict String Entry) : PyDict String Entry :=
  match PyDict.get? d "accuracy" with
  | some (.row (some p) _ _ _) => PyDict.set d "accuracy" (.num p)
  | _ => d

/-- The name of the micro average (classification_report_utils.py:308-310, 376-379): the accuracy if all labels are listed. -/
def microName (n : ℕ) (ls : List ℕ) : String :=
  if (∀ i ∈ ls, i < n) ∧ ∀ i ∈ List.range n, i ∈ ls then "accuracy" else "micro avg"

/-- `classification_report` with labels, names and `output_dict` (classification_report_utils.py:228-407). -/
def report (n : ℕ) (C : ℕ → ℕ → ℕ) (ls : List ℕ) (names : List String) : Except Err (PyDict String Entry) :=
  if ls = [] then .error .typeError
  else
    let s := (ls.map (support n C)).sum
    if ∃ i ∈ ls, n ≤ i then .error .indexError
    else
      let d := labelRows n C ls names
      let d := PyDict.set d (microName n ls) (entryOf (micro n C ls) s)
      let d := PyDict.set d "macro avg" (entryOf (macroAvg n C ls) s)
      let d := PyDict.set d "weighted avg" (entryOf (weighted n C ls) s)
      .ok (squash d)

/-! ### Evaluation -/

/-- The lines that are no labels (labeler_utils.py:181). -/
def averages : List String := ["accuracy", "macro avg", "weighted avg", "micro avg"]

/-- Whether an entry has support (labeler_utils.py:182). -/
def hasSupport : Entry → Bool
  | .row _ _ _ s => s ≠ 0
  | .num _ => false

/-- The number of labels with support (labeler_utils.py:179-183). -/
def positive (d : PyDict String Entry) : ℕ := (d.filter fun x => x.1 ∉ averages ∧ hasSupport x.2).length

/-- One adjusted average (labeler_utils.py:186-196). -/
def adjust (k pos : ℕ) (v : Option ℚ) : Option ℚ :=
  if pos = 0 then none else if k = 0 then some 0 else v.map fun x => x * ((k : ℚ) / (pos : ℚ))

def adjustEntry (k pos : ℕ) : Entry → Entry
  | .row p r f s => .row (adjust k pos p) (adjust k pos r) (adjust k pos f) s
  | e => e

/-- The listed labels (labeler_utils.py:110-121): numbers and names by rising numbers, without the omitted. -/
def listed (rev : PyDict ℕ String) (omitted : List String) : List (ℕ × String) :=
  (rev.insertionSort fun a b => a.1 ≤ b.1).filter fun x => x.2 ∉ omitted

/-- From the confusion matrix on (labeler_utils.py:171-203). -/
def finish (n : ℕ) (C : ℕ → ℕ → ℕ) (ls : List (ℕ × String)) : Except Err (PyDict String Entry) := do
  let d ← report n C (ls.map (·.1)) (ls.map (·.2))
  match PyDict.get? d "macro avg" with
  | some e => .ok (PyDict.set d "macro avg" (adjustEntry ls.length (positive d) e))
  | none => .error .keyError

/-- `evaluate_accuracy` with a non-empty label mapping (labeler_utils.py:80-210). -/
def evaluate (n : ℕ) (rev : PyDict ℕ String) (omitted : List String) (preds trues : List (List ℕ)) :
    Except Err (PyDict String Entry) :=
  match preds with
  | [] => .error .indexError
  | p :: _ => do
    let rows ← trues.mapM (padRow p.length)
    let C ← confusion n rows.flatten preds.flatten
    finish n C (listed rev omitted)

end Verif.ClassReport
