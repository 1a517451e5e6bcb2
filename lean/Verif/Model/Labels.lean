import Mathlib.Data.Rat.Floor
import Verif.Model.Counter
import Verif.Model.Basic

/-!
# Data labels of a column

Models `DataLabelerColumn` (dataprofiler/profilers/data_labeler_column_profile.py:52-75, 131-194, 212-300, 394-480).

Simplifications
* the labeler is a list of labels and its predictions: one row of confidences per sampled value, the reserved zero label
  already removed (418-421, 428-430); labels are texts without repetition, in the order of their indices;
* `np.argpartition` for one vote per value is an arbitrary `pick` (one vote is the constant of the class, 62);
* the order in which Python lists a set is an arbitrary rearrangement `order`;
* floats are exact; both operands of a merge use the same labeler.
-/

namespace Verif.Labels

open Verif

/-- The part of a profile that changes. -/
structure Col where
  sampleSize : ℕ
  ranks : Option (PyDict String ℕ)
  sums : Option (List ℚ)
deriving DecidableEq

/-- A new profile (data_labeler_column_profile.py:55-58). -/
def new : Col := ⟨0, none, none⟩

/-- `rank_distribution` (data_labeler_column_profile.py:218-223). -/
def Col.rankDist (labels : List String) (c : Col) : PyDict String ℕ :=
  match c.ranks with
  | some r => r
  | none => labels.map fun l => (l, 0)

/-- `sum_predictions` (data_labeler_column_profile.py:225-233). -/
def Col.sumPreds (labels : List String) (c : Col) : List ℚ :=
  match c.sums with
  | some s => s
  | none => labels.map fun _ => 0

/-- The vote of one row (data_labeler_column_profile.py:428-437): for the most likely label if above 0.20. -/
def vote (labels : List String) (pick : List ℚ → ℕ) (ranks : PyDict String ℕ) (row : List ℚ) : PyDict String ℕ :=
  match labels[pick row]?, row[pick row]? with
  | some l, some p => if 1 / 5 < p then Counter.bump ranks l 1 else ranks
  | _, _ => ranks

/-- Entrywise sum of rows (`np.sum(axis=0)` and `+=`, data_labeler_column_profile.py:420-421). -/
def addRow (s row : List ℚ) : List ℚ := List.zipWith (· + ·) s row

/-- `update` with `_update_predictions` (data_labeler_column_profile.py:394-480). -/
def update (labels : List String) (pick : List ℚ → ℕ) (c : Col) (rows : List (List ℚ)) : Col :=
  if rows = [] then c
  else
    { sampleSize := c.sampleSize + rows.length
      ranks := some (rows.foldl (vote labels pick) (c.rankDist labels))
      sums := some (rows.foldl addRow (c.sumPreds labels)) }

/-- `__add__` (data_labeler_column_profile.py:180-194): the stored dictionaries are read, not the properties; `set(None)`
raises TypeError. -/
def merge (order : List String → List String) (a b : Col) : Except Err Col :=
  if a.sampleSize = 0 ∧ b.sampleSize = 0 then .ok ⟨0, none, none⟩
  else
    match a.ranks, b.ranks with
    | some r, some t =>
      match a.sums, b.sums with
      | some x, some y =>
        .ok
          { sampleSize := a.sampleSize + b.sampleSize
            ranks := some ((order (PyDict.keys (Counter.addCounts r t))).map fun k =>
              (k, PyDict.getD r k 0 + PyDict.getD t k 0))
            sums := some (addRow x y) }
      | _, _ => .error .typeError
    | _, _ => .error .typeError

/-- `label_representation` (data_labeler_column_profile.py:281-297). -/
def representation (labels : List String) (c : Col) : Option (PyDict String ℚ) :=
  if c.sampleSize = 0 then none
  else some (labels.map fun l =>
    (l, ((PyDict.getD (c.rankDist labels) l 0 : ℕ) : ℚ) / (max 1 (PyDict.values (c.rankDist labels)).sum : ℕ)))

/-- `avg_predictions` (data_labeler_column_profile.py:272-279). -/
def average (labels : List String) (c : Col) : Option (PyDict String ℚ) :=
  if c.sampleSize = 0 then none
  else some (List.zip labels ((c.sumPreds labels).map (· / (c.sampleSize : ℚ))))

/-- The answer of `data_label`. -/
inductive Answer where
  | undetermined
  | labels (ls : List String)
deriving DecidableEq

/-- `data_label` (data_labeler_column_profile.py:240-270), the labels before they are joined; the share of the top label is
compared with 0.35, the others must be within 0.20 of it, among the first three. -/
def dataLabel (labels : List String) (c : Col) : Option Answer :=
  if c.sampleSize = 0 then none
  else
    let dist := c.rankDist labels
    let total := (PyDict.values dist).sum
    match (Counter.sortDesc dist).take 3 with
    | [] => none
    | top :: rest =>
      if (top.2 : ℚ) / (max 1 total : ℕ) < 35 / 100 then some .undetermined
      else some (.labels (((top :: rest).filter fun x =>
        decide (-(1 / 5 : ℚ) ≤ (x.2 : ℚ) / total - (top.2 : ℚ) / total)).map (·.1)))

/-- Everything that can happen to a label profile. -/
inductive History where
  | new
  | update (h : History) (rows : List (List ℚ))
  | merge (h1 h2 : History)

/-- The resulting profile. -/
def run (order : List String → List String) (labels : List String) (pick : List ℚ → ℕ) : History → Except Err Col
  | .new => .ok new
  | .update h rows => do
    let c ← run order labels pick h
    pure (update labels pick c rows)
  | .merge h1 h2 => do
    let a ← run order labels pick h1
    let b ← run order labels pick h2
    merge order a b

end Verif.Labels
