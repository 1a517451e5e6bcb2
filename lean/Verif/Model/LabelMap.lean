import Verif.Model.Basic
import Verif.Model.PyDict
import Mathlib.Data.List.Sort
import Mathlib.Data.Nat.Notation
import Mathlib.Order.Nat
import Mathlib.Algebra.Order.Field.Rat
import Mathlib.Data.Rat.Defs

/-!
# The labels of a data labeler

Model of the label mapping of `BaseModel` (dataprofiler/labelers/base_model.py:88-141, 197-252), of `CharacterLevelCnnModel.
set_label_mapping` (dataprofiler/labelers/character_level_cnn_model.py:346-375), and of the labels of a column profile
(dataprofiler/profilers/data_labeler_column_profile.py:196-233, 271-279).  Label numbers are natural.
-/

namespace Verif.LabelMap

open Verif

variable {K : Type} [DecidableEq K]

/-- What labels are given as. -/
inductive Given (K : Type)
  | list (l : List K)
  | dict (d : PyDict K ℕ)
  | other

/-- `dict(zip(labels, range(start, start + len(labels))))` (base_model.py:133-134). -/
def ofList (start : ℕ) (labels : List K) : PyDict K ℕ := (labels.zipIdx start).foldl (fun d x => PyDict.set d x.1 x.2) []

/-- `_convert_labels_to_label_mapping` and `set_label_mapping` (base_model.py:116-134, 233-252). -/
def setMapping (zero : Bool) : Given K → Except Err (PyDict K ℕ)
  | .other => .error .typeError
  | .list [] => .error .typeError
  | .dict [] => .error .typeError
  | .list l => .ok (ofList (if zero then 0 else 1) l)
  | .dict d => .ok d

/-- `reverse_label_mapping` (base_model.py:93-100). -/
def reverseMap (m : PyDict K ℕ) : PyDict ℕ K := m.foldl (fun d x => PyDict.set d x.2 x.1) []

/-- Values of a dictionary sorted by its keys. -/
def sortedValues (d : PyDict ℕ K) : List K := (d.insertionSort fun a b => a.1 ≤ b.1).map (·.2)

/-- `labels` (base_model.py:102-114). -/
def labels (m : PyDict K ℕ) : List K := sortedValues (reverseMap m)

/-- `num_labels` (base_model.py:136-139). -/
def numLabels (m : PyDict K ℕ) : ℕ := (m.map (·.2)).foldl max 0 + 1

/-- `add_label` (base_model.py:197-231); `none` for a label is what is no text or empty.  The mapping after the call, and whether
it raised. -/
def addLabel (m : PyDict K ℕ) (label sameAs : Option K) : PyDict K ℕ × Except Err Unit :=
  match label with
  | none => (m, .error .typeError)
  | some l =>
    if PyDict.has m l then (m, .ok ())
    else match sameAs with
      | none => (PyDict.set m l (numLabels m), .ok ())
      | some s => match PyDict.get? m s with
        | some id => (PyDict.set m l id, .ok ())
        | none => (m, .error .valueError)

/-- `set_label_mapping` of the network (character_level_cnn_model.py:346-375). -/
def cnnSet (pad dflt : K) : Given K → Except Err (PyDict K ℕ)
  | .other => .error .typeError
  | .list l =>
    let l := if pad ∈ l then l else pad :: l
    if dflt ∈ l then setMapping true (.list l) else .error .valueError
  | .dict d =>
    let d := if PyDict.has d pad then d else if 0 ∈ PyDict.values d then d else PyDict.set d pad 0
    if PyDict.get? d pad ≠ some 0 then .error .valueError
    else if PyDict.has d dflt then setMapping true (.dict d) else .error .valueError

/-- `possible_data_labels` of a column (data_labeler_column_profile.py:196-217). -/
def possible (zero : Bool) (m : PyDict K ℕ) : List K :=
  sortedValues (if zero then PyDict.del (reverseMap m) 0 else reverseMap m)

/-- `avg_predictions` (data_labeler_column_profile.py:271-279) from the sums, one for every label number, without the first if
that is padding; `PyDict` of the zipped lists. -/
def average (zero : Bool) (m : PyDict K ℕ) (sums : List ℚ) (n : ℕ) : PyDict K ℚ :=
  ((possible zero m).zip (sums.map fun s => s / (n : ℚ))).foldl (fun d x => PyDict.set d x.1 x.2) []

end Verif.LabelMap
