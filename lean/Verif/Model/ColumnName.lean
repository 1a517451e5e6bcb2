import Verif.Model.Basic
import Mathlib.Data.Rat.Defs

/-!
# Labelling by column names

`ColumnNameModel` (labelers/column_name_model.py:30-275). The similarity of rapidfuzz is a parameter, with the names lower-cased in
it; entries without the keys of the dictionaries, loading and saving are left out.
-/

namespace Verif.ColumnName

open Verif

variable {N L : Type}

/-- An entry of the dictionaries. -/
structure Entry (N L : Type) where
  attr : N
  label : L

/-- `np.max` of a row and its first position (column_name_model.py:202-205); empty rows raise. -/
def best : List ℚ → Except Err (ℚ × ℕ)
  | [] => .error .valueError
  | s :: l => .ok (l.zipIdx 1 |>.foldl (fun b x => if b.1 < x.1 then x else b) (s, 0))

/-- `_compare_negative` (column_name_model.py:150-169): keep names below the threshold. -/
def compareNegative (sim : N → N → ℚ) (fps : List N) (thr : ℚ) : List N → Except Err (List N)
  | [] => .ok []
  | n :: ns => do
    let b ← best (fps.map (sim n))
    let rest ← compareNegative sim fps thr ns
    .ok (if b.1 < thr then n :: rest else rest)

/-- The label of one name (column_name_model.py:257-268): without labels in the results, looking one up raises. -/
def positive (sim : N → N → ℚ) (tps : List (Entry N L)) (thr : ℚ) (withLabel : Bool) (n : N) : Except Err (Option (L × ℚ)) := do
  let b ← best (tps.map fun e => sim n e.attr)
  if thr < b.1 then
    if withLabel then
      match tps[b.2]? with
      | some e => .ok (some (e.label, b.1))
      | none => .error .indexError
    else .error .indexError
  else .ok none

/-- The names to label (column_name_model.py:233-241): no or empty false positives filter nothing. -/
def filtered (sim : N → N → ℚ) (fps : List N) (negThr : ℚ) (names : List N) : Except Err (List N) :=
  if fps.isEmpty then .ok names else compareNegative sim fps negThr names

/-- `predict` (column_name_model.py:210-275): labels, with confidences. -/
def predict (sim : N → N → ℚ) (fps : List N) (negThr : ℚ) (tps : List (Entry N L)) (posThr : ℚ) (withLabel : Bool) (names : List N) :
    Except Err (List (L × ℚ)) := do
  let kept ← filtered sim fps negThr names
  let out ← kept.mapM (positive sim tps posThr withLabel)
  .ok (out.filterMap id)

/-- The check of labels (column_name_model.py:80-92): the values of the first entry must not be strictly more than the labels. -/
def labelsOk [DecidableEq N] (labels : List N) : List (Entry N N) → Bool
  | [] => true
  | e :: _ => ¬ ((∀ l ∈ labels, l = e.attr ∨ l = e.label) ∧ (e.attr ∉ labels ∨ e.label ∉ labels))

end Verif.ColumnName
