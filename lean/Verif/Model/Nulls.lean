import Mathlib.Data.List.Sort
import Mathlib.Data.Int.Order.Basic
import Mathlib.Data.Rat.Defs
import Verif.Model.Basic
import Verif.Model.PyDict
import Verif.Model.Shuffle
import Verif.Model.Chunks

/-!
# Null detection and base statistics of a column

Models `StructuredColProfiler.clean_data_and_get_base_stats`, `_update_base_stats`, the base statistics part of
`update_profile` and `__add__` (dataprofiler/profilers/profile_builder.py:193-254, 430-517, 536-676) and
`overlap` (dataprofiler/profilers/profiler_utils.py:284-288).

Simplifications
* a series is a list of (index label, text); labels are integers; `df_series.apply(str)` happened already;
* the regular expression match of a cell (profile_builder.py:611-620) is an arbitrary predicate on texts;
* a Python `set` is a list without duplicates; its iteration order is an arbitrary function `setOrder`;
* the five values kept for display (`sample`), `_last_batch_size`, names and warnings are left out.
-/

namespace Verif.Nulls

open Verif

/-- A cell: index label and text. -/
abbrev Cell := ℤ × String

/-- `set.add`. -/
def addSet (s : List ℤ) (x : ℤ) : List ℤ := if x ∈ s then s else s ++ [x]

/-- `set.update`. -/
def unionSet (s xs : List ℤ) : List ℤ := xs.foldl addSet s

/-- `na_columns.setdefault(cell, list()).append(index)` (profile_builder.py:626). -/
def addNull (d : PyDict String (List ℤ)) (c : Cell) : PyDict String (List ℤ) :=
  PyDict.set d c.2 (PyDict.getD d c.2 [] ++ [c.1])

/-- State of the sampling loop (profile_builder.py:607-609). -/
structure Acc where
  na : PyDict String (List ℤ)
  trues : List ℤ
  total : ℕ

/-- One round of the sampling loop (profile_builder.py:613-626). -/
def step (isNull : String → Bool) (a : Acc) (chunk : List Cell) : Acc :=
  ⟨(chunk.filter fun c => isNull c.2).foldl addNull a.na,
   unionSet a.trues ((chunk.filter fun c => !isNull c.2).map Prod.fst),
   a.total + chunk.length⟩

/-- `df_series.iloc[chunked_sample_ids]` (profile_builder.py:616). -/
def iloc (col : List Cell) (ps : List ℕ) : Except Err (List Cell) :=
  ps.mapM fun p => match col[p]? with
    | some c => .ok c
    | none => .error .indexError

/-- The sampling loop with its early exit (profile_builder.py:612-634). -/
def loop (isNull : String → Bool) (col : List Cell) (sampleSize minTrue : ℕ) : Acc → List (List ℕ) → Except Err Acc
  | a, [] => .ok a
  | a, ps :: rest =>
    match iloc col ps with
    | .error e => .error e
    | .ok chunk =>
      if minTrue ≤ (step isNull a chunk).trues.length ∧ sampleSize ≤ (step isNull a chunk).total then
        .ok (step isNull a chunk)
      else loop isNull col sampleSize minTrue (step isNull a chunk) rest

/-- `df_series.loc[true_sample_list]` (profile_builder.py:648): every row carrying each label in turn. -/
def loc (col : List Cell) (labels : List ℤ) : List String :=
  labels.flatMap fun l => (col.filter fun c => c.1 = l).map Prod.snd

/-- The dictionary of base statistics (profile_builder.py:653-664), without `sample` and `null_ratio`. -/
structure Base where
  sampleSize : ℕ
  nullCount : ℕ
  nullTypes : PyDict String (List ℤ)
  ids : Option (ℤ × ℤ)

/-- `min(df_series.index)`, `max(df_series.index)` of a non-empty column (profile_builder.py:580-583). -/
def idRange (col : List Cell) : Option (ℤ × ℤ) :=
  match col with
  | [] => none
  | c :: cs => some (cs.foldl (fun m d => min m d.1) c.1, cs.foldl (fun m d => max m d.1) c.1)

/-- `clean_data_and_get_base_stats` (profile_builder.py:536-676).  `chunks` is what the index generator yields;
`given` tells whether `sample_ids` was passed. -/
def clean (isNull : String → Bool) (setOrder : List ℤ → List ℤ) (col : List Cell) (sampleSize minTrue : ℕ)
    (given : Bool) (chunks : List (List ℕ)) : Except Err (List String × Base) :=
  if col = [] then .ok ([], ⟨0, 0, [], none⟩)
  else match loop isNull col sampleSize minTrue ⟨[], [], 0⟩ chunks with
    | .error e => .error e
    | .ok a =>
      let labels := if 0 < minTrue ∨ given = false then a.trues.insertionSort (· ≤ ·) else setOrder a.trues
      if a.total = 0 then .error .zeroDivision
      else .ok (loc col labels, ⟨a.total, a.total - labels.length, a.na, idRange col⟩)

/-- `overlap` (profiler_utils.py:284-288). -/
def overlap (x y : Option (ℤ × ℤ)) : Bool :=
  match x, y with
  | some (x1, x2), some (y1, y2) =>
    decide ((y1 ≤ x1 ∧ x1 ≤ y2) ∨ (y1 ≤ x2 ∧ x2 ≤ y2) ∨ (x1 ≤ y1 ∧ y1 ≤ x2) ∨ (x1 ≤ y2 ∧ y2 ≤ x2))
  | _, _ => false

/-- The base statistics kept by a column profile (profile_builder.py:95-105). -/
structure ColState where
  sampleSize : ℕ
  nullCount : ℕ
  nullRatio : Option ℚ
  nullTypes : List String
  index : PyDict String (List ℤ)
  ids : Option (ℤ × ℤ)

/-- A fresh column profile. -/
def ColState.new : ColState := ⟨0, 0, none, [], [], none⟩

/-- `_combine_unique_sets` (base_column_profilers.py:48-65), as a list without duplicates. -/
def combineUnique (a b : List String) : List String := (a ++ b).dedup

/-- `self._max_id + 1` when the id ranges overlap, otherwise no shift (profile_builder.py:446-457). -/
def shiftOf (mine theirs : Option (ℤ × ℤ)) : ℤ :=
  match mine with
  | some (_, hi) => if overlap mine theirs then hi + 1 else 0
  | none => 0

/-- New minimal and maximal id (profile_builder.py:464-472). -/
def mergeIds (mine theirs : Option (ℤ × ℤ)) : Option (ℤ × ℤ) :=
  match mine, theirs with
  | none, t => t
  | some m, none => some m
  | some (a, b), some (c, d) => some (min a c, max b d)

/-- `self.null_types_index.setdefault(null_type, set()).update(null_rows)` (profile_builder.py:475-478). -/
def addRows (d : PyDict String (List ℤ)) (kv : String × List ℤ) : PyDict String (List ℤ) :=
  PyDict.set d kv.1 (unionSet (PyDict.getD d kv.1 []) kv.2)

/-- `_update_base_stats` (profile_builder.py:430-478). -/
def updateBase (s : ColState) (b : Base) : Except Err ColState :=
  if b.sampleSize = 0 then .error .zeroDivision
  else
    let sh := shiftOf s.ids b.ids
    .ok ⟨s.sampleSize + b.sampleSize, s.nullCount + b.nullCount, some ((b.nullCount : ℚ) / b.sampleSize),
      combineUnique s.nullTypes (PyDict.keys b.nullTypes),
      (b.nullTypes.map fun kv => (kv.1, kv.2.map (· + sh))).foldl addRows s.index,
      mergeIds s.ids (b.ids.map fun r => (r.1 + sh, r.2 + sh))⟩

/-- The statistics handed over when merging (profile_builder.py:226-245). -/
def ColState.asBase (s : ColState) : Base := ⟨s.sampleSize, s.nullCount, s.index, s.ids⟩

/-- The base statistics of `__add__` (profile_builder.py:215-245). -/
def mergeState (a b : ColState) : Except Err ColState :=
  match updateBase .new a.asBase with
  | .error e => .error e
  | .ok m => updateBase m b.asBase

/-- One call of `clean_data_and_get_base_stats`: its arguments. -/
structure Batch where
  col : List Cell
  sampleSize : ℕ
  minTrue : ℕ
  given : Bool
  chunks : List (List ℕ)

/-- Base statistics of one batch. -/
def batchBase (isNull : String → Bool) (setOrder : List ℤ → List ℤ) (b : Batch) : Except Err Base :=
  match clean isNull setOrder b.col b.sampleSize b.minTrue b.given b.chunks with
  | .error e => .error e
  | .ok r => .ok r.2

/-- Everything that can happen to the base statistics of a column. -/
inductive History where
  | new
  | update (h : History) (b : Batch)
  | merge (h1 h2 : History)

/-- The resulting statistics. -/
def run (isNull : String → Bool) (setOrder : List ℤ → List ℤ) : History → Except Err ColState
  | .new => .ok .new
  | .update h b => do
    let s ← run isNull setOrder h
    let base ← batchBase isNull setOrder b
    updateBase s base
  | .merge h1 h2 => do
    let a ← run isNull setOrder h1
    let b ← run isNull setOrder h2
    mergeState a b

/-- The chunks of a column profiled on its own (profile_builder.py:597-600). -/
def ownChunks (n sampleSize : ℕ) (draws : ℕ → ℕ) : List (List ℕ) := Shuffle.shuffleInChunks n sampleSize draws

/-- The shared index list of a table profile: one shuffle of all rows, cut to the sample size and sorted when there is
no minimum of true samples (profile_builder.py:2835-2843). -/
def sharedIds (n sampleSize minTrue : ℕ) (draws : ℕ → ℕ) : List ℕ :=
  let ids := (Shuffle.shuffleInChunks n n draws).headD []
  if minTrue = 0 then (ids.take sampleSize).insertionSort (· ≤ ·) else ids

/-- The chunks of a column profiled as part of a table (profile_builder.py:601-604). -/
def tableChunks (n sampleSize minTrue : ℕ) (draws : ℕ → ℕ) : Except Err (List (List ℕ)) :=
  Chunks.partition (sharedIds n sampleSize minTrue draws) sampleSize

end Verif.Nulls
