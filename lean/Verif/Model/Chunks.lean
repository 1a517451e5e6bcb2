import Mathlib.Data.Nat.Notation
import Verif.Model.Basic

/-!
# Cutting sequences into pieces

Models the chunking helpers of `dataprofiler/profilers/profiler_utils.py` and
`dataprofiler/data_readers/`.
-/

namespace Verif.Chunks

open Verif

variable {α : Type}

/-- `data[i : j]` for non-negative `i`, `j` (Python slicing: out-of-range parts are dropped). -/
def slice (data : List α) (i j : ℕ) : List α := (data.drop i).take (j - i)

/-- `range(0, stop, step)` for `step > 0`; `range` raises `ValueError` for step 0. -/
def rangeStep (stop step : ℕ) : Except Err (List ℕ) :=
  if step = 0 then .error .valueError
  else .ok ((List.range ((stop + step - 1) / step)).map (· * step))

/-- `partition` (profiler_utils.py:167-177), the generator as the list of what it yields. -/
def partition (data : List α) (chunkSize : ℕ) : Except Err (List (List α)) := do
  let idxs ← rangeStep data.length chunkSize
  .ok (idxs.map fun idx => slice data idx (idx + chunkSize))

/-- `chunk` (profiler_utils.py:790-802): `iter(lambda: tuple(islice(it, size)), ())` keeps taking
`size` elements from a shared iterator until it gets an empty tuple. -/
def chunk (lst : List α) (size : ℕ) : List (List α) :=
  if _h : lst.take size = [] then []
  else lst.take size :: chunk (lst.drop size) size
termination_by lst.length
decreasing_by
  simp only [List.length_drop]
  have h1 : lst ≠ [] := by rintro rfl; simp at _h
  have h2 : size ≠ 0 := by rintro rfl; simp at _h
  have := List.length_pos_iff.2 h1
  omega

/-- `TextData._get_data_as_text` on a string (text_data.py:86-101, after the type dispatch);
`samplesPerLine` is the `samples_per_line` option. Python `//` on naturals is `/`; a zero divisor
raises `ZeroDivisionError`. -/
def textBlocks (data : List α) (samplesPerLine : ℕ) : Except Err (List (List α)) :=
  let c := min (max data.length 1) samplesPerLine
  if c = 0 then .error .zeroDivision
  else .ok ((List.range ((data.length + c - 1) / c)).map fun i => slice data (i * c) ((i + 1) * c))

/-- `SpreadSheetDataMixin._get_data_as_records` before joining each group with newlines
(structured_mixins.py:72-83); `dflt` is `SAMPLES_PER_LINE_DEFAULT`. -/
def recordGroups (data : List α) (dflt : ℕ) : Except Err (List (List α)) :=
  let c := min data.length dflt
  if c = 0 then .error .zeroDivision
  else .ok ((List.range ((data.length + c - 1) / c)).map fun i => slice data (i * c) ((i + 1) * c))

/-- `zip(*[iter(data)] * c)`: `c` copies of one iterator, so consecutive groups of exactly `c`
elements; an incomplete last group is dropped. `zip()` of nothing (`c = 0`) is empty. -/
def zipGroups (data : List α) (c : ℕ) : List (List α) :=
  if _h : c = 0 ∨ data.length < c then []
  else data.take c :: zipGroups (data.drop c) c
termination_by data.length
decreasing_by
  simp only [List.length_drop]
  omega

/-- `JSONData._get_data_as_json` on the serialised text (json_data.py:300-311); `dflt` is
`SAMPLES_PER_LINE_DEFAULT`. -/
def jsonBlocks (data : List α) (dflt : ℕ) : List (List α) :=
  zipGroups data (min data.length dflt)

/-- Indexing every element, `IndexError` when out of range. -/
def gather (data : List α) (idx : List ℕ) : Except Err (List α) :=
  idx.mapM fun k => match data[k]? with
    | some x => .ok x
    | none => .error .indexError

/-- `BaseData.get_batch_generator` (base_data.py:152-162). `indices` is what
`np.random.permutation(data_length)` returned. The generator is run to exhaustion. -/
def batches (data : List α) (indices : List ℕ) (batchSize : ℕ) : Except Err (List (List α)) := do
  let starts ← rangeStep data.length batchSize
  starts.mapM fun i => gather data (slice indices i (i + batchSize))

end Verif.Chunks
