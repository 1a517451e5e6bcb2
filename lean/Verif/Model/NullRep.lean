import Mathlib.Data.List.Range
import Mathlib.Data.Rat.Defs
import Verif.Model.Nulls

/-!
# Null replication metrics

Models `StructuredProfiler._update_null_replication_metrics` and `_merge_null_replication_metrics`
(dataprofiler/profilers/profile_builder.py:2589-2787) together with the part of `_update_base_stats` they read, the
stored null positions and `_index_shift` (profile_builder.py:430-476).

Simplifications
* every column looks at the same sampled rows (`min_true_samples` 0); a cell is `none` when it was recognised as null
  (see `Verif.Model.Nulls` for the recognition);
* `pd.to_numeric(errors="coerce")` is an arbitrary partial function `num` on texts; the sum reported by the selected
  data type of column `k`, or NaN, is an arbitrary function `total k` of all its non-null texts so far;
* numbers are rationals, NaN is `none`; batches have at least one row; a dictionary keyed by column number is a
  function into `Option`;
* values and exceptions are modelled one after the other: `run` computes the metrics, `checked` adds what raises. Which
  texts `pd.to_numeric` turns into integers, which columns are selected as dates or numbers are arbitrary functions;
  integers fit 64 bits. Arrays of different lengths are refused; that numpy stretches one with a single entry is not
  followed further (`notImplemented`).
-/

namespace Verif.NullRep

open Verif

/-- A sampled row: index label and cells by profile column. -/
structure Row where
  label : ℤ
  cells : List (Option String)
deriving DecidableEq

/-- The cell of column `k`. -/
def Row.cell (r : Row) (k : ℕ) : Option String := r.cells.getD k none

/-- The entry of the frame `data` at this row and column; a missing or non-numeric entry is skipped by `sum`
(profile_builder.py:2602, 2650). -/
def Row.value (num : String → Option ℚ) (r : Row) (k : ℕ) : ℚ := ((r.cell k).bind num).getD 0

/-- A batch: smallest and largest label of the data given (sampled or not), the sampled rows and, for each column of
the data in turn, the profile column it is mapped to. -/
structure Batch where
  lo : ℤ
  hi : ℤ
  rows : List Row
  order : List ℕ

/-- What a column profile holds (profile_builder.py:95-105). -/
structure Col where
  sampleSize : ℕ
  nullCount : ℕ
  index : List ℤ
  ids : Option (ℤ × ℤ)
  shift : Option ℤ
  seen : List String
deriving DecidableEq

/-- A fresh column profile. -/
def Col.new : Col := ⟨0, 0, [], none, none, []⟩

/-- `_update_base_stats` (profile_builder.py:430-476): counts, null positions, id range and shift. -/
def Col.add (c : Col) (sampleSize nullCount : ℕ) (nulls : List ℤ) (ids : Option (ℤ × ℤ)) (texts : List String) : Col :=
  if Nulls.overlap c.ids ids then
    ⟨c.sampleSize + sampleSize, c.nullCount + nullCount,
      c.index ++ nulls.map (· + Nulls.shiftOf c.ids ids),
      Nulls.mergeIds c.ids (ids.map fun r => (r.1 + Nulls.shiftOf c.ids ids, r.2 + Nulls.shiftOf c.ids ids)),
      some (Nulls.shiftOf c.ids ids), c.seen ++ texts⟩
  else ⟨c.sampleSize + sampleSize, c.nullCount + nullCount, c.index ++ nulls, Nulls.mergeIds c.ids ids, c.shift,
      c.seen ++ texts⟩

/-- Labels of the rows in which column `k` is null. -/
def Batch.nulls (b : Batch) (k : ℕ) : List ℤ := (b.rows.filter fun r => (r.cell k).isNone).map Row.label

/-- Non-null texts of column `k`. -/
def Batch.texts (b : Batch) (k : ℕ) : List String := b.rows.filterMap fun r => r.cell k

/-- A column profile after a batch. -/
def Col.update (c : Col) (b : Batch) (k : ℕ) : Col :=
  c.add b.rows.length (b.nulls k).length (b.nulls k) (some (b.lo, b.hi)) (b.texts k)

/-- The merge of two column profiles: a fresh one updated with both (profile_builder.py:215-245). -/
def Col.merge (a b : Col) : Col :=
  (Col.new.add a.sampleSize a.nullCount a.index a.ids a.seen).add b.sampleSize b.nullCount b.index b.ids b.seen

/-- An entry of `_null_replication_metrics` (profile_builder.py:2683-2687), class 0 first. -/
structure Metric where
  priorNot : ℚ
  priorNull : ℚ
  sumNot : List (Option ℚ)
  sumNull : List ℚ
  meanNot : List (Option ℚ)
  meanNull : List ℚ
deriving DecidableEq

/-- A table profile with `n` columns. -/
structure Prof where
  n : ℕ
  cols : ℕ → Col
  metrics : ℕ → Option Metric

/-- A fresh profile. -/
def Prof.new (n : ℕ) : Prof := ⟨n, fun _ => .new, fun _ => none⟩

/-- The null positions brought back to the labels of the batch (profile_builder.py:2637-2643). -/
def chunkNulls (c : Col) : List ℤ :=
  match c.shift with
  | none => c.index
  | some s => (c.index.map (· - s)).filter fun i => decide (0 ≤ i)

/-- A label is in `data.index` when some column kept a value there (`pd.DataFrame` of the cleaned columns,
profile_builder.py:2602). -/
def Batch.inData (b : Batch) (r : Row) : Bool := b.order.any fun k => (r.cell k).isSome

/-- `data.loc[data.index.intersection(null_indices), data.columns != col_id].sum()` (profile_builder.py:2648-2652); the
columns of `data` are in the order of the batch. -/
def batchNullSum (num : String → Option ℚ) (b : Batch) (idx : List ℤ) (c : ℕ) : List ℚ :=
  (b.order.filter (· ≠ c)).map fun k =>
    ((b.rows.filter fun r => b.inData r && decide (r.label ∈ idx)).map fun r => r.value num k).sum

/-- `np.delete(total_row_sum, col_id)` (profile_builder.py:2663). -/
def deleteAt (totals : List (Option ℚ)) (c : ℕ) : List (Option ℚ) := totals.eraseIdx c

/-- Priors, sums and means from the counts, totals and null sums (profile_builder.py:2627-2633, 2663-2687, identical at
2727-2733, 2762-2785). -/
def makeMetric (nullCount sampleSize : ℕ) (totals : List (Option ℚ)) (sumNull : List ℚ) : Metric :=
  let trueCount := sampleSize - nullCount
  let sumNot := List.zipWith (fun (t : Option ℚ) s => t.map (· - s)) totals sumNull
  { priorNot := trueCount / sampleSize
    priorNull := nullCount / sampleSize
    sumNot := if trueCount = 0 then totals.map fun _ => none else sumNot
    sumNull := sumNull
    meanNot := if trueCount = 0 then totals.map fun _ => none
      else sumNot.map fun (t : Option ℚ) => t.map (· / (trueCount : ℚ))
    meanNull := sumNull.map (· / (nullCount : ℚ)) }

/-- `sum_null += old_sum_null` (profile_builder.py:2655-2661, 2756-2761). -/
def addOld (old : Option Metric) (s : List ℚ) : List ℚ :=
  match old with
  | none => s
  | some m => List.zipWith (· + ·) s m.sumNull

/-- One column's entry after an update (profile_builder.py:2623-2687). -/
def updateMetric (num : String → Option ℚ) (total : ℕ → List String → Option ℚ) (n : ℕ) (cols : ℕ → Col)
    (old : ℕ → Option Metric) (b : Batch) (c : ℕ) : Option Metric :=
  if (cols c).nullCount = 0 then old c
  else some (makeMetric (cols c).nullCount (cols c).sampleSize
    (deleteAt ((List.range n).map fun k => total k (cols k).seen) c)
    (addOld (old c) (batchNullSum num b (chunkNulls (cols c)) c)))

/-- `update_profile`: the column profiles first, then the metrics (profile_builder.py:2789-3039). -/
def Prof.update (num : String → Option ℚ) (total : ℕ → List String → Option ℚ) (p : Prof) (b : Batch) : Prof :=
  let cols := fun k => (p.cols k).update b k
  ⟨p.n, cols, updateMetric num total p.n cols p.metrics b⟩

/-- Sum of two totals, NaN if one is (profile_builder.py:2722). -/
def addTotal (a b : Option ℚ) : Option ℚ := a.bind fun x => b.map fun y => x + y

/-- `sum_null` of a merge (profile_builder.py:2741-2761). -/
def mergeNullSum (n : ℕ) (a b : Option Metric) : List ℚ := addOld b (addOld a (List.replicate (n - 1) (0 : ℚ)))

/-- One column's entry of a merge (profile_builder.py:2724-2785): columns are paired by position. -/
def mergeMetric (total : ℕ → List String → Option ℚ) (p q : Prof) (c : ℕ) : Option Metric :=
  if c < p.n then
    let nullCount := (p.cols c).nullCount + (q.cols c).nullCount
    if nullCount = 0 then none
    else some (makeMetric nullCount ((p.cols c).sampleSize + (q.cols c).sampleSize)
      (deleteAt ((List.range p.n).map fun k => addTotal (total k (p.cols k).seen) (total k (q.cols k).seen)) c)
      (mergeNullSum p.n (p.metrics c) (q.metrics c)))
  else none

/-- `StructuredProfiler.__add__` (profile_builder.py:1771-1856): column profiles paired by the mapping `perm`, metrics by
position. -/
def Prof.merge (total : ℕ → List String → Option ℚ) (p q : Prof) (perm : ℕ → ℕ) : Prof :=
  ⟨p.n, fun k => (p.cols k).merge (q.cols (perm k)), mergeMetric total p q⟩

/-- Everything that can happen to a table profile. -/
inductive History where
  | new
  | update (h : History) (b : Batch)
  | merge (h1 h2 : History) (perm : ℕ → ℕ)

/-- The resulting profile of a table with `n` columns. -/
def run (num : String → Option ℚ) (total : ℕ → List String → Option ℚ) (n : ℕ) : History → Prof
  | .new => .new n
  | .update h b => (run num total n h).update num total b
  | .merge h1 h2 perm => (run num total n h1).merge total (run num total n h2) perm

/-! ## Exceptions -/

/-- What the texts of a table mean: the number read, the sum reported for a column, the texts read as integers, the columns
whose selected type is a date, and, when correlations are enabled, the columns whose selected type is a number. -/
structure World where
  num : String → Option ℚ
  total : ℕ → List String → Option ℚ
  whole : String → Bool
  dated : ℕ → List String → Bool
  correlate : Option (ℕ → List String → Bool)

/-- A profile, and for each entry of the metrics whether its null sums are kept as integers. -/
structure Safe where
  prof : Prof
  whole : ℕ → Bool

/-- The dtype of `sum_null` before the old sums are added (profile_builder.py:2602, 2648-2652). -/
inductive Kind where
  | ints | floats | objects
deriving DecidableEq

/-- Integers when every other column of the frame is read as integers: no row of the frame lacks a value and every text is an
integer. A frame without rows is left as it is; without other columns the sum is an empty array of floats. -/
def Batch.kind (whole : String → Bool) (b : Batch) (c : ℕ) : Kind :=
  if b.rows.filter b.inData = [] then .objects
  else if b.order.filter (· ≠ c) = [] then .floats
  else if (b.order.filter (· ≠ c)).all fun k => (b.rows.filter b.inData).all fun r => ((r.cell k).map whole).getD false
    then .ints
  else .floats

/-- `_get_correlation` has removed the columns that are not numbers from the cleaned data (profile_builder.py:2318-2328). -/
def Batch.without (w : World) (b : Batch) (cols : ℕ → Col) : Batch :=
  match w.correlate with
  | none => b
  | some f => { b with order := b.order.filter fun k => f k (cols k).seen }

/-- The exception raised for one column, if any: floats added in place to integers (profile_builder.py:2662), or arrays of
different lengths (profile_builder.py:2662-2664). -/
def raised (w : World) (n : ℕ) (s : Safe) (cols : ℕ → Col) (b : Batch) (c : ℕ) : Option Err :=
  if (cols c).nullCount = 0 then none
  else if b.kind w.whole c = .ints ∧ (s.prof.metrics c).isSome = true ∧ s.whole c = false then some .typeError
  else if (b.order.filter (· ≠ c)).length = n - 1 then none
  else if (b.order.filter (· ≠ c)).length = 1 ∨ n - 1 = 1 then some .notImplemented
  else some .valueError

/-- How the sums of column `c` are kept afterwards. -/
def wholeAfter (w : World) (s : Safe) (cols : ℕ → Col) (b : Batch) (c : ℕ) : Bool :=
  if (cols c).nullCount = 0 then s.whole c
  else match b.kind w.whole c with
    | .ints => true
    | .floats => false
    | .objects => if (s.prof.metrics c).isSome then s.whole c else true

/-- `update_profile` with its exceptions (profile_builder.py:2589-2687). -/
def Safe.update (w : World) (n : ℕ) (s : Safe) (b : Batch) : Except Err Safe :=
  let cols := fun k => (s.prof.cols k).update b k
  let b' := b.without w cols
  match (List.range n).filterMap (raised w n s cols b') with
  | e :: _ => .error e
  | [] => .ok ⟨⟨s.prof.n, cols, updateMetric w.num w.total s.prof.n cols s.prof.metrics b'⟩, wholeAfter w s cols b'⟩

/-- `__add__` with its exceptions: a column of dates has no `sum` (profile_builder.py:2703-2721). The merged sums are floats
(profile_builder.py:2752). -/
def Safe.merge (w : World) (n : ℕ) (s t : Safe) (perm : ℕ → ℕ) : Except Err Safe :=
  if (List.range n).any fun k => w.dated k (s.prof.cols k).seen || w.dated k (t.prof.cols k).seen then .error .attributeError
  else .ok ⟨s.prof.merge w.total t.prof perm, fun _ => false⟩

/-- A history with its exceptions. -/
def checked (w : World) (n : ℕ) : History → Except Err Safe
  | .new => .ok ⟨.new n, fun _ => true⟩
  | .update h b => do
    let s ← checked w n h
    s.update w n b
  | .merge h1 h2 perm => do
    let s ← checked w n h1
    let t ← checked w n h2
    s.merge w n t perm

end Verif.NullRep
