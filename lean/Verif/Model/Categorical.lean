import Mathlib.Algebra.Order.Field.Rat
import Mathlib.Algebra.BigOperators.Group.List.Basic
import Mathlib.Data.List.Sort
import Verif.Model.Basic
import Verif.Model.PyDict

/-!
# Categorical columns

Models `dataprofiler/profilers/categorical_column_profile.py` (`CategoricalColumn`).

Simplifications
* values are elements of any type `K` with decidable equality (the code uses strings);
* floats are exact rationals;
* `Series.value_counts` is modelled by its counts; the order of its entries (which pandas sorts) is the order
  of first appearance, nothing claimed depends on it;
* `col_index`, `name`, `times` and `metadata` are not part of the state (name clashes are modelled in
  `Verif.Model.Calculations`), the calculations dictionary of this class is always empty (line 50);
* the count-min sketch mode is modelled separately (`Sketch` section).
-/

namespace Verif.Categorical

open Verif

variable {K : Type} [DecidableEq K]

/-- The sum of a value and the value the other dictionary may have (profiler_utils.py:303-314). -/
def plusOpt (v : ℕ) : Option ℕ → ℕ
  | some w => v + w
  | none => v

/-- `add_nested_dictionaries` on dictionaries of numbers (profiler_utils.py:291-320). -/
def addFlat (d1 d2 : PyDict K ℕ) : PyDict K ℕ :=
  (d1.map fun kv => (kv.1, plusOpt kv.2 (PyDict.get? d2 kv.1))) ++ d2.filter fun kv => !PyDict.has d1 kv.1

/-- `df_series.value_counts(dropna=False).to_dict()` (categorical_column_profile.py:597-606). -/
def valueCounts (vs : List K) : PyDict K ℕ := vs.dedup.map fun k => (k, vs.count k)

/-- The stop options (categorical_column_profile.py:54-55, 66-72). -/
structure StopOpts where
  maxSample : Option ℕ
  ratio : Option ℚ
  deriving DecidableEq, Repr

/-- State of a `CategoricalColumn` without sketch (categorical_column_profile.py:36-87). -/
structure Cat (K : Type) where
  cats : PyDict K ℕ
  sampleSize : ℕ
  opts : StopOpts
  topK : Option ℕ
  stopped : Bool
  stoppedRatio : Option ℚ
  stoppedCount : Option ℕ
  deriving DecidableEq

/-- `__init__` (categorical_column_profile.py:36-87); without options everything is `None`. -/
def init (opts : StopOpts) (topK : Option ℕ) : Cat K := ⟨[], 0, opts, topK, false, none, none⟩

/-- `unique_ratio` (categorical_column_profile.py:405-412). After a stop the stored value is returned (`None`
is cast, never happens). -/
def uniqueRatio (c : Cat K) : ℚ :=
  if c.stopped then c.stoppedRatio.getD 0
  else if c.sampleSize ≠ 0 then (PyDict.keys c.cats).length / c.sampleSize else 0

/-- `unique_count` (categorical_column_profile.py:415-420). -/
def uniqueCount (c : Cat K) : ℕ :=
  if c.stopped then c.stoppedCount.getD 0 else (PyDict.keys c.cats).length

/-- `_check_stop_condition_is_met` (categorical_column_profile.py:458-475). -/
def checkStop (o : StopOpts) (size : ℕ) (ratio : ℚ) : Bool :=
  match o.maxSample, o.ratio with
  | some m, some r => decide (m ≤ size) && decide (r ≤ ratio)
  | _, _ => false

/-- `_update_categories` with `_update_stop_condition` (categorical_column_profile.py:477-493, 644-658), on a
non-empty batch. -/
def updateCategories (c : Cat K) (batch : List K) : Cat K :=
  let cats := addFlat c.cats (valueCounts batch)
  let count := cats.length
  let size := c.sampleSize + batch.length
  let ratio : ℚ := count / size
  if checkStop c.opts size ratio then
    { c with cats := [], stopped := true, stoppedRatio := some ratio, stoppedCount := some count }
  else { c with cats := cats, stopped := false }

/-- `update` (categorical_column_profile.py:672-697). -/
def update (c : Cat K) (batch : List K) : Cat K :=
  if batch.length = 0 || c.stopped then c
  else
    let c' := updateCategories c batch
    { c' with sampleSize := c'.sampleSize + batch.length }

/-- The stop options a merge of two unstopped profiles inherits
(categorical_column_profile.py:145-160). -/
def mergedOpts (a b : Cat K) : StopOpts :=
  if (a.sampleSize : ℚ) * uniqueRatio a < (b.sampleSize : ℚ) * uniqueRatio b then a.opts else b.opts

/-- `__add__` of two profiles without sketch (categorical_column_profile.py:89-194); `_top_k_categories` is
not copied. -/
def merge (a b : Cat K) : Cat K :=
  if !(a.stopped || b.stopped) then
    let m : Cat K := ⟨addFlat a.cats b.cats, a.sampleSize + b.sampleSize, mergedOpts a b, none, false, none, none⟩
    if checkStop m.opts m.sampleSize (uniqueRatio m) then
      { m with stoppedRatio := some (uniqueRatio m), stoppedCount := some (uniqueCount m), cats := [],
               stopped := true }
    else m
  else
    let big := if b.sampleSize < a.sampleSize then a else b
    ⟨[], big.sampleSize, ⟨none, none⟩, none, true, some (uniqueRatio big), some (uniqueCount big)⟩

/-- `gini_impurity` (categorical_column_profile.py:197-217). -/
def gini (c : Cat K) : Option ℚ :=
  if c.sampleSize = 0 then none
  else some ((c.cats.map fun kv => (kv.2 : ℚ) / c.sampleSize * (1 - (kv.2 : ℚ) / c.sampleSize)).sum)

/-- `unalikeability` (categorical_column_profile.py:220-243). -/
def unalikeability (c : Cat K) : Option ℚ :=
  if c.sampleSize = 0 then none
  else if c.sampleSize = 1 then some 0
  else some ((c.cats.map fun kv => ((c.sampleSize : ℚ) - kv.2) * kv.2).sum /
    ((c.sampleSize : ℚ) ^ 2 - c.sampleSize))

/-- `is_match` (categorical_column_profile.py:423-437), with the class constants 10 and 0.2. -/
def isMatch (c : Cat K) : Bool :=
  if c.stopped then false
  else if c.cats.length ≤ 10 then true
  else decide (c.sampleSize ≠ 0) && decide (uniqueRatio c ≤ 1 / 5)

/-- `sorted(items, key=itemgetter(1), reverse=True)`: stable, larger counts first. -/
def sortedDesc (d : PyDict K ℕ) : PyDict K ℕ := d.insertionSort fun a b => b.2 ≤ a.2

/-- `l[:k]` with `None` or a non-negative `k`. -/
def sliceTo {α : Type} (l : List α) : Option ℕ → List α
  | none => l
  | some k => l.take k

/-- `categorical_count` of `profile` (categorical_column_profile.py:388-392). -/
def reportedCounts (c : Cat K) : PyDict K ℕ := sliceTo (sortedDesc c.cats) c.topK

/-! ## Histories -/

/-- Everything that can happen to a categorical column. -/
inductive History (K : Type) where
  | new (opts : StopOpts) (topK : Option ℕ)
  | update (h : History K) (batch : List K)
  | merge (h1 h2 : History K)

/-- The resulting profile. -/
def run : History K → Cat K
  | .new o k => init o k
  | .update h b => update (run h) b
  | .merge h1 h2 => merge (run h1) (run h2)

/-! ## Count-min sketch mode

A sketch is represented by the values inserted into it (the multiset is all it depends on); its estimate
function `est` is an argument. `datasketches.count_min_sketch` guarantees that an estimate is never below the
true count; the theorems assume only that. -/

section Sketch

variable (est : List K → K → ℕ)

/-- State of a `CategoricalColumn` with sketch; `params` are `cms_num_hashes`, `cms_num_buckets`, `dims` are those of the
sketch itself. -/
structure CmsCat (K : Type) where
  inserted : List K
  cats : PyDict K ℕ
  sampleSize : ℕ
  maxHeavy : ℕ
  params : Option (ℕ × ℕ)
  dims : ℕ × ℕ

/-- The two dictionaries of `_get_categories_cms`. -/
structure Hitters (K : Type) where
  heavy : PyDict K ℕ
  missing : PyDict K ℕ

/-- One iteration of the loop (categorical_column_profile.py:509-520): `seen` are the values already inserted
in the batch sketch, including this one. `int(a / b)` is `Nat` division. -/
def hitStep (c : CmsCat K) (len : ℕ) (seen : List K) (v : K) (h : Hitters K) : Hitters K :=
  let i := est seen v
  let total := i + est c.inserted v
  if len / c.maxHeavy ≤ i then ⟨PyDict.set h.heavy v i, PyDict.del h.missing v⟩
  else if (c.sampleSize + len) / c.maxHeavy ≤ total then
    ⟨PyDict.del h.heavy v, PyDict.set h.missing v total⟩
  else h

/-- The loop of `_get_categories_cms`; `seen` are the values processed so far. -/
def hitLoop (c : CmsCat K) (len : ℕ) : List K → List K → Hitters K → Hitters K
  | _, [], h => h
  | seen, v :: vs, h => hitLoop c len (seen ++ [v]) vs (hitStep est c len (seen ++ [v]) v h)

/-- `for k in d1 if k not in d2: d2[k] = cms2.get_estimate(k)`
(categorical_column_profile.py:569-570). -/
def fillFrom (ins2 : List K) (d1 d2 : PyDict K ℕ) : PyDict K ℕ :=
  (PyDict.keys d1).foldl (fun d k => if PyDict.has d k then d else PyDict.set d k (est ins2 k)) d2

/-- `categories.update(missing)`. -/
def dictUpdate (d u : PyDict K ℕ) : PyDict K ℕ := u.foldl (fun d kv => PyDict.set d kv.1 kv.2) d

/-- `_merge_categories_cms` (categorical_column_profile.py:525-594). The new sketch needs the parameters of
`self`; sketches of another size cannot be merged into it, and reporting that raises, since `raise err(...)` calls an
exception (558-571). -/
def mergeCms (params : Option (ℕ × ℕ)) (dims1 : ℕ × ℕ) (ins1 : List K) (d1 : PyDict K ℕ) (len1 : ℕ) (missing : PyDict K ℕ)
    (dims2 : ℕ × ℕ) (ins2 : List K) (d2 : PyDict K ℕ) (len2 : ℕ) (maxHeavy : ℕ) : Except Err (List K × PyDict K ℕ) :=
  match params with
  | none => .error .typeError
  | some p => if dims1 ≠ p ∨ dims2 ≠ p then .error .typeError else
    let d2' := fillFrom est ins2 d1 d2
    let d1' := fillFrom est ins1 d2' d1
    let cats := dictUpdate (addFlat d2' d1') missing
    let total : ℚ := (len1 : ℚ) + len2
    .ok (ins1 ++ ins2, cats.filter fun kv => !decide ((kv.2 : ℚ) < total / maxHeavy))

/-- `update` in sketch mode (categorical_column_profile.py:625-643, 672-697). -/
def updateCms (c : CmsCat K) (batch : List K) : Except Err (CmsCat K) :=
  if batch.length = 0 then .ok c
  else match c.params with
    | none => .error .typeError
    | some p => do
      let h := hitLoop est c batch.length [] batch ⟨[], []⟩
      let r ← mergeCms est c.params p batch h.heavy batch.length h.missing c.dims c.inserted c.cats c.sampleSize c.maxHeavy
      .ok { c with inserted := r.1, cats := r.2, sampleSize := c.sampleSize + batch.length }

/-- `__add__` in sketch mode (categorical_column_profile.py:105-127): the parameters of the sketch are not
copied to the merged profile. -/
def addCms (a b : CmsCat K) : Except Err (CmsCat K) := do
  let r ← mergeCms est a.params a.dims a.inserted a.cats a.sampleSize [] b.dims b.inserted b.cats b.sampleSize
    (min a.maxHeavy b.maxHeavy)
  .ok ⟨r.1, r.2, a.sampleSize + b.sampleSize, min a.maxHeavy b.maxHeavy, none, a.dims⟩

/-- A new profile in sketch mode. -/
def initCms (maxHeavy : ℕ) (params : ℕ × ℕ) : CmsCat K := ⟨[], [], 0, maxHeavy, some params, params⟩

/-- Everything that can happen to a column in sketch mode. -/
inductive CmsHistory (K : Type) where
  | new (maxHeavy : ℕ) (params : ℕ × ℕ)
  | update (h : CmsHistory K) (batch : List K)
  | merge (h1 h2 : CmsHistory K)

/-- The resulting profile, or the exception. -/
def runCms : CmsHistory K → Except Err (CmsCat K)
  | .new m p => .ok (initCms m p)
  | .update h b => do updateCms est (← runCms h) b
  | .merge h1 h2 => do
    let a ← runCms h1
    let b ← runCms h2
    addCms est a b

end Sketch

end Verif.Categorical
