import Verif.Model.Basic
import Verif.Model.PyDict
import Verif.Model.Diff
import Verif.Model.Nested

/-!
# Differences between structured profiles

Models `StructuredProfiler.diff`, `StructuredColProfiler.diff` (dataprofiler/profilers/profile_builder.py:256-337,
809-841, 1858-1951), the `diff` methods of the three column compilers
(column_profile_compilers.py:146-161, 319-366, 394-416, 439-467) and of the column profiles they call
(numerical_column_stats.py:480-542, float_column_profile.py:125-145, text_column_profile.py:101-118,
datetime_column_profile.py:183-207, order_column_profile.py:353-370, categorical_column_profile.py:245-332,
data_labeler_column_profile.py:359-392).

Simplifications: the attributes of a column profile that are compared are fields; numbers are exact rationals plus NaN
(see `Verif.Diffs`). The hypothesis tests and stability indices are given by `Tests` (they are modelled in
`Verif.Model.NumDiff`, `Verif.Model.Psi` and `Verif.Model.ChiSquared`). Column profiles are stored under the name of their
type, so the class checks of the column profiles' `diff` never fail. The order of Python sets is the order of first
occurrence. The formatting of the final report (`_prepare_report`) is `Verif.Model.Report`'s subject and left out here.
-/

namespace Verif.ProfileDiff

open Verif Verif.Diffs Verif.Nested

/-- Difference of two sets of row numbers through `find_diff_of_numbers` (profiler_utils.py:429-448): `stat1 - stat2` is
the set difference. -/
inductive RowDiff where
  | unchanged
  | minus (rows : List ℤ)
  deriving DecidableEq

/-- Result of `find_diff_of_dicts_with_diff_keys` on dictionaries of sets (profiler_utils.py:614-665). -/
inductive RowsDiff where
  | unchanged
  | parts (only1 : PyDict String (List ℤ)) (shared : PyDict String RowDiff) (only2 : PyDict String (List ℤ))
  deriving DecidableEq

/-- A value of the difference report that is not a dictionary. `τ` are the results of tests, `ν` the column names. -/
inductive Leaf (τ ν : Type) where
  | none
  | name (n : ν)
  | diff (d : Diff String)
  | modes (d : Diff ℚ)
  | rows (d : RowsDiff)
  | test (t : τ)

/-- What is compared of a numeric column. -/
structure NumCol where
  min : Option Num
  max : Option Num
  sum : Option Num
  mean : Option Num
  median : Option Num
  mode : List ℚ
  mad : Option Num
  variance : Option Num
  stddev : Option Num

/-- What is compared of a column of floats (float_column_profile.py:197-222). -/
structure FloatCol where
  num : NumCol
  precMin : Option Num
  precMax : Option Num
  precMean : Option Num
  precVar : Option Num
  precStd : Option Num
  precSize : Option Num
  precMargin : Option Num

/-- What is compared of a column of texts. -/
structure TextCol where
  num : NumCol
  vocab : Option (List String)

/-- What is compared of a column of dates. -/
structure DateCol where
  min : Option ℤ
  max : Option ℤ
  formats : List String

/-- What is compared of a categorical profile. -/
structure CatCol where
  isMatch : Bool
  sampleSize : ℕ
  counts : PyDict String ℕ
  categories : List String
  uniqueCount : ℕ
  uniqueRatio : Num
  gini : Option Num
  unalike : Option Num

/-- What is compared of a column of labels: no label without samples (data_labeler_column_profile.py:370-375). -/
structure LabelCol where
  sampleSize : ℕ
  labels : List String
  avgPredictions : PyDict String Num
  representation : PyDict String Num

/-- The tests and stability indices, modelled elsewhere. -/
structure Tests (τ : Type) where
  ttest : NumCol → NumCol → τ
  numPsi : NumCol → NumCol → τ
  chi2 : CatCol → CatCol → τ
  catPsi : CatCol → CatCol → τ

/-- A profile of one primitive type with its `data_type_ratio`. -/
structure Prim (A : Type) where
  ratio : Option Num
  col : A

/-- `_profiles` of `ColumnPrimitiveTypeProfileCompiler`, in the order of `_profilers`
(column_profile_compilers.py:261-266); a disabled type is missing. -/
structure TypeComp where
  datetime : Option (Prim DateCol)
  int : Option (Prim NumCol)
  float : Option (Prim FloatCol)
  text : Option (Prim TextCol)

/-- `_profiles` of `ColumnStatsProfileCompiler` (column_profile_compilers.py:373-376). -/
structure StatComp where
  order : Option (Option String)
  categorical : Option CatCol

/-- `_profiles` of `ColumnDataLabelerCompiler` (column_profile_compilers.py:423). -/
structure LabelComp where
  labeler : Option LabelCol

variable {τ ν : Type}

/-- The report of numbers. -/
def numLeaf (a b : Option Num) : Except Err (NV (Leaf τ ν)) :=
  (diffNumbers (α := String) ((a.map PV.num).getD .none) ((b.map PV.num).getD .none)).map fun d => .leaf (.diff d)

/-- The report of counts. -/
def natLeaf (a b : ℕ) : Except Err (NV (Leaf τ ν)) := numLeaf (some (.fin a)) (some (.fin b))

/-- The report of lists. -/
def listLeaf (a b : Option (List String)) : NV (Leaf τ ν) := .leaf (.diff (diffLists a b))

/-- `NumericStatsMixin.diff` (numerical_column_stats.py:480-542). -/
def numDiff (T : Tests τ) (a b : NumCol) : Except Err (PyDict String (NV (Leaf τ ν))) := do
  let mn ← numLeaf a.min b.min
  let mx ← numLeaf a.max b.max
  let sm ← numLeaf a.sum b.sum
  let me ← numLeaf a.mean b.mean
  let md ← numLeaf a.median b.median
  let mad ← numLeaf a.mad b.mad
  let va ← numLeaf a.variance b.variance
  let sd ← numLeaf a.stddev b.stddev
  .ok [("min", mn), ("max", mx), ("sum", sm), ("mean", me), ("median", md),
    ("mode", .leaf (.modes (diffLists (some a.mode) (some b.mode)))), ("median_absolute_deviation", mad),
    ("variance", va), ("stddev", sd), ("t-test", .leaf (.test (T.ttest a b))), ("psi", .leaf (.test (T.numPsi a b)))]

/-- `FloatColumn.diff` (float_column_profile.py:125-145); the confidence level is dropped again (143). -/
def floatDiff (T : Tests τ) (a b : FloatCol) : Except Err (PyDict String (NV (Leaf τ ν))) := do
  let d ← numDiff T a.num b.num
  let mn ← numLeaf a.precMin b.precMin
  let mx ← numLeaf a.precMax b.precMax
  let me ← numLeaf a.precMean b.precMean
  let va ← numLeaf a.precVar b.precVar
  let sd ← numLeaf a.precStd b.precStd
  let sz ← numLeaf a.precSize b.precSize
  let mg ← numLeaf a.precMargin b.precMargin
  .ok (PyDict.set d "precision" (.dict [("min", mn), ("max", mx), ("mean", me), ("var", va), ("std", sd),
    ("sample_size", sz), ("margin_of_error", mg)]))

/-- `TextColumn.diff` (text_column_profile.py:101-118). -/
def textDiff (T : Tests τ) (a b : TextCol) : Except Err (PyDict String (NV (Leaf τ ν))) := do
  let d ← numDiff T a.num b.num
  .ok (PyDict.set (PyDict.del d "psi") "vocab" (listLeaf a.vocab b.vocab))

/-- `DateTimeColumn.diff` (datetime_column_profile.py:183-207). -/
def dateDiff (a b : DateCol) : PyDict String (NV (Leaf τ ν)) :=
  [("min", .leaf (.diff (diffDates a.min b.min))), ("max", .leaf (.diff (diffDates a.max b.max))),
   ("format", listLeaf (some a.formats) (some b.formats))]

/-- `profiler.data_type_ratio == 1.0` of an existing profile (column_profile_compilers.py:314). -/
def fits {A : Type} : Option (Prim A) → Bool
  | some p => p.ratio == some (.fin 1)
  | none => false

/-- `selected_data_type` (column_profile_compilers.py:303-317). -/
def TypeComp.selected (c : TypeComp) : Option String :=
  if fits c.datetime then some "datetime"
  else if fits c.int then some "int"
  else if fits c.float then some "float"
  else if fits c.text then some "text"
  else none

/-- The difference of the `data_type_ratio` of one type (column_profile_compilers.py:340-350): nothing if neither
compiler has it. -/
def ratioDiff {A : Type} (key : String) (a b : Option (Prim A)) : Except Err (PyDict String (NV (Leaf τ ν))) :=
  match a, b with
  | some p, some q => do
    let d ← numLeaf p.ratio q.ratio
    .ok [(key, d)]
  | some p, none => .ok [(key, .leaf (.diff (.pair ((p.ratio.map PV.num).getD .none) .none)))]
  | none, some q => .ok [(key, .leaf (.diff (.pair .none ((q.ratio.map PV.num).getD .none))))]
  | none, none => .ok []

/-- The differences of the ratios of all types (column_profile_compilers.py:337-350). -/
def reprDiff (a b : TypeComp) : Except Err (PyDict String (NV (Leaf τ ν))) := do
  let d ← ratioDiff "datetime" a.datetime b.datetime
  let i ← ratioDiff "int" a.int b.int
  let f ← ratioDiff "float" a.float b.float
  let t ← ratioDiff "text" a.text b.text
  .ok (d ++ i ++ f ++ t)

/-- `self._profiles[data_type1].diff(other._profiles[data_type2])` (column_profile_compilers.py:360-362). -/
def primDiff (T : Tests τ) (a b : TypeComp) (ty : String) : Except Err (PyDict String (NV (Leaf τ ν))) :=
  if ty = "datetime" then
    match a.datetime, b.datetime with
    | some p, some q => .ok (dateDiff p.col q.col)
    | _, _ => .error .keyError
  else if ty = "int" then
    match a.int, b.int with
    | some p, some q => numDiff T p.col q.col
    | _, _ => .error .keyError
  else if ty = "float" then
    match a.float, b.float with
    | some p, some q => floatDiff T p.col q.col
    | _, _ => .error .keyError
  else
    match a.text, b.text with
    | some p, some q => textDiff T p.col q.col
    | _, _ => .error .keyError

/-- The `data_type` entry and, for equal types, the statistics (column_profile_compilers.py:352-362). -/
def selectedDiff (T : Tests τ) (a b : TypeComp) : Except Err (PyDict String (NV (Leaf τ ν))) :=
  match a.selected, b.selected with
  | none, none => .ok []
  | s, t =>
    if s = t then do
      let st ← primDiff T a b (s.getD "")
      .ok [("data_type", .leaf (.diff .unchanged)), ("statistics", .dict st)]
    else .ok [("data_type", .leaf (.diff (diffStrings s t)))]

/-- `ColumnPrimitiveTypeProfileCompiler.diff` (column_profile_compilers.py:319-366). -/
def typeDiff (T : Tests τ) (a b : TypeComp) : Except Err (PyDict String (NV (Leaf τ ν))) := do
  let rep ← reprDiff a b
  let sel ← selectedDiff T a b
  .ok ((if rep.isEmpty then [] else [("data_type_representation", .dict rep)]) ++ sel)

/-- `OrderColumn.diff` (order_column_profile.py:353-370). -/
def orderDiff (a b : Option String) : PyDict String (NV (Leaf τ ν)) := [("order", .leaf (.diff (diffStrings a b)))]

/-- The dictionary after `_preprocess_for_categorical_psi_calculation` (categorical_column_profile.py:439-456): the
categories of the other column are added with count 0. -/
def padded (a b : PyDict String ℕ) : PyDict String ℕ :=
  a ++ (b.filter fun kv => !PyDict.has a kv.1).map fun kv => (kv.1, 0)

/-- Counts as a dictionary of numbers. -/
def countVals (d : PyDict String ℕ) : List (String × PV String) := d.map fun kv => (kv.1, .num (.fin kv.2))

/-- The `psi` entry (categorical_column_profile.py:304-321): written inside the loop over all categories, which divides by
both sample sizes. -/
def catPsiEntry (T : Tests τ) (a b : CatCol) : Except Err (PyDict String (NV (Leaf τ ν))) :=
  if (padded a.counts b.counts).isEmpty then .ok []
  else if a.sampleSize = 0 ∨ b.sampleSize = 0 then .error .zeroDivision
  else .ok [("psi", .leaf (.test (T.catPsi a b)))]

/-- The statistics compared only if both columns are categorical (categorical_column_profile.py:270-330). -/
def bothCategorical (T : Tests τ) (a b : CatCol) : Except Err (PyDict String (NV (Leaf τ ν))) := do
  let gi ← numLeaf a.gini b.gini
  let un ← numLeaf a.unalike b.unalike
  let ps ← catPsiEntry T a b
  let cc ← diffDicts (some (countVals (padded a.counts b.counts))) (some (countVals (padded b.counts a.counts)))
  .ok ([("chi2-test", .leaf (.test (T.chi2 a b))), ("categories", listLeaf (some a.categories) (some b.categories)),
    ("gini_impurity", gi), ("unalikeability", un)] ++ ps ++ [("categorical_count", .leaf (.diff cc))])

/-- `CategoricalColumn.diff` (categorical_column_profile.py:245-332). -/
def catDiff (T : Tests τ) (a b : CatCol) : Except Err (PyDict String (NV (Leaf τ ν))) := do
  let uc ← natLeaf a.uniqueCount b.uniqueCount
  let ur ← numLeaf (some a.uniqueRatio) (some b.uniqueRatio)
  let more ← if a.isMatch && b.isMatch then bothCategorical T a b else .ok []
  .ok [("categorical", .leaf (.diff (diffBools a.isMatch b.isMatch))),
    ("statistics", .dict ([("unique_count", uc), ("unique_ratio", ur)] ++ more))]

/-- The order part of `ColumnStatsProfileCompiler.diff` (column_profile_compilers.py:410-414). -/
def orderPart (a b : StatComp) : PyDict String (NV (Leaf τ ν)) :=
  match a.order, b.order with
  | some x, some y => orderDiff x y
  | _, _ => []

/-- The categorical part of `ColumnStatsProfileCompiler.diff` (column_profile_compilers.py:410-414). -/
def catPart (T : Tests τ) (a b : StatComp) : Except Err (PyDict String (NV (Leaf τ ν))) :=
  match a.categorical, b.categorical with
  | some x, some y => catDiff T x y
  | _, _ => .ok []

/-- `ColumnStatsProfileCompiler.diff` (column_profile_compilers.py:394-416): the two reports have no key in common. -/
def statDiff (T : Tests τ) (a b : StatComp) : Except Err (PyDict String (NV (Leaf τ ν))) := do
  let c ← catPart T a b
  .ok (orderPart a b ++ c)

/-- The labels of a column with samples (data_labeler_column_profile.py:370-375). -/
def LabelCol.given (c : LabelCol) : Option (List String) := if c.sampleSize = 0 then none else some c.labels

/-- Numbers by label. -/
def numVals (d : PyDict String Num) : List (String × PV String) := d.map fun kv => (kv.1, .num kv.2)

/-- `DataLabelerColumn.diff` and the separation of its label in `ColumnDataLabelerCompiler.diff`
(data_labeler_column_profile.py:359-392, column_profile_compilers.py:439-467). -/
def labelDiff (a b : LabelComp) : Except Err (PyDict String (NV (Leaf τ ν))) :=
  match a.labeler, b.labeler with
  | some x, some y => do
    let av ← diffDicts (some (numVals x.avgPredictions)) (some (numVals y.avgPredictions))
    let re ← diffDicts (some (numVals x.representation)) (some (numVals y.representation))
    .ok [("statistics", .dict [("avg_predictions", .leaf (.diff av)), ("label_representation", .leaf (.diff re))]),
      ("data_label", listLeaf x.given y.given)]
  | _, _ => .ok []

/-- A `StructuredColProfiler` (profile_builder.py:89-105); a compiler is missing if the column never had data or, for
labels, if the labeler is disabled (profile_builder.py:161-185). -/
structure Col (ν : Type) where
  name : ν
  sampleSize : ℕ
  nullCount : ℕ
  nullRatio : Option Num
  nullTypes : List String
  nullRows : PyDict String (List ℤ)
  types : Option TypeComp
  stats : Option StatComp
  label : Option LabelComp

/-- The number of values, of nulls and the null ratio kept by a column (profile_builder.py:95-98). -/
structure NullTally where
  size : ℕ
  nulls : ℕ
  ratio : Option Num

/-- A new column profile (profile_builder.py:95-98). -/
def NullTally.empty : NullTally := { size := 0, nulls := 0, ratio := none }

/-- The counts of `_update_base_stats` for `n` values, `k` of them null (profile_builder.py:430-436). -/
def NullTally.update (t : NullTally) (n k : ℕ) : Except Err NullTally :=
  if n = 0 then .error .zeroDivision
  else .ok { size := t.size + n, nulls := t.nulls + k, ratio := some (.fin ((k : ℚ) / n)) }

/-- The counts of merged columns (profile_builder.py:215-245). -/
def NullTally.merge (a b : NullTally) : Except Err NullTally := do
  let m ← NullTally.empty.update a.size a.nulls
  m.update b.size b.nulls

/-- `find_diff_of_numbers` on two sets (profiler_utils.py:429-448). -/
def rowDiff (a b : List ℤ) : RowDiff :=
  if a ⊆ b ∧ b ⊆ a then .unchanged else .minus (a.filter fun x => !decide (x ∈ b))

/-- `find_diff_of_dicts_with_diff_keys` on dictionaries of sets (profiler_utils.py:614-665): a set is neither list, date,
text nor dictionary, so `find_diff_of_numbers` is used (648). -/
def rowsDiff (a b : PyDict String (List ℤ)) : RowsDiff :=
  let only1 := a.filter fun kv => !PyDict.has b kv.1
  let shared := a.filterMap fun kv => (PyDict.get? b kv.1).map fun w => (kv.1, rowDiff kv.2 w)
  let only2 := b.filter fun kv => !PyDict.has a kv.1
  if only1.isEmpty && shared.isEmpty && only2.isEmpty then .unchanged else .parts only1 shared only2

/-- The entries written by the column itself (profile_builder.py:285-303). -/
def ownStats (a b : Col ν) : Except Err (PyDict String (NV (Leaf τ ν))) := do
  let ss ← natLeaf a.sampleSize b.sampleSize
  let nc ← natLeaf a.nullCount b.nullCount
  let nr ← numLeaf a.nullRatio b.nullRatio
  .ok [("sample_size", ss), ("null_count", nc), ("null_ratio", nr),
    ("null_types", listLeaf (some a.nullTypes) (some b.nullTypes)), ("null_types_index", .leaf (.rows (rowsDiff a.nullRows b.nullRows)))]

/-- `d.update(e)`: every entry of `e` is set. -/
def update (d e : PyDict String (NV (Leaf τ ν))) : PyDict String (NV (Leaf τ ν)) :=
  e.foldl (fun d kv => PyDict.set d kv.1 kv.2) d

/-- The difference of one compiler if both columns have it (profile_builder.py:268-272). -/
def compDiff {A : Type} (f : A → A → Except Err (PyDict String (NV (Leaf τ ν)))) (a b : Option A) :
    Except Err (PyDict String (NV (Leaf τ ν))) :=
  match a, b with
  | some x, some y => f x y
  | _, _ => .ok []

/-- The compilers' differences merged (profile_builder.py:267-275). -/
def compilers (T : Tests τ) (a b : Col ν) : Except Err (PyDict String (NV (Leaf τ ν))) := do
  let t ← compDiff (typeDiff T) a.types b.types
  let s ← compDiff (statDiff T) a.stats b.stats
  let l ← compDiff labelDiff a.label b.label
  .ok (updItems (updItems (updItems [] t) s) l)

/-- `unordered_profile["statistics"].update(…)` (profile_builder.py:285-313), the representation of the data types
included when there is a data type. -/
def statistics (u : PyDict String (NV (Leaf τ ν))) (own : PyDict String (NV (Leaf τ ν))) :
    Except Err (PyDict String (NV (Leaf τ ν))) :=
  match PyDict.get? u "statistics" with
  | some (.dict st) =>
    match PyDict.get? u "data_type" with
    | some _ =>
      match PyDict.get? u "data_type_representation" with
      | some rep => .ok (PyDict.set (update st own) "data_type_representation" rep)
      | none => .error .keyError
    | none => .ok (update st own)
  | some (.leaf _) => .error .attributeError
  | none => .error .keyError

/-- `profile[key] = unordered_profile[key]`, `None` for a missing key (profile_builder.py:330-334). -/
def pick (u : PyDict String (NV (Leaf τ ν))) (key : String) : String × NV (Leaf τ ν) :=
  (key, (PyDict.get? u key).getD (.leaf .none))

/-- `StructuredColProfiler.diff` (profile_builder.py:256-337). -/
def colDiff (T : Tests τ) (a b : Col ν) : Except Err (PyDict String (NV (Leaf τ ν))) := do
  let u ← compilers T a b
  let u := PyDict.set u "column_name" (.leaf (.name a.name))
  let own ← ownStats a b
  let st ← statistics u own
  let u := PyDict.set u "statistics" (.dict st)
  let keys := if a.label.isSome && b.label.isSome then
      ["column_name", "data_type", "data_label", "categorical", "order", "statistics"]
    else ["column_name", "data_type", "categorical", "order", "statistics"]
  .ok (keys.map (pick u))

variable [DecidableEq ν]

/-- A `StructuredProfiler`, as far as it is compared. -/
structure Table (ν : Type) where
  fileType : Option String
  encoding : Option String
  cols : List (Col ν)
  rows : ℕ
  rowHasNull : Option Num
  rowIsNull : Option Num
  uniqueRow : Option Num
  duplicates : Option Num
  correlation : Option Matrix
  chi2 : Option Matrix

/-- The schema of a profile (profile_builder.py:1918-1925): positions by name, names in order of first occurrence. -/
def schemaFrom (i : ℕ) (s : PyDict ν (List ℕ)) : List ν → PyDict ν (List ℕ)
  | [] => s
  | n :: rest => schemaFrom (i + 1) (PyDict.set s n ((PyDict.get? s n).getD [] ++ [i])) rest

/-- The schema of a profile. -/
def schema (t : Table ν) : PyDict ν (List ℕ) := schemaFrom 0 [] (t.cols.map Col.name)

/-- `==` of two dictionaries: the same keys with the same values. -/
def dictEq {V : Type} [DecidableEq V] (a b : PyDict ν V) : Bool :=
  a.all (fun kv => PyDict.get? b kv.1 == some kv.2) && b.all (fun kv => PyDict.get? a kv.1 == some kv.2)

/-- The schema entry (profile_builder.py:1927-1931): `find_diff_of_dicts_with_diff_keys` on dictionaries of lists
(profiler_utils.py:614-665). -/
inductive SchemaDiff (ν : Type) where
  | unchanged
  | parts (only1 : PyDict ν (List ℕ)) (shared : PyDict ν (Diff ℕ)) (only2 : PyDict ν (List ℕ))

/-- `find_diff_of_dicts_with_diff_keys` on dictionaries of lists (profiler_utils.py:614-665). -/
def schemaDiff (a b : PyDict ν (List ℕ)) : SchemaDiff ν :=
  let only1 := a.filter fun kv => !PyDict.has b kv.1
  let shared := a.filterMap fun kv => (PyDict.get? b kv.1).map fun w => (kv.1, diffLists (some kv.2) (some w))
  let only2 := b.filter fun kv => !PyDict.has a kv.1
  if only1.isEmpty && shared.isEmpty && only2.isEmpty then .unchanged else .parts only1 shared only2

/-- `_max_col_samples_used` (profile_builder.py:1941-1947). -/
def Table.maxSamples (t : Table ν) : ℕ := t.cols.foldl (fun m c => max m c.sampleSize) 0

/-- The `global_stats` of a difference. -/
structure Global (ν : Type) where
  fileType : Diff String
  encoding : Diff String
  samplesUsed : Diff String
  columnCount : Diff String
  rowCount : Diff String
  rowHasNull : Diff String
  rowIsNull : Diff String
  uniqueRow : Diff String
  duplicates : Diff String
  correlation : MatDiff
  chi2 : MatDiff
  schema : SchemaDiff ν

/-- `find_diff_of_numbers` of optional numbers. -/
def nums (a b : Option Num) : Except Err (Diff String) :=
  diffNumbers ((a.map PV.num).getD .none) ((b.map PV.num).getD .none)

/-- The global part of `StructuredProfiler.diff` (profile_builder.py:825-839, 1876-1931). -/
def globalDiff (a b : Table ν) : Except Err (Global ν) := do
  let su ← nums (some (.fin a.maxSamples)) (some (.fin b.maxSamples))
  let cc ← nums (some (.fin a.cols.length)) (some (.fin b.cols.length))
  let rc ← nums (some (.fin a.rows)) (some (.fin b.rows))
  let rh ← nums a.rowHasNull b.rowHasNull
  let ri ← nums a.rowIsNull b.rowIsNull
  let ur ← nums a.uniqueRow b.uniqueRow
  let du ← nums a.duplicates b.duplicates
  .ok { fileType := diffStrings a.fileType b.fileType, encoding := diffStrings a.encoding b.encoding,
        samplesUsed := su, columnCount := cc, rowCount := rc, rowHasNull := rh, rowIsNull := ri, uniqueRow := ur,
        duplicates := du, correlation := diffMatrices a.correlation b.correlation, chi2 := diffMatrices a.chi2 b.chi2,
        schema := schemaDiff (schema a) (schema b) }

/-- `for i in range(len(self._profile))` (profile_builder.py:1935-1938). -/
def colsDiff (T : Tests τ) : List (Col ν) → List (Col ν) → Except Err (List (PyDict String (NV (Leaf τ ν))))
  | [], _ => .ok []
  | _ :: _, [] => .error .indexError
  | a :: as, b :: bs => do
    let d ← colDiff T a b
    let ds ← colsDiff T as bs
    .ok (d :: ds)

/-- The `data_stats` of a difference (profile_builder.py:1933-1938): columns are compared only for equal schemas. -/
def dataStats (T : Tests τ) (a b : Table ν) : Except Err (List (PyDict String (NV (Leaf τ ν)))) :=
  if dictEq (schema a) (schema b) then colsDiff T a.cols b.cols else .ok []

/-- `StructuredProfiler.diff` before formatting (profile_builder.py:1858-1944). -/
def tableDiff (T : Tests τ) (a b : Table ν) : Except Err (Global ν × List (PyDict String (NV (Leaf τ ν)))) := do
  let g ← globalDiff a b
  let ds ← dataStats T a b
  .ok (g, ds)

end Verif.ProfileDiff
