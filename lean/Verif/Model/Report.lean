import Verif.Model.Basic
import Verif.Model.PyDict
import Verif.Model.Nested
import Verif.Model.ProfileDiff
import Mathlib.Data.Rat.Defs
import Mathlib.Data.Nat.Notation

/-!
# Reports of structured profiles

Models `StructuredProfiler.report` (dataprofiler/profilers/profile_builder.py:2054-2109) up to the call of `_prepare_report`
(C54), `StructuredColProfiler.report` (profile_builder.py:339-391), the `report` methods of the compilers
(column_profile_compilers.py:266-300, 381-393, 423-437) and of the column profiles, with the flag that removes disabled
statistics.

Simplifications
* the value of a statistic is an attribute read by name (`stats`), a leaf or a dictionary; conversions of numpy numbers
  (`np_type_to_type`, numerical_column_stats.py:2047-2060; profile_builder.py:348-350) are not modelled;
* the dictionaries of calculations are lists of their keys;
* `calculate_quantiles` (C31) and the truth value of quantiles are parameters.
-/

namespace Verif.Report

open Verif Nested

/-- A value in a report that is not a dictionary. -/
inductive Leaf (ν V : Type) where
  | none
  | nat (n : ℕ)
  | bool (b : Bool)
  | ratio (q : ℚ)
  | type (s : String)
  | name (n : ν)
  | other (v : V)

/-- A value in a report. -/
abbrev Val (ν V : Type) := NV (Leaf ν V)

/-- A report. -/
abbrev Dict (ν V : Type) := PyDict String (Val ν V)

variable {ν V : Type}

/-- `None` for a missing number (column_profile_compilers.py:297). -/
def ratioVal : Option ℚ → Val ν V
  | some q => .leaf (.ratio q)
  | none => .leaf .none

/-- `d.update(e)`. -/
def update (d e : Dict ν V) : Dict ν V := e.foldl (fun d kv => PyDict.set d kv.1 kv.2) d

/-- The profilers of a column's data type, in their order (column_profile_compilers.py:258-263). -/
inductive Ty where
  | datetime
  | int
  | float
  | text
deriving DecidableEq

/-- `type` of the profilers (datetime_column_profile.py:25, int_column_profile.py:20, float_column_profile.py:24,
text_column_profile.py:23). -/
def Ty.name : Ty → String
  | .datetime => "datetime"
  | .int => "int"
  | .float => "float"
  | .text => "text"

/-- A profile of a data type: the ratio of matching values, the attributes by name, the keys of the numeric calculations
(numerical_column_stats.py:118-128) and of the calculations of the class itself (float_column_profile.py:61-64,
text_column_profile.py:43-44), as left by the options. -/
structure Prim (ν V : Type) where
  ty : Ty
  ratio : Option ℚ
  stats : String → Val ν V
  calcs : List String
  own : List String

/-- `NumericStatsMixin.profile` (numerical_column_stats.py:368-393). -/
def numProfile (p : Prim ν V) : Dict ν V :=
  [("min", p.stats "min"), ("max", p.stats "max"), ("mode", p.stats "mode"), ("median", p.stats "median"),
    ("sum", p.stats "sum"), ("mean", p.stats "mean"), ("variance", p.stats "variance"), ("stddev", p.stats "stddev"),
    ("skewness", p.stats "skewness"), ("kurtosis", p.stats "kurtosis"), ("histogram", p.stats "histogram"),
    ("quantiles", p.stats "quantiles"), ("median_abs_deviation", p.stats "median_abs_deviation"),
    ("num_zeros", p.stats "num_zeros"), ("num_negatives", p.stats "num_negatives"), ("times", p.stats "times")]

/-- `FloatColumn.profile` (float_column_profile.py:197-226). -/
def floatProfile (p : Prim ν V) : Dict ν V := update (numProfile p) [("precision", p.stats "precision")]

/-- `TextColumn.profile` (text_column_profile.py:87-98). -/
def textProfile (p : Prim ν V) : Dict ν V :=
  update (PyDict.del (PyDict.del (numProfile p) "num_zeros") "num_negatives") [("vocab", p.stats "vocab")]

/-- `DateTimeColumn.profile` (datetime_column_profile.py:158-168). -/
def dateProfile (p : Prim ν V) : Dict ν V :=
  [("min", p.stats "min"), ("max", p.stats "max"), ("histogram", .leaf .none), ("format", p.stats "format"),
    ("times", p.stats "times")]

/-- The loop `profile.pop(profile_key)` over the keys that are not kept (numerical_column_stats.py:412-424). -/
def popLoop (keep : String → Bool) (d : Dict ν V) : List String → Dict ν V
  | [] => d
  | k :: ks => popLoop keep (if keep k then d else PyDict.del d k) ks

/-- The keys `NumericStatsMixin.report` keeps (numerical_column_stats.py:414-423). -/
def numKeep (calcs : List String) (k : String) : Bool :=
  if k ∈ ["mode", "quantiles", "histogram"] then decide ("histogram_and_quantiles" ∈ calcs)
  else if k = "stddev" ∧ "variance" ∈ calcs then true
  else if k ∈ calcs then true
  else decide (k = "times")

/-- `NumericStatsMixin.report` (numerical_column_stats.py:395-426). -/
def numReport (flag : Bool) (p : Prim ν V) : Dict ν V :=
  if flag then popLoop (numKeep p.calcs) (numProfile p) (PyDict.keys (numProfile p)) else numProfile p

/-- The keys `FloatColumn.report` keeps (float_column_profile.py:154-159). -/
def floatKeep (own : List String) (k : String) : Bool :=
  if k = "precision" then decide ("precision" ∈ own) else false

/-- The keys `TextColumn.report` keeps (text_column_profile.py:78-83). -/
def textKeep (own : List String) (k : String) : Bool :=
  if k = "vocab" then decide ("vocab" ∈ own) else false

/-- `report` of the profile of a data type (int_column_profile.py:65-73, datetime_column_profile.py:122-132,
float_column_profile.py:147-161, text_column_profile.py:71-85). -/
def primReport (flag : Bool) (p : Prim ν V) : Dict ν V :=
  match p.ty with
  | .datetime => dateProfile p
  | .int => numProfile p
  | .float => if flag then popLoop (floatKeep p.own) (floatProfile p) (PyDict.keys (floatProfile p)) else floatProfile p
  | .text => if flag then popLoop (textKeep p.own) (textProfile p) (PyDict.keys (textProfile p)) else textProfile p

/-- `profile["data_type_representation"].update({profiler.type: profiler.data_type_ratio})`
(column_profile_compilers.py:296-298). -/
def addRatio (d : Dict ν V) (p : Prim ν V) : Dict ν V :=
  match PyDict.get? d "data_type_representation" with
  | some (.dict r) => PyDict.set d "data_type_representation" (.dict (PyDict.set r p.ty.name (ratioVal p.ratio)))
  | _ => d

/-- One step of the loop over the profilers (column_profile_compilers.py:286-298). -/
def typeStep (flag : Bool) (s : Dict ν V × Bool) (p : Prim ν V) : Dict ν V × Bool :=
  if !s.2 && p.ratio == some 1 then
    (addRatio (update s.1 [("data_type", .leaf (.type p.ty.name)), ("statistics", .dict (primReport flag p))]) p, true)
  else (addRatio s.1 p, s.2)

/-- `ColumnPrimitiveTypeProfileCompiler.report` (column_profile_compilers.py:271-299). -/
def typeReport (flag : Bool) (ps : List (Prim ν V)) : Dict ν V :=
  (ps.foldl (typeStep flag)
    ([("data_type_representation", .dict []), ("data_type", .leaf .none), ("statistics", .dict [])], false)).1

/-- An `OrderColumn`. -/
structure OrderCol (ν V : Type) where
  order : Val ν V
  times : Val ν V

/-- `OrderColumn.profile` (order_column_profile.py:344-351, 307-315). -/
def orderReport (o : OrderCol ν V) : Dict ν V := [("order", o.order), ("times", o.times)]

/-- A `CategoricalColumn`. -/
structure CatCol (ν V : Type) where
  isMatch : Bool
  stats : String → Val ν V
  times : Val ν V

/-- The statistics of a categorical column (categorical_column_profile.py:375-391). -/
def catStats (c : CatCol ν V) : Dict ν V :=
  if c.isMatch then
    [("unique_count", c.stats "unique_count"), ("unique_ratio", c.stats "unique_ratio"), ("categories", c.stats "categories"),
      ("gini_impurity", c.stats "gini_impurity"), ("unalikeability", c.stats "unalikeability"),
      ("categorical_count", c.stats "categorical_count")]
  else [("unique_count", c.stats "unique_count"), ("unique_ratio", c.stats "unique_ratio")]

/-- `CategoricalColumn.profile` (categorical_column_profile.py:335-345, 366-392). -/
def catReport (c : CatCol ν V) : Dict ν V :=
  [("categorical", .leaf (.bool c.isMatch)), ("statistics", .dict (catStats c)), ("times", c.times)]

/-- `ColumnStatsProfileCompiler.report` (column_profile_compilers.py:381-393). -/
def statReport (o : Option (OrderCol ν V)) (c : Option (CatCol ν V)) : Dict ν V :=
  update (update [] ((o.map orderReport).getD [])) ((c.map catReport).getD [])

/-- A `DataLabelerColumn`. -/
structure LabelCol (ν V : Type) where
  label : Val ν V
  average : Val ν V
  representation : Val ν V
  times : Val ν V

/-- `DataLabelerColumn.profile` (data_labeler_column_profile.py:300-308, 347-357). -/
def labelProfile (l : LabelCol ν V) : Dict ν V :=
  [("data_label", l.label), ("avg_predictions", l.average), ("data_label_representation", l.representation),
    ("times", l.times)]

/-- `ColumnDataLabelerCompiler.report` (column_profile_compilers.py:423-437). -/
def labelReport : Option (LabelCol ν V) → Dict ν V
  | none => [("data_label", .leaf .none), ("statistics", .dict [])]
  | some l =>
    [("data_label", (PyDict.get? (labelProfile l) "data_label").getD (.leaf .none)),
      ("statistics", .dict (update [] (PyDict.del (labelProfile l) "data_label")))]

/-- The compilers of a column that was given data (profile_builder.py:161-185); the last one is missing if the labeler is
disabled. A profiler is missing from its compiler if it is disabled. -/
structure Comps (ν V : Type) where
  types : List (Prim ν V)
  order : Option (OrderCol ν V)
  cat : Option (CatCol ν V)
  label : Option (Option (LabelCol ν V))

/-- A `StructuredColProfiler` (profile_builder.py:89-105). -/
structure Col (ν V : Type) where
  name : ν
  samples : Val ν V
  sampleSize : Val ν V
  nullCount : Val ν V
  nullTypes : Val ν V
  nullRows : Val ν V
  comps : Option (Comps ν V)

/-- The reports of the compilers (profile_builder.py:341-345). -/
def compReports (flag : Bool) : Option (Comps ν V) → List (Dict ν V)
  | none => []
  | some c => typeReport flag c.types :: statReport c.order c.cat :: (c.label.map labelReport).toList

/-- `unordered_profile["statistics"].update(…)` and the entry for the data types (profile_builder.py:359-377). -/
def columnStats (c : Col ν V) (u : Dict ν V) : Except Err (Dict ν V) :=
  match PyDict.get? u "statistics" with
  | some (.dict st) =>
    let st := update st [("sample_size", c.sampleSize), ("null_count", c.nullCount), ("null_types", c.nullTypes),
      ("null_types_index", c.nullRows)]
    match PyDict.get? u "data_type" with
    | none => .ok st
    | some (.leaf .none) => .ok st
    | some _ =>
      match PyDict.get? u "data_type_representation" with
      | some r => .ok (PyDict.set st "data_type_representation" r)
      | none => .error .keyError
  | some (.leaf _) => .error .attributeError
  | none => .error .keyError

/-- `report[key] = unordered_profile[key]`, `None` for a missing key (profile_builder.py:385-389). -/
def pick (u : Dict ν V) (key : String) : String × Val ν V := (key, (PyDict.get? u key).getD (.leaf .none))

/-- Whether there is a compiler for labels (profile_builder.py:383). -/
def Col.labelled (c : Col ν V) : Bool :=
  match c.comps with
  | some k => k.label.isSome
  | none => false

/-- `StructuredColProfiler.report` (profile_builder.py:339-391). -/
def colReport (flag : Bool) (c : Col ν V) : Except Err (Dict ν V) := do
  let u := (compReports flag c.comps).foldl updItems []
  let u := update u [("column_name", .leaf (.name c.name)), ("samples", c.samples)]
  let st ← columnStats c u
  let u := PyDict.set u "statistics" (.dict st)
  let keys := ["column_name", "data_type", "data_label", "categorical", "order", "samples", "statistics"]
  let keys := if c.labelled then keys else keys.erase "data_label"
  .ok (keys.map (pick u))

/-- A `StructuredProfiler`, as far as it is reported: the attributes of the global statistics by name, the columns, and the
null replication metrics by position if they are enabled. -/
structure Table (ν V : Type) where
  maxSamples : ℕ
  rows : ℕ
  stats : String → Val ν V
  cols : List (Col ν V)
  nullReplication : Option (PyDict ℕ (Val ν V))

/-- The quantiles of a column in groups (profile_builder.py:2097-2100). -/
def regroup (truthy : Val ν V → Bool) (groups : Val ν V → Val ν V) (d : Dict ν V) : Dict ν V :=
  match PyDict.get? d "statistics" with
  | some (.dict st) =>
    match PyDict.get? st "quantiles" with
    | some q => if truthy q then PyDict.set d "statistics" (.dict (PyDict.set st "quantiles" (groups q))) else d
    | none => d
  | _ => d

/-- The null replication metrics of a column (profile_builder.py:2101-2107). -/
def addMetrics (m : Option (PyDict ℕ (Val ν V))) (i : ℕ) (d : Dict ν V) : Dict ν V :=
  match m with
  | some ms =>
    match PyDict.get? ms i with
    | some v => PyDict.set d "null_replication_metrics" v
    | none => d
  | none => d

/-- The loop over the columns (profile_builder.py:2093-2107). -/
def dataStats (truthy : Val ν V → Bool) (groups : Val ν V → Val ν V) (flag : Bool) (m : Option (PyDict ℕ (Val ν V))) :
    ℕ → List (Col ν V) → Except Err (List (Dict ν V))
  | _, [] => .ok []
  | i, c :: cs => do
    let d ← colReport flag c
    let ds ← dataStats truthy groups flag m (i + 1) cs
    .ok (addMetrics m i (regroup truthy groups d) :: ds)

/-- The global statistics besides the schema (profile_builder.py:2073-2087). -/
def globalStats (t : Table ν V) : Dict ν V :=
  [("samples_used", .leaf (.nat t.maxSamples)), ("column_count", .leaf (.nat t.cols.length)),
    ("row_count", .leaf (.nat t.rows)), ("row_has_null_ratio", t.stats "row_has_null_ratio"),
    ("row_is_null_ratio", t.stats "row_is_null_ratio"), ("unique_row_ratio", t.stats "unique_row_ratio"),
    ("duplicate_row_count", t.stats "duplicate_row_count"), ("file_type", t.stats "file_type"),
    ("encoding", t.stats "encoding"), ("correlation_matrix", t.stats "correlation_matrix"),
    ("chi2_matrix", t.stats "chi2_matrix"), ("times", t.stats "times")]

/-- A report of a table: global statistics, the schema and the columns. -/
structure TableReport (ν V : Type) where
  globals : Dict ν V
  schema : PyDict ν (List ℕ)
  columns : List (Dict ν V)

/-- `StructuredProfiler.report` up to `_prepare_report` (profile_builder.py:2054-2109). The schema is filled in the same
loop as for differences (2095). -/
def report [DecidableEq ν] (truthy : Val ν V → Bool) (groups : Val ν V → Val ν V) (flag : Bool) (t : Table ν V) :
    Except Err (TableReport ν V) := do
  let cs ← dataStats truthy groups flag t.nullReplication 0 t.cols
  .ok { globals := globalStats t, schema := ProfileDiff.schemaFrom 0 [] (t.cols.map Col.name), columns := cs }

end Verif.Report
