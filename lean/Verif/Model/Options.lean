import Verif.Model.Basic
import Verif.Model.PyDict
import Mathlib.Data.Rat.Defs
import Mathlib.Algebra.Order.Ring.Unbundled.Rat

/-!
# Options

Models dataprofiler/profilers/profiler_options.py: the tree of option objects, setting options by path, validation and
presets.

Simplifications
* a dotted path is the list of its segments;
* nested option objects have their declared class (validation also reports objects of another class); values are arbitrary;
* a message of validation is represented by the path of the option it names; warnings are left out.
-/

namespace Verif.Options

open Verif

/-- A Python value. -/
inductive PV where
  | none
  | bool (b : Bool)
  | int (i : Int)
  | float (q : ℚ)
  | nan
  | inf (positive : Bool)
  | str (s : String)
  | list (l : List PV)
  | dict (l : List (PV × PV))
  | regexFlag (n : Nat)
  | labeler
  | other (truthy : Bool)

/-- Classes of options. -/
inductive Cls where
  | boolean | histogram | mode | int | float | precision | text | datetime | order | category | correlation | hll
  | uniqueCount | rowStatistics | dataLabeler | textProfiler | structured | unstructured | profiler
deriving DecidableEq

/-- An attribute of an option object: a value or another option object. -/
inductive Opt where
  | val (v : PV)
  | obj (cls : Cls) (fields : List (String × Opt))

/-- Attributes of an option object. -/
abbrev Fields := List (String × Opt)

/-! ### Setting -/

/-- The statistics switched by `is_numeric_stats_enabled` (profiler_options.py:447-471, 839-860); nothing for other
classes. -/
def switched : Cls → List String
  | .int | .float => ["min", "max", "mode", "median", "sum", "variance", "skewness", "kurtosis", "median_abs_deviation",
      "num_zeros", "num_negatives", "histogram_and_quantiles"]
  | .text => ["min", "max", "mode", "median", "sum", "variance", "skewness", "kurtosis", "median_abs_deviation",
      "histogram_and_quantiles"]
  | _ => []

/-- Whether a class has the computed attribute `is_numeric_stats_enabled` (profiler_options.py:473-482). -/
def computed (cls : Cls) (name : String) : Bool := name == "is_numeric_stats_enabled" && !(switched cls).isEmpty

/-- `option_name in self.properties` (profiler_options.py:68). -/
def hasProp (cls : Cls) (fields : Fields) (name : String) : Bool := PyDict.has fields name || computed cls name

/-- `option.is_enabled = value`. -/
def enable (v : PV) : Opt → Opt
  | .val x => .val x
  | .obj cls fields => .obj cls (PyDict.set fields "is_enabled" (.val v))

/-- Replace an attribute, if there is one. -/
def modify (fields : Fields) (name : String) (f : Opt → Opt) : Fields :=
  fields.map fun kv => if kv.1 = name then (kv.1, f kv.2) else kv

/-- `setattr(self, name, value)` (profiler_options.py:83). -/
def assign (cls : Cls) (fields : Fields) (name : String) (v : PV) : Fields :=
  if computed cls name then (switched cls).foldl (fun fs n => modify fs n (enable v)) fields
  else PyDict.set fields name (.val v)

/-- The option name, what follows it, and whether all sub-options are searched (profiler_options.py:55-63). -/
def parse : List String → Except Err (Bool × String × List String)
  | [] => .error .indexError
  | n :: rest =>
    if n = "*" then
      match rest with
      | [] => .error .indexError
      | m :: r => .ok (true, m, r)
    else .ok (false, n, rest)

/-- Whether an attribute is an option object. -/
def isObj : Option Opt → Bool
  | some (.obj _ _) => true
  | _ => false

mutual
/-- `_set_helper` for one path (profiler_options.py:35-101): the options afterwards, and the exception if one is raised. -/
def setOpt (path : List String) (v : PV) : Opt → Opt × Option Err
  | .val x => (.val x, none)
  | .obj cls fields =>
    match parse path with
    | .error e => (.obj cls fields, some e)
    | .ok (star, name, rest) =>
      if hasProp cls fields name then
        if isObj (PyDict.get? fields name) then
          if rest = [] then (.obj cls fields, some .indexError)
          else (.obj cls (setAt name rest v fields).1, (setAt name rest v fields).2)
        else if rest ≠ [] then (.obj cls fields, some .attributeError)
        else (.obj cls (assign cls fields name v), none)
      else if rest ≠ [] ∨ star then (.obj cls (setAll path v fields).1, (setAll path v fields).2)
      else (.obj cls fields, some .attributeError)

/-- Set within one attribute (profiler_options.py:70-75). -/
def setAt (name : String) (path : List String) (v : PV) : Fields → Fields × Option Err
  | [] => ([], none)
  | (k, o) :: rest =>
    if k = name then ((k, (setOpt path v o).1) :: rest, (setOpt path v o).2)
    else ((k, o) :: (setAt name path v rest).1, (setAt name path v rest).2)

/-- Set within all attributes that are option objects, up to the first exception (profiler_options.py:84-96). -/
def setAll (path : List String) (v : PV) : Fields → Fields × Option Err
  | [] => ([], none)
  | (k, o) :: rest =>
    match (setOpt path v o).2 with
    | some e => ((k, (setOpt path v o).1) :: rest, some e)
    | none => ((k, (setOpt path v o).1) :: (setAll path v rest).1, (setAll path v rest).2)
end

/-- `set(options)` (profiler_options.py:103-117): one path after the other, up to the first exception. -/
def setMany : List (List String × PV) → Opt → Opt × Option Err
  | [], o => (o, none)
  | (path, v) :: rest, o =>
    match (setOpt path v o).2 with
    | some e => ((setOpt path v o).1, some e)
    | none => setMany rest (setOpt path v o).1

/-- Options that exist twice (profiler_options.py:1794-1800). -/
def overlapOptions : List String := ["data_labeler_object", "data_labeler_dirpath", "text.is_enabled", "text.vocab"]

/-- `overlap_opt in opt`. -/
def contains (s t : List Char) : Bool := (List.range (t.length + 1)).any fun i => s.isPrefixOf (t.drop i)

/-- An ambiguous path (profiler_options.py:1802-1818). -/
def ambiguous (path : List String) : Bool :=
  decide (path.head? ∉ [some "*", some "structured_options", some "unstructured_options"]) &&
    overlapOptions.any fun o => contains o.toList (".".intercalate path).toList

/-- `ProfilerOptions.set` (profiler_options.py:1779-1829). -/
def profilerSet (options : List (List String × PV)) (o : Opt) : Opt × Option Err :=
  if options.any fun pv => ambiguous pv.1 then (o, some .valueError) else setMany options o

/-! ### Defaults -/

def flag (b : Bool) : String × Opt := ("is_enabled", .val (.bool b))
def booleanOption (b : Bool) : Opt := .obj .boolean [flag b]

/-- `HistogramAndQuantilesOption()` (profiler_options.py:217-236). -/
def histogramOption : Opt :=
  .obj .histogram [("bin_count_or_method", .val (.str "auto")), ("num_quantiles", .val (.int 1000)), flag true]

/-- `ModeOption()` (profiler_options.py:282-291). -/
def modeOption : Opt := .obj .mode [("top_k_modes", .val (.int 5)), flag true]

/-- `NumericalOptions.__init__` (profiler_options.py:401-417). -/
def numericalFields (zeros : Bool) : Fields :=
  [("min", booleanOption true), ("max", booleanOption true), ("mode", modeOption), ("median", booleanOption true),
    ("sum", booleanOption true), ("variance", booleanOption true), ("skewness", booleanOption true),
    ("kurtosis", booleanOption true), ("median_abs_deviation", booleanOption true), ("num_zeros", booleanOption zeros),
    ("num_negatives", booleanOption zeros), ("histogram_and_quantiles", histogramOption),
    ("bias_correction", booleanOption true), flag true]

/-- `IntOptions()` (profiler_options.py:585-620). -/
def intOptions : Opt := .obj .int (numericalFields true)

/-- `FloatOptions()` (profiler_options.py:717-718), with `PrecisionOptions()` (637-649). -/
def floatOptions : Opt :=
  .obj .float (numericalFields true ++ [("precision", .obj .precision [("sample_ratio", .val .none), flag true])])

/-- `TextOptions()` (profiler_options.py:776-779). -/
def textOptions : Opt := .obj .text (numericalFields false ++ [("vocab", booleanOption true)])

/-- `CategoricalOptions()` (profiler_options.py:914-959). -/
def categoricalOptions : Opt :=
  .obj .category [flag true, ("top_k_categories", .val .none), ("max_sample_size_to_check_stop_condition", .val .none),
    ("stop_condition_unique_value_ratio", .val .none), ("cms", .val (.bool false)), ("cms_confidence", .val (.float (95 / 100))),
    ("cms_relative_error", .val (.float (1 / 100))), ("cms_max_num_heavy_hitters", .val (.int 5000))]

/-- `DataLabelerOptions()` (profiler_options.py:1226-1229). -/
def dataLabelerOptions : Opt :=
  .obj .dataLabeler [flag true, ("data_labeler_dirpath", .val .none), ("max_sample_size", .val .none),
    ("data_labeler_object", .val .none)]

/-- `RowStatisticsOptions()` (profiler_options.py:1163-1183), with `UniqueCountOptions()` (1122-1133) and
`HyperLogLogOptions()` (1078-1090). -/
def rowStatisticsOptions : Opt :=
  .obj .rowStatistics [flag true,
    ("unique_count", .obj .uniqueCount [flag true, ("hashing_method", .val (.str "full")),
      ("hll", .obj .hll [("seed", .val (.int 0)), ("register_count", .val (.int 15))])]),
    ("null_count", booleanOption true)]

/-- `TextProfilerOptions()` (profiler_options.py:1339-1371). -/
def textProfilerOptions : Opt :=
  .obj .textProfiler [flag true, ("is_case_sensitive", .val (.bool true)), ("stop_words", .val .none),
    ("top_k_chars", .val .none), ("top_k_words", .val .none), ("vocab", booleanOption true), ("words", booleanOption true)]

/-- `StructuredOptions()` (profiler_options.py:1431-1489). -/
def structuredOptions : Opt :=
  .obj .structured [("multiprocess", booleanOption true), ("int", intOptions), ("float", floatOptions),
    ("datetime", .obj .datetime [flag true]), ("text", textOptions), ("order", .obj .order [flag true]),
    ("category", categoricalOptions), ("data_labeler", dataLabelerOptions),
    ("correlation", .obj .correlation [flag false, ("columns", .val .none)]), ("chi2_homogeneity", booleanOption true),
    ("null_replication_metrics", booleanOption false), ("row_statistics", rowStatisticsOptions), ("null_values", .val .none),
    ("column_null_values", .val .none), ("sampling_ratio", .val (.float (2 / 10)))]

/-- `UnstructuredOptions()` (profiler_options.py:1629-1639). -/
def unstructuredOptions : Opt := .obj .unstructured [("text", textProfilerOptions), ("data_labeler", dataLabelerOptions)]

/-- `ProfilerOptions()` without applying presets (profiler_options.py:1700-1702). -/
def profilerOptions (presets : PV) : Opt :=
  .obj .profiler [("structured_options", structuredOptions), ("unstructured_options", unstructuredOptions),
    ("presets", .val presets)]

/-- The calls of `set` of a preset (profiler_options.py:1704-1740); plugins are left out. -/
def presetCalls (name : String) : Except Err (List (List String × PV)) :=
  if name = "" then .ok []
  else if name = "complete" then .ok [(["*", "is_enabled"], .bool true)]
  else if name = "data_types" then
    .ok [(["*", "is_enabled"], .bool false), (["*", "data_labeler", "is_enabled"], .bool true)]
  else if name = "numeric_stats_disabled" then
    .ok [(["*", "int", "is_numeric_stats_enabled"], .bool false),
      (["*", "float", "is_numeric_stats_enabled"], .bool false),
      (["structured_options", "text", "is_numeric_stats_enabled"], .bool false)]
  else if name = "lower_memory_sketching" then
    .ok [(["row_statistics", "unique_count", "hashing_method"], .str "hll"),
      (["structured_options", "category", "max_sample_size_to_check_stop_condition"], .int 5000),
      (["structured_options", "category", "stop_condition_unique_value_ratio"], .float (1 / 2))]
  else .error .valueError

/-- Calls of `set` one after the other, up to the first exception. -/
def applyCalls : List (List String × PV) → Opt → Except Err Opt
  | [], o => .ok o
  | call :: rest, o =>
    match (profilerSet [call] o).2 with
    | some e => .error e
    | none => applyCalls rest (profilerSet [call] o).1

/-- `ProfilerOptions(presets)` (profiler_options.py:1687-1740). -/
def withPreset (name : String) : Except Err Opt :=
  match presetCalls name with
  | .error e => .error e
  | .ok calls => applyCalls calls (profilerOptions (.str name))

/-! ### Validation -/

/-- `options.a.b.c`; `None` if there is no such attribute. -/
def attr : Opt → List String → PV
  | .val v, [] => v
  | .obj _ fields, n :: path =>
    match PyDict.get? fields n with
    | some o => attr o path
    | none => .none
  | _, _ => .none

/-- Truth value. -/
def truthy : PV → Bool
  | .none => false
  | .bool b => b
  | .int i => i != 0
  | .float q => q != 0
  | .nan => true
  | .inf _ => true
  | .str s => s != ""
  | .list l => !l.isEmpty
  | .dict l => !l.isEmpty
  | .regexFlag n => n != 0
  | .labeler => true
  | .other t => t

/-- `value is None`. -/
def isNone : PV → Bool
  | .none => true
  | _ => false

/-- `isinstance(value, bool)`. -/
def isBool : PV → Bool
  | .bool _ => true
  | _ => false

/-- `isinstance(value, int)`: so are booleans and flags of regular expressions. -/
def isInt : PV → Bool
  | .int _ | .bool _ | .regexFlag _ => true
  | _ => false

/-- `isinstance(value, float)`. -/
def isFloat : PV → Bool
  | .float _ | .nan | .inf _ => true
  | _ => false

/-- `isinstance(value, str)`. -/
def isStr : PV → Bool
  | .str _ => true
  | _ => false

/-- The number a finite value stands for. -/
def number : PV → Option ℚ
  | .int i => some i
  | .bool b => some (if b then 1 else 0)
  | .regexFlag n => some n
  | .float q => some q
  | _ => none

/-- `value < q`, for a number. -/
def lt (v : PV) (q : ℚ) : Bool :=
  match v with
  | .inf positive => !positive
  | v => match number v with
    | some x => decide (x < q)
    | none => false

/-- `value > q`, for a number. -/
def gt (v : PV) (q : ℚ) : Bool :=
  match v with
  | .inf positive => positive
  | v => match number v with
    | some x => decide (q < x)
    | none => false

/-- `value <= q`, for a number. -/
def le (v : PV) (q : ℚ) : Bool :=
  match v with
  | .inf positive => !positive
  | v => match number v with
    | some x => decide (x ≤ q)
    | none => false

/-- A message, named by the option it is about, if a check fails. -/
def report (bad : Bool) (path : List String) : List (List String) := if bad then [path] else []

/-- `BooleanOption._validate_helper` (profiler_options.py:196-211), of the object at a path. -/
def booleanErrors (o : Opt) (p : List String) : List (List String) :=
  report (!isBool (attr o (p ++ ["is_enabled"]))) (p ++ ["is_enabled"])

/-- Methods of histograms (profiler_options.py:252). -/
def binMethods : List String := ["auto", "fd", "doane", "scott", "rice", "sturges", "sqrt"]

/-- A method of histograms. -/
def isBinMethod : PV → Bool
  | .str s => binMethods.contains s
  | _ => false

/-- The check of `bin_count_or_method` fails (profiler_options.py:251-264). -/
def badBins (v : PV) : Bool :=
  match v with
  | .none => false
  | .str s => !isBinMethod (.str s)
  | .list l => decide (l.length < 1) || !l.all isStr || !l.all isBinMethod
  | v => !(isInt v && !lt v 1)

/-- Neither `None` nor an integer of at least `least`. -/
def badCount (v : PV) (least : ℚ) : Bool := !isNone v && (!isInt v || lt v least)

/-- `HistogramAndQuantilesOption._validate_helper` (profiler_options.py:238-276). -/
def histogramErrors (o : Opt) (p : List String) : List (List String) :=
  booleanErrors o p ++
    report (badBins (attr o (p ++ ["bin_count_or_method"]))) (p ++ ["bin_count_or_method"]) ++
    report (badCount (attr o (p ++ ["num_quantiles"])) 1) (p ++ ["num_quantiles"])

/-- `ModeOption._validate_helper` (profiler_options.py:293-311). -/
def modeErrors (o : Opt) (p : List String) : List (List String) :=
  booleanErrors o p ++ report (badCount (attr o (p ++ ["top_k_modes"])) 1) (p ++ ["top_k_modes"])

/-- Whether a statistic is switched on. -/
def on (o : Opt) (p : List String) (name : String) : Bool := truthy (attr o (p ++ [name, "is_enabled"]))

/-- `NumericalOptions._validate_helper` (profiler_options.py:484-579), also of integers (622-631). -/
def numericalErrors (o : Opt) (p : List String) : List (List String) :=
  booleanErrors o p ++ histogramErrors o (p ++ ["histogram_and_quantiles"]) ++ booleanErrors o (p ++ ["min"]) ++
    booleanErrors o (p ++ ["max"]) ++ booleanErrors o (p ++ ["sum"]) ++ modeErrors o (p ++ ["mode"]) ++
    booleanErrors o (p ++ ["median"]) ++ booleanErrors o (p ++ ["variance"]) ++ booleanErrors o (p ++ ["skewness"]) ++
    booleanErrors o (p ++ ["kurtosis"]) ++ booleanErrors o (p ++ ["median_abs_deviation"]) ++
    booleanErrors o (p ++ ["bias_correction"]) ++ booleanErrors o (p ++ ["num_zeros"]) ++
    booleanErrors o (p ++ ["num_negatives"]) ++
    report (!on o p "sum" && on o p "variance") (p ++ ["variance"]) ++
    report ((!on o p "sum" || !on o p "variance") && on o p "skewness") (p ++ ["skewness"]) ++
    report ((!on o p "sum" || !on o p "variance" || !on o p "skewness") && on o p "kurtosis") (p ++ ["kurtosis"]) ++
    report (!on o p "histogram_and_quantiles" && on o p "median_abs_deviation") (p ++ ["median_abs_deviation"]) ++
    report (!on o p "histogram_and_quantiles" && on o p "mode") (p ++ ["mode"]) ++
    report (!on o p "histogram_and_quantiles" && on o p "median") (p ++ ["median"])

/-- `PrecisionOptions._validate_helper` (profiler_options.py:651-676). -/
def precisionErrors (o : Opt) (p : List String) : List (List String) :=
  let ratio := attr o (p ++ ["sample_ratio"])
  booleanErrors o p ++
    (if isNone ratio then []
    else
      report (!isFloat ratio && !isInt ratio) (p ++ ["sample_ratio"]) ++
        report ((isFloat ratio || isInt ratio) && (lt ratio 0 || gt ratio 1)) (p ++ ["sample_ratio"]))

/-- `FloatOptions._validate_helper` (profiler_options.py:720-733). -/
def floatErrors (o : Opt) (p : List String) : List (List String) :=
  numericalErrors o p ++ precisionErrors o (p ++ ["precision"])

/-- `TextOptions._validate_helper` (profiler_options.py:781-809). -/
def textErrors (o : Opt) (p : List String) : List (List String) :=
  numericalErrors o p ++ booleanErrors o (p ++ ["vocab"]) ++ report (on o p "num_zeros") (p ++ ["num_zeros"]) ++
    report (on o p "num_negatives") (p ++ ["num_negatives"])

/-- Neither `None` nor a float between 0 and 1. -/
def badRatio (v : PV) : Bool := !isNone v && (!isFloat v || lt v 0 || gt v 1)

/-- `CategoricalOptions._validate_helper` (profiler_options.py:961-1033). -/
def categoricalErrors (o : Opt) (p : List String) : List (List String) :=
  let a := fun name => attr o (p ++ [name])
  booleanErrors o p ++
    report (badCount (a "top_k_categories") 1) (p ++ ["top_k_categories"]) ++
    report (badCount (a "max_sample_size_to_check_stop_condition") 0) (p ++ ["max_sample_size_to_check_stop_condition"]) ++
    report (badRatio (a "stop_condition_unique_value_ratio")) (p ++ ["stop_condition_unique_value_ratio"]) ++
    report (isNone (a "max_sample_size_to_check_stop_condition") != isNone (a "stop_condition_unique_value_ratio")) p ++
    report (badRatio (a "cms_confidence")) (p ++ ["cms_confidence"]) ++
    report (badRatio (a "cms_relative_error")) (p ++ ["cms_relative_error"]) ++
    report (truthy (a "cms") && !isInt (a "cms_max_num_heavy_hitters")) (p ++ ["cms_max_num_heavy_hitters"])

/-- The check of the columns to correlate fails (profiler_options.py:1062-1066). -/
def badColumns : PV → Bool
  | .none => false
  | .list l => decide (l.length ≤ 1) || !l.all isStr
  | _ => true

/-- `CorrelationOptions._validate_helper` (profiler_options.py:1051-1072). -/
def correlationErrors (o : Opt) (p : List String) : List (List String) :=
  booleanErrors o p ++ report (badColumns (attr o (p ++ ["columns"]))) (p ++ ["columns"])

/-- `HyperLogLogOptions._validate_helper` (profiler_options.py:1092-1116). -/
def hllErrors (o : Opt) (p : List String) : List (List String) :=
  (if !isInt (attr o (p ++ ["register_count"])) then [p ++ ["register_count"]]
    else report (!gt (attr o (p ++ ["register_count"])) 0) (p ++ ["register_count"])) ++
    report (!isInt (attr o (p ++ ["seed"]))) (p ++ ["seed"])

/-- The check of the hashing method fails (profiler_options.py:1146-1152). -/
def badHashing : PV → Bool
  | .str s => !["full", "hll"].contains s
  | _ => true

/-- `UniqueCountOptions._validate_helper` (profiler_options.py:1135-1157). -/
def uniqueCountErrors (o : Opt) (p : List String) : List (List String) :=
  booleanErrors o p ++ report (badHashing (attr o (p ++ ["hashing_method"]))) (p ++ ["hashing_method"]) ++
    hllErrors o (p ++ ["hll"])

/-- `RowStatisticsOptions._validate_helper` (profiler_options.py:1185-1207): the messages collected about nested options
are not the ones returned. -/
def rowStatisticsErrors (o : Opt) (p : List String) : List (List String) :=
  let _errors := booleanErrors o p ++ uniqueCountErrors o (p ++ ["unique_count"]) ++ booleanErrors o (p ++ ["null_count"])
  booleanErrors o p

/-- `isinstance(value, BaseDataLabeler)`. -/
def isLabeler : PV → Bool
  | .labeler => true
  | _ => false

/-- `DataLabelerOptions._validate_helper` (profiler_options.py:1266-1304). -/
def dataLabelerErrors (o : Opt) (p : List String) : List (List String) :=
  let dirpath := attr o (p ++ ["data_labeler_dirpath"])
  let object := attr o (p ++ ["data_labeler_object"])
  let size := attr o (p ++ ["max_sample_size"])
  booleanErrors o p ++
    report (!isNone dirpath && !isStr dirpath) (p ++ ["data_labeler_dirpath"]) ++
    report (!isNone object && !isLabeler object) (p ++ ["data_labeler_object"]) ++
    (if !isNone size && !isInt size then [p ++ ["max_sample_size"]]
    else report (!isNone size && !gt size 0) (p ++ ["max_sample_size"]))

/-- The check of the stop words fails (profiler_options.py:1390-1393). -/
def badStopWords : PV → Bool
  | .none => false
  | .list l => !l.all isStr
  | _ => true

/-- `TextProfilerOptions._validate_helper` (profiler_options.py:1373-1425): the nested flags are only checked to be option
objects. -/
def textProfilerErrors (o : Opt) (p : List String) : List (List String) :=
  booleanErrors o p ++
    report (!isBool (attr o (p ++ ["is_case_sensitive"]))) (p ++ ["is_case_sensitive"]) ++
    report (badStopWords (attr o (p ++ ["stop_words"]))) (p ++ ["stop_words"]) ++
    report (badCount (attr o (p ++ ["top_k_chars"])) 1) (p ++ ["top_k_chars"]) ++
    report (badCount (attr o (p ++ ["top_k_words"])) 1) (p ++ ["top_k_words"])

/-- `value == 0`. -/
def isZero (v : PV) : Bool :=
  match number v with
  | some q => decide (q = 0)
  | none => false

/-- `isinstance(value, re.RegexFlag)`. -/
def isRegexFlag : PV → Bool
  | .regexFlag _ => true
  | _ => false

/-- Entries of a dictionary of null values (profiler_options.py:1556-1557). -/
def nullEntries (l : List (PV × PV)) : Bool := l.all fun kv => isStr kv.1 && (isRegexFlag kv.2 || isZero kv.2)

/-- The check of the null values fails (profiler_options.py:1553-1559). -/
def badNulls : PV → Bool
  | .none => false
  | .dict l => !nullEntries l
  | _ => true

/-- Null values of one column. -/
def columnEntries : PV → Bool
  | .dict l => nullEntries l
  | _ => false

/-- The check of the null values of columns fails (profiler_options.py:1567-1578). -/
def badColumnNulls : PV → Bool
  | .none => false
  | .dict l => !l.all fun kv => isInt kv.1 && columnEntries kv.2
  | _ => true

/-- `StructuredOptions._validate_helper` (profiler_options.py:1505-1623). -/
def structuredErrors (o : Opt) (p : List String) : List (List String) :=
  let ratio := attr o (p ++ ["sampling_ratio"])
  booleanErrors o (p ++ ["multiprocess"]) ++ numericalErrors o (p ++ ["int"]) ++ floatErrors o (p ++ ["float"]) ++
    booleanErrors o (p ++ ["datetime"]) ++ textErrors o (p ++ ["text"]) ++ booleanErrors o (p ++ ["order"]) ++
    categoricalErrors o (p ++ ["category"]) ++ dataLabelerErrors o (p ++ ["data_labeler"]) ++
    correlationErrors o (p ++ ["correlation"]) ++ booleanErrors o (p ++ ["chi2_homogeneity"]) ++
    booleanErrors o (p ++ ["null_replication_metrics"]) ++ rowStatisticsErrors o (p ++ ["row_statistics"]) ++
    report (badNulls (attr o (p ++ ["null_values"]))) (p ++ ["null_values"]) ++
    report (badColumnNulls (attr o (p ++ ["column_null_values"]))) (p ++ ["column_null_values"]) ++
    report (isNone ratio) (p ++ ["sampling_ratio"]) ++
    report (!isNone ratio && !isFloat ratio && !isInt ratio) (p ++ ["sampling_ratio"]) ++
    report (!isNone ratio && (isFloat ratio || isInt ratio) && !(gt ratio 0 && le ratio 1))
      (p ++ ["sampling_ratio"]) ++
    report (!on o p "category" && on o p "chi2_homogeneity") (p ++ ["chi2_homogeneity"])

/-- `UnstructuredOptions._validate_helper` (profiler_options.py:1650-1681). -/
def unstructuredErrors (o : Opt) (p : List String) : List (List String) :=
  textProfilerErrors o (p ++ ["text"]) ++ dataLabelerErrors o (p ++ ["data_labeler"])

/-- `ProfilerOptions._validate_helper` (profiler_options.py:1742-1777). -/
def profilerErrors (o : Opt) : List (List String) :=
  structuredErrors o ["structured_options"] ++ unstructuredErrors o ["unstructured_options"]

/-- `ProfilerOptions.validate()` (profiler_options.py:131-148): `ValueError` if there are messages. -/
def validate (o : Opt) : Except Err Unit := if profilerErrors o = [] then .ok () else .error .valueError

/-- `StructuredOptions.enabled_profiles` (profiler_options.py:1491-1503). -/
def enabledProfiles (o : Opt) : List String :=
  match o with
  | .obj _ fields =>
    ((fields.map Prod.fst).filter fun n => decide (n ∉ ["null_values", "column_null_values", "sampling_ratio"])).filter
      fun n => truthy (attr o [n, "is_enabled"])
  | .val _ => []

end Verif.Options
