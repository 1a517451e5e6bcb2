import Verif.Model.Options

/-!
# Specification of options

What valid options are (C33) and which options a path addresses (C34), in terms of the values found by attribute access.
-/

namespace Verif.Spec.Options

open Verif Verif.Options

/-! ### Valid options -/

/-- A Python integer and its value; booleans and flags of regular expressions are integers. -/
inductive Integer : PV → ℤ → Prop
  | int (i : ℤ) : Integer (.int i) i
  | true : Integer (.bool true) 1
  | false : Integer (.bool false) 0
  | regexFlag (n : ℕ) : Integer (.regexFlag n) n

/-- A finite Python number and its value. -/
inductive Number : PV → ℚ → Prop
  | float (q : ℚ) : Number (.float q) q
  | integer {v : PV} {i : ℤ} (h : Integer v i) : Number v i

/-- A boolean. -/
def IsFlag (v : PV) : Prop := ∃ b, v = .bool b

/-- `None` or an integer of at least `least`. -/
def Count (least : ℤ) (v : PV) : Prop := v = .none ∨ ∃ n, Integer v n ∧ least ≤ n

/-- `None` or a float between 0 and 1. -/
def UnitFloat (v : PV) : Prop := v = .none ∨ ∃ q, v = .float q ∧ 0 ≤ q ∧ q ≤ 1

/-- The name of a method to choose bins. -/
def BinMethod (v : PV) : Prop :=
  v = .str "auto" ∨ v = .str "fd" ∨ v = .str "doane" ∨ v = .str "scott" ∨ v = .str "rice" ∨ v = .str "sturges" ∨
    v = .str "sqrt"

/-- A string. -/
def Str (v : PV) : Prop := ∃ s, v = .str s

/-- `None`, a positive number of bins, a method or a nonempty list of methods. -/
def Bins (v : PV) : Prop :=
  v = .none ∨ (∃ n, Integer v n ∧ 1 ≤ n) ∨ BinMethod v ∨ ∃ l, v = .list l ∧ l ≠ [] ∧ ∀ x ∈ l, BinMethod x

/-- Entries of null values: strings with a flag of regular expressions or 0. -/
def NullEntries (l : List (PV × PV)) : Prop := ∀ kv ∈ l, Str kv.1 ∧ ((∃ n, kv.2 = .regexFlag n) ∨ Number kv.2 0)

variable (o : Opt)

/-- The flag `is_enabled` at a path is a boolean. -/
def FlagAt (p : List String) : Prop := IsFlag (attr o (p ++ ["is_enabled"]))

/-- A statistic is enabled. -/
def Enabled (p : List String) (name : String) : Prop := attr o (p ++ [name, "is_enabled"]) = .bool true

/-- Valid options of a numeric column. -/
structure ValidNumeric (p : List String) : Prop where
  own : FlagAt o p
  flags : ∀ n ∈ ["min", "max", "mode", "median", "sum", "variance", "skewness", "kurtosis", "median_abs_deviation",
    "num_zeros", "num_negatives", "histogram_and_quantiles", "bias_correction"], FlagAt o (p ++ [n])
  bins : Bins (attr o (p ++ ["histogram_and_quantiles", "bin_count_or_method"]))
  quantiles : Count 1 (attr o (p ++ ["histogram_and_quantiles", "num_quantiles"]))
  modes : Count 1 (attr o (p ++ ["mode", "top_k_modes"]))
  variance : Enabled o p "variance" → Enabled o p "sum"
  skewness : Enabled o p "skewness" → Enabled o p "sum" ∧ Enabled o p "variance"
  kurtosis : Enabled o p "kurtosis" → Enabled o p "sum" ∧ Enabled o p "variance" ∧ Enabled o p "skewness"
  mad : Enabled o p "median_abs_deviation" → Enabled o p "histogram_and_quantiles"
  mode : Enabled o p "mode" → Enabled o p "histogram_and_quantiles"
  median : Enabled o p "median" → Enabled o p "histogram_and_quantiles"

/-- Valid options of a column of floats. -/
structure ValidFloat (p : List String) : Prop where
  numeric : ValidNumeric o p
  precision : FlagAt o (p ++ ["precision"])
  ratio : attr o (p ++ ["precision", "sample_ratio"]) = .none ∨
    ∃ q, Number (attr o (p ++ ["precision", "sample_ratio"])) q ∧ 0 ≤ q ∧ q ≤ 1

/-- Valid options of a column of text. -/
structure ValidText (p : List String) : Prop where
  numeric : ValidNumeric o p
  vocab : FlagAt o (p ++ ["vocab"])
  zeros : ¬ Enabled o p "num_zeros"
  negatives : ¬ Enabled o p "num_negatives"

/-- The values that count as false: none, the number zero and whatever is empty. -/
def Falsy (v : PV) : Prop :=
  v = .none ∨ v = .bool false ∨ v = .int 0 ∨ v = .float 0 ∨ v = .str "" ∨ v = .list [] ∨ v = .dict [] ∨ v = .regexFlag 0 ∨ v = .other false

/-- Valid options of a categorical column. -/
structure ValidCategory (p : List String) : Prop where
  own : FlagAt o p
  top : Count 1 (attr o (p ++ ["top_k_categories"]))
  size : Count 0 (attr o (p ++ ["max_sample_size_to_check_stop_condition"]))
  ratio : UnitFloat (attr o (p ++ ["stop_condition_unique_value_ratio"]))
  both : attr o (p ++ ["max_sample_size_to_check_stop_condition"]) = .none ↔
    attr o (p ++ ["stop_condition_unique_value_ratio"]) = .none
  confidence : UnitFloat (attr o (p ++ ["cms_confidence"]))
  error : UnitFloat (attr o (p ++ ["cms_relative_error"]))
  hitters : ¬ Falsy (attr o (p ++ ["cms"])) → ∃ n, Integer (attr o (p ++ ["cms_max_num_heavy_hitters"])) n

/-- Valid options of a data labeler. -/
structure ValidLabeler (p : List String) : Prop where
  own : FlagAt o p
  dirpath : attr o (p ++ ["data_labeler_dirpath"]) = .none ∨ Str (attr o (p ++ ["data_labeler_dirpath"]))
  object : attr o (p ++ ["data_labeler_object"]) = .none ∨ attr o (p ++ ["data_labeler_object"]) = .labeler
  size : Count 1 (attr o (p ++ ["max_sample_size"]))

/-- Valid options of correlations. -/
structure ValidCorrelation (p : List String) : Prop where
  own : FlagAt o p
  columns : attr o (p ++ ["columns"]) = .none ∨
    ∃ l, attr o (p ++ ["columns"]) = .list l ∧ 2 ≤ l.length ∧ ∀ x ∈ l, Str x

/-- Valid options nested in those of row statistics. -/
structure ValidRowNested (p : List String) : Prop where
  unique : FlagAt o (p ++ ["unique_count"])
  hashing : attr o (p ++ ["unique_count", "hashing_method"]) = .str "full" ∨
    attr o (p ++ ["unique_count", "hashing_method"]) = .str "hll"
  registers : ∃ n, Integer (attr o (p ++ ["unique_count", "hll", "register_count"])) n ∧ 0 < n
  seed : ∃ n, Integer (attr o (p ++ ["unique_count", "hll", "seed"])) n
  nulls : FlagAt o (p ++ ["null_count"])

/-- Valid options of structured data. -/
structure ValidStructured (p : List String) : Prop where
  flags : ∀ n ∈ ["multiprocess", "datetime", "order", "chi2_homogeneity", "null_replication_metrics", "row_statistics"],
    FlagAt o (p ++ [n])
  int : ValidNumeric o (p ++ ["int"])
  float : ValidFloat o (p ++ ["float"])
  text : ValidText o (p ++ ["text"])
  category : ValidCategory o (p ++ ["category"])
  labeler : ValidLabeler o (p ++ ["data_labeler"])
  correlation : ValidCorrelation o (p ++ ["correlation"])
  rows : ValidRowNested o (p ++ ["row_statistics"])
  nulls : attr o (p ++ ["null_values"]) = .none ∨ ∃ l, attr o (p ++ ["null_values"]) = .dict l ∧ NullEntries l
  columnNulls : attr o (p ++ ["column_null_values"]) = .none ∨ ∃ l, attr o (p ++ ["column_null_values"]) = .dict l ∧
    ∀ kv ∈ l, (∃ n, Integer kv.1 n) ∧ ∃ l', kv.2 = .dict l' ∧ NullEntries l'
  sampling : ∃ q, Number (attr o (p ++ ["sampling_ratio"])) q ∧ 0 < q ∧ q ≤ 1
  chi2 : Enabled o p "chi2_homogeneity" → Enabled o p "category"

/-- Valid options nested in those of unstructured text. -/
def ValidTextNested (p : List String) : Prop := FlagAt o (p ++ ["vocab"]) ∧ FlagAt o (p ++ ["words"])

/-- Valid options of unstructured data. -/
structure ValidUnstructured (p : List String) : Prop where
  own : FlagAt o (p ++ ["text"])
  case : IsFlag (attr o (p ++ ["text", "is_case_sensitive"]))
  stops : attr o (p ++ ["text", "stop_words"]) = .none ∨
    ∃ l, attr o (p ++ ["text", "stop_words"]) = .list l ∧ ∀ x ∈ l, Str x
  chars : Count 1 (attr o (p ++ ["text", "top_k_chars"]))
  words : Count 1 (attr o (p ++ ["text", "top_k_words"]))
  nested : ValidTextNested o (p ++ ["text"])
  labeler : ValidLabeler o (p ++ ["data_labeler"])

/-- Valid options of a profiler. -/
def Valid : Prop := ValidStructured o ["structured_options"] ∧ ValidUnstructured o ["unstructured_options"]

/-! ### Addressed options -/

/-- An option object has an attribute of a name: its own, or the switch of all numeric statistics. -/
def Has (cls : Cls) (fields : Fields) (n : String) : Prop :=
  n ∈ PyDict.keys fields ∨ n = "is_numeric_stats_enabled" ∧ cls ∈ [Cls.int, .float, .text]

/-- The statistics the switch of all numeric statistics stands for. -/
def Statistic (cls : Cls) (n : String) : Prop :=
  n ∈ ["min", "max", "mode", "median", "sum", "variance", "skewness", "kurtosis", "median_abs_deviation",
    "histogram_and_quantiles"] ∨ cls ∈ [Cls.int, .float] ∧ n ∈ ["num_zeros", "num_negatives"]

/-- The value at a position: a list of attribute names leading to it. -/
def valueAt : Opt → List String → Option PV
  | .val v, [] => some v
  | .obj _ fields, n :: path => (PyDict.get? fields n).bind fun o => valueAt o path
  | _, _ => none

/-- The name a path looks for, and what follows. -/
def Looks (path : List String) (n : String) (rest : List String) : Prop :=
  n ≠ "*" ∧ path = n :: rest ∨ path = "*" :: n :: rest

/-- The name is the switch of all numeric statistics of the class. -/
def Switch (cls : Cls) (n : String) : Prop := n = "is_numeric_stats_enabled" ∧ cls ∈ [Cls.int, .float, .text]

/-- `Addressed o path position`: searching down from `o` for the first segment of the path, not below an object that has
it; the remaining segments are looked for in the same way from there. Without dots and star only `o` itself is searched. -/
inductive Addressed : Opt → List String → List String → Prop
  | here {cls : Cls} {fields : Fields} {path : List String} {n : String} {v : PV} (hl : Looks path n [])
      (hv : PyDict.get? fields n = some (.val v)) (hs : ¬ Switch cls n) : Addressed (.obj cls fields) path [n]
  | switch {cls c : Cls} {fields fs : Fields} {path : List String} {s n : String} (hl : Looks path s [])
      (hs : Switch cls s) (hn : Statistic cls n) (hv : PyDict.get? fields n = some (.obj c fs)) :
      Addressed (.obj cls fields) path [n, "is_enabled"]
  | into {cls c : Cls} {fields fs : Fields} {path rest position : List String} {n : String} (hl : Looks path n rest)
      (hr : rest ≠ []) (hv : PyDict.get? fields n = some (.obj c fs)) (h : Addressed (.obj c fs) rest position) :
      Addressed (.obj cls fields) path (n :: position)
  | descend {cls c : Cls} {fields fs : Fields} {path rest position : List String} {n m : String} (hl : Looks path n rest)
      (hr : rest ≠ [] ∨ path = "*" :: n :: rest) (hn : ¬ Has cls fields n)
      (hv : PyDict.get? fields m = some (.obj c fs)) (h : Addressed (.obj c fs) path position) :
      Addressed (.obj cls fields) path (m :: position)

/-- What is found at a position: nothing, a value, or an option object of a class. -/
def kindAt : Opt → List String → Option (Option Cls)
  | .val _, [] => some none
  | .obj c _, [] => some (some c)
  | .obj _ fields, n :: path => (PyDict.get? fields n).bind fun o => kindAt o path
  | .val _, _ :: _ => none

/-- The statistics of numeric columns have a flag, as all options created by the library. -/
def Flagged (o : Opt) : Prop :=
  ∀ position cls n c, kindAt o position = some (some cls) → cls ∈ [Cls.int, .float, .text] → Statistic cls n →
    kindAt o (position ++ [n]) = some (some c) → kindAt o (position ++ [n, "is_enabled"]) = some none

/-- A path that names an option of both structured and unstructured data without saying which. -/
def Unclear (path : List String) : Prop :=
  (∀ first ∈ path.head?, first ≠ "*" ∧ first ≠ "structured_options" ∧ first ≠ "unstructured_options") ∧
    ∃ name ∈ ["data_labeler_object", "data_labeler_dirpath", "text.is_enabled", "text.vocab"],
      name.toList <:+: (".".intercalate path).toList

end Verif.Spec.Options
