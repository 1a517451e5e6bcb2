import Mathlib.Data.Nat.Notation
import Verif.Model.ColumnJson

/-!
# What saving a column profile as JSON and loading it is to give

`Same v w`: the value `w` can stand for `v`. Numbers are the same numbers, whether Python's or numpy's; containers are of the same kind
with the same keys in the same order; objects are of the same class with the same attributes.

`ColumnOk`, `CompilerOk`, `OptionOk`, `StructuredOk`: the objects that are to survive, by the attributes they have and the kind of value
of each attribute.
-/

namespace Verif.Spec.ColumnJson

open Verif
open Verif.Schema (Key)
open Verif.ColumnJson (Lib Val Dict Cls Factory)

variable {F T L : Type}

/-- The number a value is. -/
def number : Val F T L → Option (ℤ ⊕ F)
  | .int z => some (.inl z)
  | .npInt z => some (.inl z)
  | .flag z => some (.inl z)
  | .float f => some (.inr f)
  | .npFloat f => some (.inr f)
  | _ => none

/-- The moment a value is. -/
def moment : Val F T L → Option T
  | .stamp t => some t
  | .date t => some t
  | _ => none

/-- `w` can stand for `v`. -/
inductive Same (lib : Lib F T L) : Val F T L → Val F T L → Prop where
  | none : Same lib .none .none
  | bool (b) : Same lib (.bool b) (.bool b)
  | str (s) : Same lib (.str s) (.str s)
  | func (s) : Same lib (.func s) (.func s)
  | num {v w x} : number v = some x → number w = some x → Same lib v w
  | time {v w t} : moment v = some t → moment w = some t → Same lib v w
  | labeler {l m s} : lib.location l = some s → lib.location m = some s → Same lib (.labeler l) (.labeler m)
  | list {l m} : l.length = m.length → (∀ (i : ℕ) v w, l[i]? = some v → m[i]? = some w → Same lib v w) → Same lib (.list l) (.list m)
  | set {l m} : l.length = m.length → (∀ (i : ℕ) v w, l[i]? = some v → m[i]? = some w → Same lib v w) → Same lib (.set l) (.set m)
  | array {v w} : Same lib v w → Same lib (.array v) (.array w)
  | dict {d e} : d.map Prod.fst = e.map Prod.fst → (∀ k v w, PyDict.get? d k = some v → PyDict.get? e k = some w → Same lib v w) →
      Same lib (.dict d) (.dict e)
  | ddict {f d e} : d.map Prod.fst = e.map Prod.fst →
      (∀ k v w, PyDict.get? d k = some v → PyDict.get? e k = some w → Same lib v w) → Same lib (.ddict f d) (.ddict f e)
  /-- A `defaultdict` can stand for a dictionary. -/
  | default {f d e} : d.map Prod.fst = e.map Prod.fst →
      (∀ k v w, PyDict.get? d k = some v → PyDict.get? e k = some w → Same lib v w) → Same lib (.dict d) (.ddict f e)
  | obj {c a b} : (∀ k, k ∈ a.map Prod.fst ↔ k ∈ b.map Prod.fst) →
      (∀ k v w, PyDict.get? a k = some v → PyDict.get? b k = some w → Same lib v w) → Same lib (.obj c a) (.obj c b)

/-- The keys of a dictionary are different strings. -/
def StrKeys (d : List (Key × Val F T L)) : Prop := (d.map Prod.fst).Nodup ∧ ∀ k ∈ d.map Prod.fst, ∃ s, k = .str s

/-- Values that JSON has: no arrays, sets, dates, integers as keys, functions or objects. -/
inductive Plain : Val F T L → Prop where
  | none : Plain .none
  | bool (b) : Plain (.bool b)
  | str (s) : Plain (.str s)
  | num {v x} : number v = some x → Plain v
  | list {l} : (∀ v ∈ l, Plain v) → Plain (.list l)
  | dict {d} : StrKeys d → (∀ k v, (k, v) ∈ d → Plain v) → Plain (.dict d)

/-- A dictionary of plain values. -/
def PlainDict (d : List (Key × Val F T L)) : Prop := StrKeys d ∧ ∀ k v, (k, v) ∈ d → Plain v

/-- Values that can be written: no sketches, and labelers have a place in the library. -/
inductive Writable (lib : Lib F T L) : Val F T L → Prop where
  | none : Writable lib .none
  | bool (b) : Writable lib (.bool b)
  | str (s) : Writable lib (.str s)
  | func (s) : Writable lib (.func s)
  | num {v x} : number v = some x → Writable lib v
  | time {v t} : moment v = some t → Writable lib v
  | labeler {l s} : lib.location l = some s → Writable lib (.labeler l)
  | list {l} : (∀ v ∈ l, Writable lib v) → Writable lib (.list l)
  | set {l} : (∀ v ∈ l, Writable lib v) → Writable lib (.set l)
  | array {v} : Writable lib v → Writable lib (.array v)
  | dict {d} : (∀ k v, (k, v) ∈ d → Writable lib v) → Writable lib (.dict d)
  | ddict {f d} : (∀ k v, (k, v) ∈ d → Writable lib v) → Writable lib (.ddict f d)
  | obj {c a} : (∀ k v, (k, v) ∈ a → Writable lib v) → Writable lib (.obj c a)

/-- What is asked of the libraries: integers are read as they were written, and the library has the labelers it has a place for. -/
structure LibOk (lib : Lib F T L) : Prop where
  ints : ∀ z, lib.parseInt (lib.fmt z) = some z
  fmt : ∀ y z, lib.fmt y = lib.fmt z → y = z
  labelers : ∀ l s, lib.location l = some s → ∃ m, lib.library s = .ok m ∧ lib.location m = some s

/-! ### Kinds of attributes -/

/-- A float or nothing. -/
def OptFloat (v : Val F T L) : Prop := v = .none ∨ ∃ f, v = .float f ∨ v = .npFloat f

/-- An integer or nothing. -/
def OptInt (v : Val F T L) : Prop := v = .none ∨ ∃ z, v = .int z ∨ v = .npInt z

/-- A float. -/
def AFloat (v : Val F T L) : Prop := ∃ f, v = .float f ∨ v = .npFloat f

/-- Seconds by name of a calculation. -/
def Times (v : Val F T L) : Prop := ∃ d, v = .ddict .float d ∧ PlainDict d

/-- Methods by name of a calculation. -/
def Calculations (methods : List String) (v : Val F T L) : Prop :=
  ∃ d, v = .dict d ∧ StrKeys d ∧ ∀ k w, (k, w) ∈ d → ∃ f ∈ methods, w = .func f

/-- Bin counts and edges: arrays, or nothing. -/
def Bins (v : Val F T L) : Prop :=
  ∃ d, v = .dict d ∧ StrKeys d ∧ ∀ k w, (k, w) ∈ d → w = .none ∨ ∃ l, w = .array (.list l) ∧ Plain (.list l)

/-- A histogram with its losses. -/
def Histogram (v : Val F T L) : Prop :=
  ∃ d, v = .dict d ∧ StrKeys d ∧ (∀ k w, (k, w) ∈ d → k ≠ .str "histogram" → Plain w) ∧
    (∃ w, (.str "total_loss", w) ∈ d ∧ OptFloat w) ∧ (∃ w, (.str "current_loss", w) ∈ d ∧ OptFloat w) ∧
    ∃ w, (.str "histogram", w) ∈ d ∧ Bins w

/-- Histograms by method. -/
def Histograms (v : Val F T L) : Prop := ∃ d, v = .dict d ∧ StrKeys d ∧ ∀ k w, (k, w) ∈ d → Histogram w

/-- Statistics of the precision. -/
def Precision (v : Val F T L) : Prop :=
  ∃ d, v = .dict d ∧ PlainDict d ∧
    ∀ s ∈ ["min", "max", "sum", "mean", "biased_var"], ∃ w, (.str s, w) ∈ d ∧ OptFloat w

/-- A moment the library reads as it was written, or nothing. -/
def OptMoment (lib : Lib F T L) (v : Val F T L) : Prop :=
  v = .none ∨ ∃ t, moment v = some t ∧ lib.timestamp (lib.iso t) = .ok t

/-- Counts of categories. -/
def Categories (v : Val F T L) : Prop := ∃ d, (v = .dict d ∨ v = .ddict .int d) ∧ PlainDict d

/-- Names by number, or nothing. -/
def Mapping (v : Val F T L) : Prop :=
  v = .none ∨ ∃ d, v = .dict d ∧ (d.map Prod.fst).Nodup ∧ (∀ k ∈ d.map Prod.fst, ∃ z, k = .int z) ∧ ∀ k w, (k, w) ∈ d → Plain w

/-- An array of plain values, or nothing. -/
def OptArray (v : Val F T L) : Prop := v = .none ∨ ∃ l, v = .array (.list l) ∧ Plain (.list l)

/-- A labeler of the library. -/
def ALabeler (lib : Lib F T L) (v : Val F T L) : Prop := ∃ l s, v = .labeler l ∧ lib.location l = some s

/-- The type of values of an order. -/
def StoreType (v : Val F T L) : Prop := v = .func "str" ∨ v = .func "float64"

/-! ### Column profiles -/

/-- The attributes every profile of a class has. -/
def required : Cls → List String
  | .int => numeric ++ base ++ ["match_count", "_IntColumn__calculations"]
  | .float =>
    numeric ++ base ++ ["match_count", "_precision", "_FloatColumn__z_value_precision", "_FloatColumn__precision_sample_ratio",
      "_FloatColumn__calculations"]
  | .text => numeric ++ base ++ ["match_count", "vocab", "_TextColumn__calculations"]
  | .datetime =>
    base ++ ["match_count", "date_formats", "min", "max", "_dt_obj_min", "_dt_obj_max", "_DateTimeColumn__calculations"]
  | .order =>
    base ++ ["order", "_last_value", "_first_value", "_data_store_type", "_piecewise", "_OrderColumn__calculations"]
  | .category =>
    base ++ ["_categories", "_CategoricalColumn__calculations", "_top_k_categories", "max_sample_size_to_check_stop_condition",
      "stop_condition_unique_value_ratio", "_stop_condition_is_met", "_stopped_at_unique_ratio", "_stopped_at_unique_count",
      "_cms_max_num_heavy_hitters", "cms_num_hashes", "cms_num_buckets", "cms"]
  | .labeler =>
    base ++ ["_max_sample_size", "data_labeler", "_reverse_label_mapping", "_possible_data_labels", "_rank_distribution",
      "_sum_predictions", "_top_k_voting", "_min_voting_prob", "_min_prob_differential", "_top_k_labels", "_min_top_label_prob",
      "_DataLabelerColumn__calculations"]
where
  base := ["name", "col_index", "sample_size", "metadata", "times", "thread_safe"]
  numeric := ["min", "max", "_top_k_modes", "sum", "_biased_variance", "_biased_skewness", "_biased_kurtosis", "_median_is_enabled",
    "_median_abs_dev_is_enabled", "max_histogram_bin", "min_histogram_bin", "histogram_bin_method_names", "histogram_selection",
    "user_set_histogram_bin", "bias_correction", "_mode_is_enabled", "num_zeros", "num_negatives", "_num_quantiles",
    "histogram_methods", "_stored_histogram", "_batch_history", "quantiles", "_NumericStatsMixin__calculations"]

/-- The attributes some profiles of a class have as well. -/
def possible : Cls → List String
  | .text => ["type"]
  | _ => []

/-- The methods a profile of a class computes with. -/
def methods : Cls → List String
  | .int => numeric
  | .float => "_update_precision" :: numeric
  | .text => "_update_vocab" :: numeric
  | _ => []
where
  numeric := ["_get_min", "_get_max", "_get_sum", "_get_variance", "_get_skewness", "_get_kurtosis", "_get_histogram_and_quantiles",
    "_get_num_zeros", "_get_num_negatives"]

/-- Whether a class is one of numbers. -/
def isNumeric (c : Cls) : Prop := c = .int ∨ c = .float ∨ c = .text

/-- The kind of the value of an attribute. -/
def Fits (lib : Lib F T L) (c : Cls) (k : String) (v : Val F T L) : Prop :=
  if k = "times" then Times v
  else if k ∈ ["_NumericStatsMixin__calculations", "_IntColumn__calculations", "_FloatColumn__calculations", "_TextColumn__calculations",
      "_DateTimeColumn__calculations", "_OrderColumn__calculations", "_CategoricalColumn__calculations",
      "_DataLabelerColumn__calculations"] then Calculations (methods c) v
  else if k = "_stored_histogram" then Histogram v
  else if k = "histogram_methods" then Histograms v
  else if k ∈ ["min", "max", "sum"] ∧ c ≠ .datetime then OptFloat v
  else if k ∈ ["num_zeros", "num_negatives"] then OptInt v
  else if k ∈ ["_biased_variance", "_biased_skewness", "_biased_kurtosis"] then AFloat v
  else if k = "_precision" then Precision v
  else if k ∈ ["_dt_obj_min", "_dt_obj_max"] then OptMoment lib v
  else if k = "_categories" then Categories v
  else if k = "_reverse_label_mapping" then Mapping v
  else if k = "_sum_predictions" then OptArray v
  else if k = "data_labeler" then ALabeler lib v
  else if k = "_data_store_type" then StoreType v
  else Plain v

/-- A column profile that survives: it has the attributes of its class, each of its kind, and an order of numbers has seen numbers, or
nothing yet. -/
structure ColumnOk (lib : Lib F T L) (c : Cls) (a : Dict F T L) : Prop where
  nodup : (a.map Prod.fst).Nodup
  has : ∀ s ∈ required c, .str s ∈ a.map Prod.fst
  only : ∀ k ∈ a.map Prod.fst, ∃ s, k = .str s ∧ (s ∈ required c ∨ s ∈ possible c)
  fits : ∀ s v, (.str s, v) ∈ a → Fits lib c s v
  order : (.str "_data_store_type", .func "float64") ∈ a →
    (.str "sample_size", .int 0) ∈ a ∨ ∃ v w, (.str "_first_value", v) ∈ a ∧ (.str "_last_value", w) ∈ a ∧ AFloat v ∧ AFloat w

/-! ### Compilers -/

/-- The profiles of a compiler, in order. -/
def members : String → List (String × Cls)
  | "ColumnPrimitiveTypeProfileCompiler" => [("datetime", .datetime), ("int", .int), ("float", .float), ("text", .text)]
  | "ColumnStatsProfileCompiler" => [("order", .order), ("category", .category)]
  | "ColumnDataLabelerCompiler" => [("data_labeler", .labeler)]
  | _ => []

/-- A compiler that survives. -/
def CompilerOk (lib : Lib F T L) (v : Val F T L) : Prop :=
  ∃ c a name d, v = .obj c a ∧ members c ≠ [] ∧ (a = [(.str "name", name), (.str "_profiles", .dict d)]) ∧ Plain name ∧
    (d.map Prod.fst).Sublist ((members c).map fun m => Key.str m.1) ∧
    ∀ s k w, (s, k) ∈ members c → (.str s, w) ∈ d → ∃ b, w = .obj (name' k) b ∧ ColumnOk lib k b
where
  /-- The name of a class. -/
  name' : Cls → String
  | .int => "IntColumn"
  | .float => "FloatColumn"
  | .text => "TextColumn"
  | .datetime => "DateTimeColumn"
  | .order => "OrderColumn"
  | .category => "CategoricalColumn"
  | .labeler => "DataLabelerColumn"

/-! ### Options -/

/-- The classes of options. -/
def optionNames : List String :=
  ["BooleanOption", "HistogramAndQuantilesOption", "ModeOption", "BaseInspectorOptions", "NumericalOptions", "IntOptions",
    "PrecisionOptions", "FloatOptions", "TextOptions", "DateTimeOptions", "OrderOptions", "CategoricalOptions", "CorrelationOptions",
    "UniqueCountOptions", "HyperLogLogOptions", "RowStatisticsOptions", "DataLabelerOptions", "TextProfilerOptions",
    "StructuredOptions", "UnstructuredOptions", "ProfilerOptions"]

/-- A plain value that is no dictionary with the key `class`. -/
def Unclassed (v : Val F T L) : Prop := Plain v ∧ ∀ d, v = .dict d → .str "class" ∉ d.map Prod.fst

/-- Options that survive: attributes are options or plain values, the attributes are at least those of a new object, and the labeler
is one of the library. -/
inductive OptionOk (lib : Lib F T L) (new : String → Dict F T L) : Val F T L → Prop where
  | obj {c a} : c ∈ optionNames → StrKeys a → (∀ k ∈ (new c).map Prod.fst, k ∈ a.map Prod.fst) →
      (∀ k v, (k, v) ∈ a → (∀ c' b, v = .obj c' b → OptionOk lib new v)) →
      (∀ k v, (k, v) ∈ a → (∃ c' b, v = .obj c' b) ∨ Unclassed v ∨
        (c = "DataLabelerOptions" ∧ k = .str "data_labeler_object" ∧ ALabeler lib v)) →
      (∀ v, c = "DataLabelerOptions" → (.str "data_labeler_object", v) ∈ a → v = .none ∨ ALabeler lib v) → OptionOk lib new (.obj c a)

/-- New options for labels have no labeler. -/
def NewOk (new : String → Dict F T L) : Prop :=
  (∀ c, ((new c).map Prod.fst).Nodup) ∧ PyDict.get? (new "DataLabelerOptions") (.str "data_labeler_object") = some .none

/-! ### Columns -/

/-- The attributes of a column. -/
def columnNames : List String :=
  ["name", "options", "_min_sample_size", "_sampling_ratio", "_min_true_samples", "sample_size", "sample", "null_count", "null_ratio",
    "null_types", "null_types_index", "_min_id", "_max_id", "_index_shift", "_last_batch_size", "profiles", "_null_values"]

/-- Flags of regular expressions by expression. -/
def Flags (v : Val F T L) : Prop := ∃ d, v = .dict d ∧ StrKeys d ∧ ∀ k w, (k, w) ∈ d → ∃ z, w = .int z ∨ w = .flag z

/-- Rows by kind of missing value. -/
def Rows (v : Val F T L) : Prop :=
  ∃ d, v = .dict d ∧ StrKeys d ∧ ∀ k w, (k, w) ∈ d → ∃ l, w = .set l ∧ ∀ x ∈ l, ∃ n, number x = some n

/-- Compilers by name. -/
def Profiles (lib : Lib F T L) (v : Val F T L) : Prop := ∃ d, v = .dict d ∧ StrKeys d ∧ ∀ k w, (k, w) ∈ d → CompilerOk lib w

/-- A column that survives. -/
structure StructuredOk (lib : Lib F T L) (new : String → Dict F T L) (a : Dict F T L) : Prop where
  nodup : (a.map Prod.fst).Nodup
  names : ∀ k, k ∈ a.map Prod.fst ↔ ∃ s ∈ columnNames, k = .str s
  profiles : ∀ v, (.str "profiles", v) ∈ a → Profiles lib v
  options : ∀ v, (.str "options", v) ∈ a → v = .none ∨ OptionOk lib new v
  flags : ∀ v, (.str "_null_values", v) ∈ a → Flags v
  rows : ∀ v, (.str "null_types_index", v) ∈ a → Rows v
  rest : ∀ s v, (.str s, v) ∈ a → s ∉ ["profiles", "options", "_null_values", "null_types_index"] → Plain v

end Verif.Spec.ColumnJson
