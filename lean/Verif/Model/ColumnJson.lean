import Mathlib.Data.Rat.Defs
import Verif.Model.Basic
import Verif.Model.PyDict
import Verif.Model.Schema

/-!
# Column profiles as JSON

Models `ProfileEncoder` (dataprofiler/profilers/json_encoder.py:21-74) and the loading of what it writes:
`load_column_profile`, `load_compiler`, `load_option`, `load_structured_col_profiler` (json_decoder.py:23-276) and `load_from_dict` of
every column profile, compiler, option and of `StructuredColProfiler`. The profiler around the columns is in `Verif.Model.Persist`.

Floating point numbers, dates and data labelers are of arbitrary types; what the libraries do with them is in `Lib`.

Simplifications
* writing and reading a file of JSON is one function: Python's `json` writes every float, `NaN` and infinities included, so that it
  reads the same one; keys of dictionaries are strings or integers;
* an array is what `tolist` returns, without its type;
* a set is an enumeration of its elements, and `set` of a list keeps the list (the lists written are enumerations of sets);
* a function of a column profile is its name, and the only methods a column profile has are those its constructors refer to;
* the labelers kept in `config` for later columns (profiler_utils.py:871-905) are what the library loads, so they are not kept.
-/

namespace Verif.ColumnJson

open Verif
open Verif.Schema (Key)

instance : Coe String Key := ⟨Key.str⟩

/-- What libraries do: floats of numbers and of strings (`np.float64`), `NaN`, `str` and `int` of integers, `isoformat` and
`pd.Timestamp`, and the library of labelers. -/
structure Lib (F T L : Type) where
  ofRat : ℚ → F
  nan : F
  isNan : F → Bool
  parseFloat : String → Option F
  fmt : ℤ → String
  parseInt : String → Option ℤ
  iso : T → String
  timestamp : String → Except Err T
  location : L → Option String
  library : String → Except Err L
  newLabeler : Except Err L

/-- What a `defaultdict` makes of missing keys. -/
inductive Factory where
  | int
  | float
  deriving DecidableEq

/-- The values attributes of profiles have. `npInt` and `npFloat` are numpy's, `func` is a function or class with its name, `flag` a flag
of a regular expression, `sketch` a sketch of the `datasketches` library, `obj` an object of this library. -/
inductive Val (F T L : Type) where
  | none
  | bool (b : Bool)
  | int (z : ℤ)
  | float (f : F)
  | str (s : String)
  | npInt (z : ℤ)
  | npFloat (f : F)
  | list (l : List (Val F T L))
  | set (l : List (Val F T L))
  | array (v : Val F T L)
  | dict (d : List (Key × Val F T L))
  | ddict (f : Factory) (d : List (Key × Val F T L))
  | stamp (t : T)
  | date (t : T)
  | func (name : String)
  | flag (z : ℤ)
  | labeler (l : L)
  | sketch
  | obj (cls : String) (attrs : List (Key × Val F T L))

variable {F T L : Type}

/-- A dictionary, and the attributes of an object. -/
abbrev Dict (F T L : Type) := PyDict Key (Val F T L)

/-! ### Writing and reading -/

/-- The key of a JSON object: integers are written as strings. -/
def jsonKey (lib : Lib F T L) : Key → Key
  | .str s => .str s
  | .int n => .str (lib.fmt n)

/-- A dictionary of the pairs that were read: the last of equal keys wins. -/
def fromPairs (l : List (Key × Val F T L)) : Dict F T L := l.foldl (fun acc kv => PyDict.set acc kv.1 kv.2) []

mutual
/-- A value written by `json.dump` with `ProfileEncoder` (json_encoder.py:24-74) and read by `json.load`. -/
def dump (lib : Lib F T L) : Val F T L → Except Err (Val F T L)
  | .none => .ok .none
  | .bool b => .ok (.bool b)
  | .int z => .ok (.int z)
  | .float f => .ok (.float f)
  | .str s => .ok (.str s)
  | .npInt z => .ok (.int z)
  | .npFloat f => .ok (.float f)
  | .list l => (dumpList lib l).map .list
  | .set l => (dumpList lib l).map .list
  | .array v => dump lib v
  | .dict d => (dumpPairs lib d).map fun r => .dict (fromPairs r)
  | .ddict _ d => (dumpPairs lib d).map fun r => .dict (fromPairs r)
  | .stamp t => .ok (.str (lib.iso t))
  | .date t => .ok (.str (lib.iso t))
  | .func n => .ok (.str n)
  | .flag z => .ok (.int z)
  | .labeler l =>
    match lib.location l with
    | Option.none => .error .valueError
    | some s => .ok (.dict [(.str "from_library", .str s)])
  | .sketch => .error .typeError
  | .obj c a => (dumpPairs lib a).map fun r => .dict [(.str "class", .str c), (.str "data", .dict (fromPairs r))]

/-- The elements of a list, one after the other. -/
def dumpList (lib : Lib F T L) : List (Val F T L) → Except Err (List (Val F T L))
  | [] => .ok []
  | v :: t =>
    match dump lib v with
    | .error e => .error e
    | .ok w => (dumpList lib t).map (w :: ·)

/-- The items of a dictionary, one after the other. -/
def dumpPairs (lib : Lib F T L) : List (Key × Val F T L) → Except Err (List (Key × Val F T L))
  | [] => .ok []
  | (k, v) :: t =>
    match dump lib v with
    | .error e => .error e
    | .ok w => (dumpPairs lib t).map ((jsonKey lib k, w) :: ·)
end

/-! ### Column profiles -/

/-- The column profiles that can be loaded (profilers/__init__.py:47-55). -/
inductive Cls where
  | int
  | float
  | text
  | datetime
  | order
  | category
  | labeler
  deriving DecidableEq

/-- The name of a class. -/
def Cls.name : Cls → String
  | .int => "IntColumn"
  | .float => "FloatColumn"
  | .text => "TextColumn"
  | .datetime => "DateTimeColumn"
  | .order => "OrderColumn"
  | .category => "CategoricalColumn"
  | .labeler => "DataLabelerColumn"

/-- `type` of a class (int_column_profile.py:20, float_column_profile.py:25, text_column_profile.py:24, datetime_column_profile.py:23,
order_column_profile.py:38, categorical_column_profile.py:28, data_labeler_column_profile.py:21). -/
def Cls.type : Cls → String
  | .int => "int"
  | .float => "float"
  | .text => "text"
  | .datetime => "datetime"
  | .order => "order"
  | .category => "category"
  | .labeler => "data_labeler"

/-- All of them. -/
def classes : List Cls := [.category, .float, .int, .datetime, .order, .labeler, .text]

/-- `get_column_profiler_class` (json_decoder.py:23-38). -/
def classOf (s : String) : Except Err Cls :=
  match classes.find? fun c => c.name == s with
  | Option.none => .error .valueError
  | some c => .ok c

/-- Classes with `NumericStatsMixin`. -/
def Cls.numeric : Cls → Bool
  | .int => true
  | .float => true
  | .text => true
  | _ => false

/-- The methods that occur in `__calculations` (numerical_column_stats.py:118-128, float_column_profile.py:66-68,
text_column_profile.py:44). -/
def Cls.methods (c : Cls) : List String :=
  (if c.numeric then
    ["_get_min", "_get_max", "_get_sum", "_get_variance", "_get_skewness", "_get_kurtosis", "_get_histogram_and_quantiles",
      "_get_num_zeros", "_get_num_negatives"] else []) ++
  (match c with
    | .float => ["_update_precision"]
    | .text => ["_update_vocab"]
    | _ => [])

/-- `BaseColumnProfiler.__init__` (base_column_profilers.py:32-46); labels are not predicted in a pool (data_labeler_column_profile.py:74). -/
def freshBase (lib : Lib F T L) (name : Val F T L) (safe : Bool := true) : Dict F T L :=
  [("name", name), ("col_index", .float lib.nan), ("sample_size", .int 0), ("metadata", .dict []), ("times", .ddict .float []),
    ("thread_safe", .bool safe)]

/-- One histogram of a new profile (numerical_column_stats.py:103-116). -/
def freshHist (lib : Lib F T L) : Val F T L :=
  .dict [("total_loss", .npFloat (lib.ofRat 0)), ("current_loss", .npFloat (lib.ofRat 0)), ("suggested_bin_count", .int 1000),
    ("histogram", .dict [("bin_counts", .none), ("bin_edges", .none)])]

/-- The methods of bin widths (numerical_column_stats.py:70-78). -/
def binMethods : List String := ["auto", "fd", "doane", "scott", "rice", "sturges", "sqrt"]

/-- A dictionary of functions. -/
def funcs (l : List (String × String)) : Val F T L := .dict (l.map fun x => (.str x.1, .func x.2))

/-- `NumericStatsMixin.__init__` without options (numerical_column_stats.py:47-131). -/
def freshNumeric (lib : Lib F T L) : Dict F T L :=
  [("min", .none), ("max", .none), ("_top_k_modes", .int 5), ("sum", .npFloat (lib.ofRat 0)), ("_biased_variance", .float lib.nan),
    ("_biased_skewness", .float lib.nan), ("_biased_kurtosis", .float lib.nan), ("_median_is_enabled", .bool true),
    ("_median_abs_dev_is_enabled", .bool true), ("max_histogram_bin", .int 100000), ("min_histogram_bin", .int 1000),
    ("histogram_bin_method_names", .list (binMethods.map .str)), ("histogram_selection", .none), ("user_set_histogram_bin", .none),
    ("bias_correction", .bool true), ("_mode_is_enabled", .bool true), ("num_zeros", .npInt 0), ("num_negatives", .npInt 0),
    ("_num_quantiles", .int 1000), ("histogram_methods", .dict (binMethods.map fun m => (.str m, freshHist lib))),
    ("_stored_histogram", freshHist lib), ("_batch_history", .list []), ("quantiles", .none),
    ("_NumericStatsMixin__calculations", funcs [("min", "_get_min"), ("max", "_get_max"), ("sum", "_get_sum"),
      ("variance", "_get_variance"), ("skewness", "_get_skewness"), ("kurtosis", "_get_kurtosis"),
      ("histogram_and_quantiles", "_get_histogram_and_quantiles"), ("num_zeros", "_get_num_zeros"),
      ("num_negatives", "_get_num_negatives")])]

/-- The attributes of a new profile without options, and with the labeler given for labels (int_column_profile.py:22-38,
float_column_profile.py:27-69, text_column_profile.py:26-45, datetime_column_profile.py:55-77, order_column_profile.py:40-61,
categorical_column_profile.py:37-90, data_labeler_column_profile.py:23-75). -/
def fresh (lib : Lib F T L) (c : Cls) (name lab : Val F T L) : Dict F T L :=
  match c with
  | .int => freshNumeric lib ++ freshBase lib name ++ ([("match_count", .int 0), ("_IntColumn__calculations", .dict [])] : Dict F T L)
  | .float =>
    freshNumeric lib ++ freshBase lib name ++ ([("match_count", .int 0),
      ("_precision", .dict [("min", .none), ("max", .none), ("sum", .none), ("mean", .none), ("biased_var", .none),
        ("sample_size", .none), ("confidence_level", .float (lib.ofRat (999 / 1000)))]),
      ("_FloatColumn__z_value_precision", .float (lib.ofRat (3291 / 1000))), ("_FloatColumn__precision_sample_ratio", .none),
      ("_FloatColumn__calculations", funcs [("precision", "_update_precision")])] : Dict F T L)
  | .text =>
    freshNumeric lib ++ freshBase lib name ++ ([("match_count", .int 0), ("vocab", .list []),
      ("_TextColumn__calculations", funcs [("vocab", "_update_vocab")])] : Dict F T L)
  | .datetime =>
    freshBase lib name ++ ([("match_count", .int 0), ("date_formats", .list []), ("min", .none), ("max", .none), ("_dt_obj_min", .none),
      ("_dt_obj_max", .none), ("_DateTimeColumn__calculations", .dict [])] : Dict F T L)
  | .order =>
    ([("order", .none), ("_last_value", .none), ("_first_value", .none), ("_data_store_type", .func "float64"),
      ("_piecewise", .bool false), ("_OrderColumn__calculations", .dict [])] : Dict F T L) ++ freshBase lib name
  | .category =>
    freshBase lib name ++ ([("_categories", .ddict .int []), ("_CategoricalColumn__calculations", .dict []),
      ("_top_k_categories", .none), ("max_sample_size_to_check_stop_condition", .none), ("stop_condition_unique_value_ratio", .none),
      ("_stop_condition_is_met", .bool false), ("_stopped_at_unique_ratio", .none), ("_stopped_at_unique_count", .none),
      ("_cms_max_num_heavy_hitters", .int 5000), ("cms_num_hashes", .none), ("cms_num_buckets", .none), ("cms", .none)] : Dict F T L)
  | .labeler =>
    freshBase lib name false ++ ([("_max_sample_size", .int 1000), ("data_labeler", lab), ("_reverse_label_mapping", .none),
      ("_possible_data_labels", .none), ("_rank_distribution", .none), ("_sum_predictions", .none), ("_top_k_voting", .int 1),
      ("_min_voting_prob", .float (lib.ofRat (1 / 5))), ("_min_prob_differential", .float (lib.ofRat (1 / 5))),
      ("_top_k_labels", .int 3), ("_min_top_label_prob", .float (lib.ofRat (7 / 20))), ("_DataLabelerColumn__calculations", .dict [])] : Dict F T L)

/-! ### Loading a column profile -/

/-- Whether a list occurs in another without gaps. -/
def occurs (p : List Char) : List Char → Bool
  | [] => p.isEmpty
  | c :: t => p.isPrefixOf (c :: t) || occurs p t

/-- `s in k`. -/
def within (s : String) : Key → Bool
  | .str k => occurs s.toList k.toList
  | .int _ => false

/-- `data[k]`. -/
def item (d : Dict F T L) (k : Key) : Except Err (Val F T L) :=
  match PyDict.get? d k with
  | Option.none => .error .keyError
  | some v => .ok v

/-- `getattr(obj, k)`. -/
def attr (d : Dict F T L) (k : Key) : Except Err (Val F T L) :=
  match PyDict.get? d k with
  | Option.none => .error .attributeError
  | some v => .ok v

/-- The functions of a `__calculations` dictionary, looked up by name (base_column_profilers.py:278-284). -/
def loadCalcs (c : Cls) : List (Key × Val F T L) → Except Err (List (Key × Val F T L))
  | [] => .ok []
  | (k, .str f) :: t => if f ∈ c.methods then (loadCalcs c t).map ((k, .func f) :: ·) else .error .attributeError
  | _ :: _ => .error .typeError

/-- The loop over the attributes (base_column_profilers.py:276-285). -/
def setAttrs (c : Cls) : List (Key × Val F T L) → Dict F T L → Except Err (Dict F T L)
  | [], a => .ok a
  | (k, v) :: t, a =>
    if within "__calculations" k then
      match v with
      | .dict d =>
        match loadCalcs c d with
        | .error e => .error e
        | .ok d' => setAttrs c t (PyDict.set a k (.dict d'))
      | _ => .error .attributeError
    else setAttrs c t (PyDict.set a k v)

/-- `BaseColumnProfiler.load_from_dict` (base_column_profilers.py:252-287) on a new profile. -/
def loadBase (lib : Lib F T L) (c : Cls) (lab : Val F T L) (data : Dict F T L) : Except Err (Dict F T L) :=
  match PyDict.get? data "name", PyDict.get? data "times" with
  | some name, some (.dict t) =>
    setAttrs c (PyDict.del data "times") (PyDict.set (fresh lib c name lab) "times" (.ddict .float t))
  | some _, some _ => .error .typeError
  | _, _ => .error .keyError

/-- `np.float64(v)`. -/
def toFloat (lib : Lib F T L) : Val F T L → Except Err F
  | .none => .ok lib.nan
  | .bool b => .ok (lib.ofRat (if b then 1 else 0))
  | .int z => .ok (lib.ofRat z)
  | .npInt z => .ok (lib.ofRat z)
  | .float f => .ok f
  | .npFloat f => .ok f
  | .str s =>
    match lib.parseFloat s with
    | Option.none => .error .valueError
    | some f => .ok f
  | _ => .error .typeError

/-- `None`, or `np.float64`. -/
def optFloat (lib : Lib F T L) : Val F T L → Except Err (Val F T L)
  | .none => .ok .none
  | v => (toFloat lib v).map .npFloat

/-- `None`, or `np.int64`. -/
def optInt : Val F T L → Except Err (Val F T L)
  | .none => .ok .none
  | .int z => .ok (.npInt z)
  | .npInt z => .ok (.npInt z)
  | _ => .error .typeError

/-- `np.float64` of what is not `NaN` (numerical_column_stats.py:473-478). -/
def nanFloat (lib : Lib F T L) : Val F T L → Except Err (Val F T L)
  | .float f => .ok (if lib.isNan f then .float f else .npFloat f)
  | .npFloat f => .ok (.npFloat f)
  | .int z => .ok (.npFloat (lib.ofRat z))
  | _ => .error .typeError

/-- `None`, or `np.array`. -/
def optArray : Val F T L → Val F T L
  | .none => .none
  | v => .array v

/-- Replace an entry of a dictionary by what a function makes of it. -/
def onItem (f : Val F T L → Except Err (Val F T L)) (k : Key) (d : Dict F T L) : Except Err (Dict F T L) :=
  match item d k with
  | .error e => .error e
  | .ok v => (f v).map fun w => PyDict.set d k w

/-- Replace an attribute by what a function makes of it. -/
def onAttr (f : Val F T L → Except Err (Val F T L)) (k : Key) (d : Dict F T L) : Except Err (Dict F T L) :=
  match attr d k with
  | .error e => .error e
  | .ok v => (f v).map fun w => PyDict.set d k w

/-- Several entries, one after the other. -/
def onItems (f : Val F T L → Except Err (Val F T L)) : List String → Dict F T L → Except Err (Dict F T L)
  | [], d => .ok d
  | k :: ks, d =>
    match onItem f k d with
    | .error e => .error e
    | .ok d' => onItems f ks d'

/-- Several attributes, one after the other. -/
def onAttrs (f : Val F T L → Except Err (Val F T L)) : List String → Dict F T L → Except Err (Dict F T L)
  | [], d => .ok d
  | k :: ks, d =>
    match onAttr f k d with
    | .error e => .error e
    | .ok d' => onAttrs f ks d'

/-- Every value of a dictionary. -/
def mapValues (f : Val F T L → Except Err (Val F T L)) : List (Key × Val F T L) → Except Err (List (Key × Val F T L))
  | [] => .ok []
  | (k, v) :: t =>
    match f v with
    | .error e => .error e
    | .ok w => (mapValues f t).map ((k, w) :: ·)

/-- The arrays of a histogram (numerical_column_stats.py:446-450). -/
def histArrays : Val F T L → Except Err (Val F T L)
  | .dict g => .ok (.dict (g.map fun kv => (kv.1, optArray kv.2)))
  | _ => .error .attributeError

/-- `convert_histogram_key_types_to_np` (numerical_column_stats.py:436-451). -/
def convertHist (lib : Lib F T L) : Val F T L → Except Err (Val F T L)
  | .dict h =>
    match onItems (optFloat lib) ["total_loss", "current_loss"] h with
    | .error e => .error e
    | .ok h1 => (onItem histArrays "histogram" h1).map .dict
  | _ => .error .typeError

/-- The same for every method. -/
def convertHists (lib : Lib F T L) : Val F T L → Except Err (Val F T L)
  | .dict d => (mapValues (convertHist lib) d).map .dict
  | _ => .error .attributeError

/-- `_reformat_numeric_stats_types_on_serialized_profiles` (numerical_column_stats.py:428-478). -/
def reformat (lib : Lib F T L) (a : Dict F T L) : Except Err (Dict F T L) :=
  match onAttr (convertHist lib) "_stored_histogram" a with
  | .error e => .error e
  | .ok a1 =>
    match onAttr (convertHists lib) "histogram_methods" a1 with
    | .error e => .error e
    | .ok a2 =>
      match onAttrs (optFloat lib) ["min", "max", "sum"] a2 with
      | .error e => .error e
      | .ok a3 =>
        match onAttrs optInt ["num_zeros", "num_negatives"] a3 with
        | .error e => .error e
        | .ok a4 => onAttrs (nanFloat lib) ["_biased_variance", "_biased_skewness", "_biased_kurtosis"] a4

/-- The precision of decimals (float_column_profile.py:180-192). -/
def precisionFloats (lib : Lib F T L) : Val F T L → Except Err (Val F T L)
  | .dict d => (onItems (optFloat lib) ["min", "max", "sum", "mean", "biased_var"] d).map .dict
  | _ => .error .typeError

/-- Truth of a value, as far as needed. -/
def truthy : Val F T L → Bool
  | .none => false
  | .bool b => b
  | .int z => z != 0
  | .npInt z => z != 0
  | .str s => s != ""
  | .dict d => !d.isEmpty
  | .list l => !l.isEmpty
  | _ => true

/-- The values of an order (order_column_profile.py:335-341). `first` and `last` are those of the data. -/
def orderFloats (lib : Lib F T L) (first last : Val F T L) (a : Dict F T L) : Except Err (Dict F T L) :=
  match toFloat lib first, toFloat lib last with
  | .ok f, .ok l => .ok (PyDict.set (PyDict.set a "_first_value" (.npFloat f)) "_last_value" (.npFloat l))
  | .error .valueError, _ => .ok a
  | .error e, _ => .error e
  | .ok _, .error .valueError => .ok a
  | .ok _, .error e => .error e

/-- `data["_data_store_type"] == "str"`. -/
def isStr : Val F T L → Bool
  | .str s => s == "str"
  | _ => false

/-- `OrderColumn.load_from_dict` (order_column_profile.py:318-342). -/
def loadOrder (lib : Lib F T L) (data : Dict F T L) : Except Err (Dict F T L) :=
  match PyDict.get? data "_data_store_type" with
  | Option.none => .error .keyError
  | some s =>
    match loadBase lib .order .none (PyDict.set data "_data_store_type" (.func (if isStr s then "str" else "float64"))) with
    | .error e => .error e
    | .ok a =>
      match attr a "sample_size", attr a "_first_value", attr a "_last_value" with
      | .ok n, .ok first, .ok last => if truthy n && !isStr s then orderFloats lib first last a else .ok a
      | _, _, _ => .error .attributeError

/-- `None`, or `pd.Timestamp` (datetime_column_profile.py:151-155). -/
def optStamp (lib : Lib F T L) : Val F T L → Except Err (Val F T L)
  | .none => .ok .none
  | .str s => (lib.timestamp s).map .stamp
  | _ => .error .typeError

/-- `CategoricalColumn.load_from_dict` (categorical_column_profile.py:347-363). -/
def loadCategory (lib : Lib F T L) (data : Dict F T L) : Except Err (Dict F T L) :=
  match PyDict.get? data "_categories" with
  | some (.dict d) =>
    (loadBase lib .category .none (PyDict.del data "_categories")).map fun a => PyDict.set a "_categories" (.ddict .int d)
  | some _ => .error .typeError
  | Option.none => .error .keyError

/-- `reload_labeler_from_options_or_get_new` (profiler_utils.py:853-909). -/
def reloadLabeler (lib : Lib F T L) : Val F T L → Except Err (Option L)
  | .dict d =>
    match PyDict.get? d "from_library" with
    | some (.str s) => (lib.library s).map some
    | some _ => .error .typeError
    | Option.none => if PyDict.has d "from_disk" then .error .notImplemented else .ok Option.none
  | _ => .error .typeError

/-- The labeler of a profile that is loaded (data_labeler_column_profile.py:324-336, 43-56): that of the library, or a new one. -/
def loadedLabeler (lib : Lib F T L) (v : Val F T L) : Except Err (Val F T L) :=
  match (if truthy v then reloadLabeler lib v else .ok Option.none) with
  | .error e => .error e
  | .ok (some l) => .ok (.labeler l)
  | .ok Option.none => lib.newLabeler.map .labeler

/-- `{int(k): v for k, v in d.items()}` (data_labeler_column_profile.py:338-341). -/
def intKeys (lib : Lib F T L) : List (Key × Val F T L) → Dict F T L → Except Err (Dict F T L)
  | [], acc => .ok acc
  | (.int n, v) :: t, acc => intKeys lib t (PyDict.set acc (.int n) v)
  | (.str s, v) :: t, acc =>
    match lib.parseInt s with
    | Option.none => .error .valueError
    | some n => intKeys lib t (PyDict.set acc (.int n) v)

/-- `None`, or the mapping with integers. -/
def optMapping (lib : Lib F T L) : Val F T L → Except Err (Val F T L)
  | .none => .ok .none
  | .dict d => (intKeys lib d []).map .dict
  | _ => .error .attributeError

/-- `DataLabelerColumn.load_from_dict` (data_labeler_column_profile.py:310-345). -/
def loadLabels (lib : Lib F T L) (data : Dict F T L) : Except Err (Dict F T L) :=
  match PyDict.get? data "data_labeler" with
  | Option.none => .error .keyError
  | some v =>
    match loadedLabeler lib v with
    | .error e => .error e
    | .ok lab =>
      match loadBase lib .labeler lab (PyDict.del data "data_labeler") with
      | .error e => .error e
      | .ok a =>
        match onAttr (optMapping lib) "_reverse_label_mapping" a with
        | .error e => .error e
        | .ok a1 => onAttr (fun v => .ok (optArray v)) "_sum_predictions" a1

/-- `load_from_dict` of a class: int_column_profile.py:75-92, float_column_profile.py:162-194, text_column_profile.py:200-215,
datetime_column_profile.py:134-157 and the above. -/
def loadAttrs (lib : Lib F T L) (c : Cls) (data : Dict F T L) : Except Err (Dict F T L) :=
  match c with
  | .order => loadOrder lib data
  | .category => loadCategory lib data
  | .labeler => loadLabels lib data
  | .datetime =>
    match loadBase lib .datetime .none data with
    | .error e => .error e
    | .ok a => onAttrs (optStamp lib) ["_dt_obj_min", "_dt_obj_max"] a
  | .float =>
    match loadBase lib .float .none data with
    | .error e => .error e
    | .ok a =>
      match reformat lib a with
      | .error e => .error e
      | .ok a' => onAttr (precisionFloats lib) "_precision" a'
  | c =>
    match loadBase lib c .none data with
    | .error e => .error e
    | .ok a => reformat lib a

/-- The class and the data of an object that was written; `find` looks the class up. -/
def opened {C : Type} (find : String → Except Err C) : Val F T L → Except Err (C × Dict F T L)
  | .dict d =>
    match item d "class" with
    | .error e => .error e
    | .ok (.str s) =>
      match find s with
      | .error e => .error e
      | .ok c =>
        match item d "data" with
        | .error e => .error e
        | .ok (.dict a) => .ok (c, a)
        | .ok _ => .error .attributeError
    | .ok _ => .error .valueError
  | _ => .error .typeError

/-- `load_column_profile` (json_decoder.py:130-159). -/
def loadColumn (lib : Lib F T L) (v : Val F T L) : Except Err (Val F T L) :=
  match opened classOf v with
  | .error e => .error e
  | .ok (c, data) => (loadAttrs lib c data).map (.obj c.name)

/-! ### Compilers -/

/-- The compilers that can be loaded (profilers/__init__.py:58-62) with their profiles in order (column_profile_compilers.py:260-266,
374-378, 419-420). -/
def compilers : List (String × List Cls) :=
  [("ColumnDataLabelerCompiler", [.labeler]), ("ColumnPrimitiveTypeProfileCompiler", [.datetime, .int, .float, .text]),
    ("ColumnStatsProfileCompiler", [.order, .category])]

/-- `get_compiler_class` (json_decoder.py:41-58). -/
def compilerOf (s : String) : Except Err (String × List Cls) :=
  match compilers.find? fun c => c.1 == s with
  | Option.none => .error .valueError
  | some c => .ok c

/-- The profiles in the order of the class (column_profile_compilers.py:244-250). -/
def ordered (cs : List Cls) (d : Dict F T L) : Dict F T L :=
  cs.filterMap fun c => (PyDict.get? d c.type).map fun v => (Key.str c.type, v)

/-- The loop over the attributes (column_profile_compilers.py:240-251). -/
def setCompiler (lib : Lib F T L) (cs : List Cls) : List (Key × Val F T L) → Dict F T L → Except Err (Dict F T L)
  | [], a => .ok a
  | (k, v) :: t, a =>
    if within "_profiles" k then
      match v with
      | .dict d =>
        match mapValues (loadColumn lib) d with
        | .error e => .error e
        | .ok d' => setCompiler lib cs t (PyDict.set a k (.dict (ordered cs d')))
      | _ => .error .attributeError
    else setCompiler lib cs t (PyDict.set a k v)

/-- `load_compiler` and `BaseCompiler.load_from_dict` (json_decoder.py:162-191, column_profile_compilers.py:224-252, 39-57). -/
def loadCompiler (lib : Lib F T L) (v : Val F T L) : Except Err (Val F T L) :=
  match opened compilerOf v with
  | .error e => .error e
  | .ok (c, data) => (setCompiler lib c.2 data [("name", .none), ("_profiles", .dict [])]).map (.obj c.1)

/-! ### Options -/

/-- The options that can be loaded and the classes they are loaded as (profilers/__init__.py:65-88). -/
def options : List (String × String) :=
  [("BooleanOption", "BooleanOption"), ("HistogramOption", "HistogramAndQuantilesOption"),
    ("HistogramAndQuantilesOption", "HistogramAndQuantilesOption"), ("ModeOption", "ModeOption"),
    ("BaseInspectorOptions", "BaseInspectorOptions"), ("NumericalOptions", "NumericalOptions"), ("IntOptions", "IntOptions"),
    ("PrecisionOptions", "PrecisionOptions"), ("FloatOptions", "FloatOptions"), ("TextOptions", "TextOptions"),
    ("DateTimeOptions", "DateTimeOptions"), ("OrderOptions", "OrderOptions"), ("CategoricalOptions", "CategoricalOptions"),
    ("CorrelationOptions", "CorrelationOptions"), ("UniqueCountOptions", "UniqueCountOptions"),
    ("HyperLogLogOptions", "HyperLogLogOptions"), ("RowStatisticsOptions", "RowStatisticsOptions"),
    ("DataLabelerOptions", "DataLabelerOptions"), ("TextProfilerOptions", "TextProfilerOptions"),
    ("StructuredOptions", "StructuredOptions"), ("UnstructuredOptions", "UnstructuredOptions"), ("ProfilerOptions", "ProfilerOptions")]

/-- `get_option_class` (json_decoder.py:61-87); what is not a string is no class. -/
def optionOf : Val F T L → Except Err String
  | .str s =>
    match options.find? fun c => c.1 == s with
    | Option.none => .error .valueError
    | some c => .ok c.2
  | _ => .error .valueError

/-- `DataLabelerOptions.load_from_dict` before the attributes are set (profiler_options.py:1321-1330), nothing for other options. -/
def optionData (lib : Lib F T L) (c : String) (a : Dict F T L) : Except Err (Dict F T L) :=
  if c = "DataLabelerOptions" then
    let a' := PyDict.del a "data_labeler_object"
    match PyDict.get? a "data_labeler_object" with
    | Option.none => .ok a'
    | some v =>
      if truthy v then
        match reloadLabeler lib v with
        | .error e => .error e
        | .ok Option.none => .ok a'
        | .ok (some l) => .ok (PyDict.set a' "data_labeler_object" (.labeler l))
      else .ok a'
  else .ok a

/-- `setattr` for every attribute of a new object. -/
def overwrite (new a : Dict F T L) : Dict F T L := a.foldl (fun acc kv => PyDict.set acc kv.1 kv.2) new

mutual
/-- The value of an attribute of options (profiler_options.py:165-167): a dictionary with the key `class` is taken for options, and
`load_option` (json_decoder.py:194-219) is called. `new` is a new object of a class. -/
def loadValue (lib : Lib F T L) (new : String → Dict F T L) : Val F T L → Except Err (Val F T L)
  | .dict d =>
    match PyDict.get? d "class" with
    | Option.none => .ok (.dict d)
    | some c =>
      match optionOf c with
      | .error e => .error e
      | .ok c' =>
        match loadData lib new d with
        | .error e => .error e
        | .ok a => (optionData lib c' a).map fun a' => .obj c' (overwrite (new c') a')
  | v => .ok v

/-- The loaded values of the entry `data`. -/
def loadData (lib : Lib F T L) (new : String → Dict F T L) : List (Key × Val F T L) → Except Err (Dict F T L)
  | [] => .error .keyError
  | (k, v) :: t => if k = .str "data" then loadEntry lib new v else loadData lib new t

/-- The items of that entry. -/
def loadEntry (lib : Lib F T L) (new : String → Dict F T L) : Val F T L → Except Err (Dict F T L)
  | .dict a => loadValues lib new a
  | _ => .error .attributeError

/-- The loop of `BaseOption.load_from_dict` (profiler_options.py:163-170), for the values only. -/
def loadValues (lib : Lib F T L) (new : String → Dict F T L) : List (Key × Val F T L) → Except Err (Dict F T L)
  | [] => .ok []
  | (k, v) :: t =>
    match loadValue lib new v with
    | .error e => .error e
    | .ok w => (loadValues lib new t).map ((k, w) :: ·)
end

/-- `load_option` (json_decoder.py:194-219). -/
def loadOption (lib : Lib F T L) (new : String → Dict F T L) : Val F T L → Except Err (Val F T L)
  | .dict d => if PyDict.has d "class" then loadValue lib new (.dict d) else .error .keyError
  | _ => .error .typeError

/-! ### Columns -/

/-- `get_structured_col_profiler_class` (json_decoder.py:109-127). -/
def columnOf (s : String) : Except Err Unit := if s = "StructuredColProfiler" then .ok () else .error .valueError

/-- `StructuredColProfiler()` (profile_builder.py:86-118). -/
def freshColumn (lib : Lib F T L) : Dict F T L :=
  [("name", .none), ("options", .none), ("_min_sample_size", .int 5000), ("_sampling_ratio", .float (lib.ofRat (1 / 5))),
    ("_min_true_samples", .int 0), ("sample_size", .int 0), ("sample", .list []), ("null_count", .int 0), ("null_ratio", .none),
    ("null_types", .list []), ("null_types_index", .dict []), ("_min_id", .none), ("_max_id", .none), ("_index_shift", .none),
    ("_last_batch_size", .none), ("profiles", .dict []),
    ("_null_values", .dict [("", .int 0), ("nan", .flag 2), ("none", .flag 2), ("null", .flag 2), ("  *", .int 0), ("--*", .int 0),
      ("__*", .int 0)])]

/-- `re.RegexFlag(v) if v != 0 else 0` (profile_builder.py:416-419). -/
def loadFlag : Val F T L → Except Err (Val F T L)
  | .int z => .ok (if z ≠ 0 then .flag z else .int 0)
  | _ => .error .valueError

/-- Whether a value that was read can be an element of a set. -/
def hashable : Val F T L → Bool
  | .list _ => false
  | .dict _ => false
  | _ => true

/-- `set(v)` (profile_builder.py:420-421). -/
def loadSet : Val F T L → Except Err (Val F T L)
  | .list l => if l.all hashable then .ok (.set l) else .error .typeError
  | _ => .error .typeError

/-- A function on the values of a dictionary. -/
def onDict (f : Val F T L → Except Err (Val F T L)) : Val F T L → Except Err (Val F T L)
  | .dict d => (mapValues f d).map .dict
  | _ => .error .attributeError

/-- The value of one attribute (profile_builder.py:411-421). -/
def columnValue (lib : Lib F T L) (new : String → Dict F T L) (k : Key) (v : Val F T L) : Except Err (Val F T L) :=
  if k = .str "profiles" then onDict (loadCompiler lib) v
  else if k = .str "options" then
    match v with
    | .none => .ok .none
    | v => loadOption lib new v
  else if k = .str "_null_values" then onDict loadFlag v
  else if k = .str "null_types_index" then onDict loadSet v
  else .ok v

/-- The loop over the attributes (profile_builder.py:410-422). -/
def setColumn (lib : Lib F T L) (new : String → Dict F T L) : List (Key × Val F T L) → Dict F T L → Except Err (Dict F T L)
  | [], a => .ok a
  | (k, v) :: t, a =>
    match columnValue lib new k v with
    | .error e => .error e
    | .ok w => setColumn lib new t (PyDict.set a k w)

/-- `load_structured_col_profiler` and `StructuredColProfiler.load_from_dict` (json_decoder.py:249-276, profile_builder.py:396-423). -/
def loadStructured (lib : Lib F T L) (new : String → Dict F T L) (v : Val F T L) : Except Err (Val F T L) :=
  match opened columnOf v with
  | .error e => .error e
  | .ok (_, data) => (setColumn lib new data (freshColumn lib)).map (.obj "StructuredColProfiler")

/-- A value written, read and loaded. -/
def reload (lib : Lib F T L) (load : Val F T L → Except Err (Val F T L)) (v : Val F T L) : Except Err (Val F T L) :=
  match dump lib v with
  | .error e => .error e
  | .ok w => load w

end Verif.ColumnJson
