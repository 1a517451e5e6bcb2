import Verif.Model.ColumnJson

/-!
# What changes the attributes of a column profile

Updates, reports, options and the pool of processes assign to attributes of the column profiles of `Verif.Model.ColumnJson`. A `Step` is
one such group of assignments; the numbers and texts assigned are arbitrary, as they depend on the data (how they are computed is in the
models of each statistic). A history is any sequence of steps and of saving and loading.

Simplifications
* a step is what one calculation of an update assigns, not the whole of an update, so histories include those with calculations disabled;
* histograms are written for every method that has one (the code takes the methods of `histogram_bin_method_names`, which are the same
  unless histograms were merged);
* dictionaries that are attributes of two places at once (the stored histogram after a report) are two dictionaries;
* sketches of categories and the losses of merged histograms are left out: profiles with them do not survive (`C85_sketch_fails`,
  `C85_merged_fails`).
-/

namespace Verif.ColumnJson

open Verif
open Verif.Schema (Key)

variable {F T L : Type}

/-- A number, of Python or of numpy. -/
inductive Num (F : Type) where
  | int (z : ℤ)
  | float (f : F)
  | npInt (z : ℤ)
  | npFloat (f : F)

/-- The number as a value. -/
def Num.val : Num F → Val F T L
  | .int z => .int z
  | .float f => .float f
  | .npInt z => .npInt z
  | .npFloat f => .npFloat f

/-- The value of an option. -/
inductive Scalar (F : Type) where
  | none
  | bool (b : Bool)
  | str (s : String)
  | num (x : Num F)

/-- The option as a value. -/
def Scalar.val : Scalar F → Val F T L
  | .none => .none
  | .bool b => .bool b
  | .str s => .str s
  | .num x => x.val

/-- Counts and edges of bins; nothing for a method whose histogram is not made yet. -/
abbrev Bars (F : Type) := Option (List (Num F) × List (Num F))

/-- The first and last value of an order: texts or numbers. -/
inductive Ends (F : Type) where
  | texts (first last : String)
  | numbers (first last : F)

/-- What assigns to attributes. -/
inductive Step (F T : Type) where
  /-- The seconds of a calculation (profiler_utils.py:691-724). -/
  | time (what : String) (t : F)
  /-- `_update_column_base_properties` (base_column_profilers.py:197-206). -/
  | size (n : ℤ) (rest : List (String × Num F))
  /-- The same for types (base_column_profilers.py:316-325). -/
  | hits (n : ℤ)
  /-- An option, the name of a merged profile, or whether a column is to be run in a pool (column_profile_compilers.py:192-216). -/
  | setting (k : String) (v : Scalar F)
  /-- A calculation that is not enabled is removed (base_column_profilers.py:92-96). -/
  | disable (attr what : String)
  /-- Extremes, sum and moments (numerical_column_stats.py:1765-1935). -/
  | stat (k : String) (numpy : Bool) (f : F)
  /-- Zeros and negative numbers (numerical_column_stats.py:1947-1989). -/
  | counter (k : String) (n : ℤ)
  /-- The properties of the last five batches (numerical_column_stats.py:1760-1762). -/
  | batch (props : List (String × Num F))
  /-- `_get_histogram` and `_update_histogram` (numerical_column_stats.py:1267-1366). -/
  | bars (stored : List (Num F) × List (Num F)) (each : Bars F) (suggested : Key → ℤ) (loss total : F)
  /-- The quantiles (numerical_column_stats.py:1722-1732). -/
  | quantiles (q : List F)
  /-- `_get_best_histogram_for_profile` (numerical_column_stats.py:1530-1551). -/
  | report (best : String) (made : Key → List (Num F) × List (Num F)) (loss total : Key → F)
  /-- The methods of the options (numerical_column_stats.py:90-116). -/
  | methods (names : List String)
  /-- `_update_precision` (float_column_profile.py:333-395). -/
  | precision (min max var sum mean : F) (n : ℤ)
  /-- `_update_vocab` (text_column_profile.py:134-154). -/
  | vocab (l : List String)
  /-- `type` of texts (text_column_profile.py:170-171). -/
  | long (b : Bool)
  /-- Formats of dates (datetime_column_profile.py:395-420). -/
  | formats (l : List String)
  /-- The earliest or the latest date (datetime_column_profile.py:255-310, 395-420). -/
  | date (earliest numpy : Bool) (s : String) (t : T)
  /-- `_update_order` and the size (order_column_profile.py:416-475). -/
  | order (o : String) (ends : Ends F) (piecewise : Bool) (n : ℤ) (rest : List (String × Num F))
  /-- The counts of categories (categorical_column_profile.py:650-658). -/
  | categories (default : Bool) (l : List (String × ℤ))
  /-- The stop condition (categorical_column_profile.py:477-493). -/
  | stop (met : Bool) (at_ : Option (F × ℤ))
  /-- Labels and their numbers (data_labeler_column_profile.py:170-192). -/
  | labels (mapping : List (ℤ × String)) (possible : List String)
  /-- `_update_predictions` (data_labeler_column_profile.py:393-440). -/
  | predictions (sums : List (Num F)) (ranks : List (String × ℤ))

/-! ### Assignments -/

/-- One after the other. -/
def andThen {α : Type} (f g : α → Except Err α) (a : α) : Except Err α :=
  match f a with
  | .error e => .error e
  | .ok b => g b

/-- `self.k = v`. -/
def setAttr (k : String) (v : Val F T L) (a : Dict F T L) : Except Err (Dict F T L) := .ok (PyDict.set a (.str k) v)

/-- `d[k] = v`. -/
def putItem (k : String) (v : Val F T L) : Val F T L → Except Err (Val F T L)
  | .dict d => .ok (.dict (PyDict.set d (.str k) v))
  | .ddict f d => .ok (.ddict f (PyDict.set d (.str k) v))
  | _ => .error .typeError

/-- `d[k]` changed by a function. -/
def inItem (k : String) (f : Val F T L → Except Err (Val F T L)) : Val F T L → Except Err (Val F T L)
  | .dict d => (onItem f (.str k) d).map .dict
  | _ => .error .typeError

/-- `del d[k]`, where the keys of `d` are gone through. -/
def delItem (k : String) : Val F T L → Except Err (Val F T L)
  | .dict d => .ok (.dict (PyDict.del d (.str k)))
  | _ => .error .typeError

/-- Every value of a dictionary, with its key. -/
def eachItem (f : Key → Val F T L → Except Err (Val F T L)) : List (Key × Val F T L) → Except Err (List (Key × Val F T L))
  | [] => .ok []
  | (k, v) :: t =>
    match f k v with
    | .error e => .error e
    | .ok w => (eachItem f t).map ((k, w) :: ·)

/-- The same for a value. -/
def inItems (f : Key → Val F T L → Except Err (Val F T L)) : Val F T L → Except Err (Val F T L)
  | .dict d => (eachItem f d).map .dict
  | _ => .error .typeError

/-- `x += n`. -/
def addInt (n : ℤ) : Val F T L → Except Err (Val F T L)
  | .int z => .ok (.int (z + n))
  | .npInt z => .ok (.npInt (z + n))
  | .flag z => .ok (.int (z + n))
  | _ => .error .typeError

/-- Numbers by name. -/
def numbers (l : List (String × Num F)) : Val F T L := .dict (fromPairs (l.map fun x => (.str x.1, x.2.val)))

/-- Counts by name. -/
def counts (l : List (String × ℤ)) : List (Key × Val F T L) := fromPairs (l.map fun x => (.str x.1, .int x.2))

/-- A list of texts. -/
def texts (l : List String) : Val F T L := .list (l.map .str)

/-- An array of numbers. -/
def numArray (l : List (Num F)) : Val F T L := .array (.list (l.map Num.val))

/-- The last five batches (numerical_column_stats.py:1760-1762). -/
def pushBatch (v : Val F T L) : Val F T L → Except Err (Val F T L)
  | .list l => .ok (.list ((if l.length = 5 then l.tail else l) ++ [v]))
  | _ => .error .attributeError

/-- Counts and edges. -/
def barVals : Bars F → Val F T L × Val F T L
  | none => (.none, .none)
  | some (c, e) => (numArray c, numArray e)

/-- `h["histogram"]["bin_counts"] = …; h["histogram"]["bin_edges"] = …`. -/
def putBars (b : Bars F) : Val F T L → Except Err (Val F T L) :=
  inItem "histogram" (andThen (putItem "bin_counts" (barVals b).1) (putItem "bin_edges" (barVals b).2))

/-- The losses of a histogram. -/
def putLosses (loss total : F) : Val F T L → Except Err (Val F T L) :=
  andThen (putItem "current_loss" (.npFloat loss)) (putItem "total_loss" (.npFloat total))

/-- A float of Python or of numpy. -/
def floatVal (numpy : Bool) (f : F) : Val F T L := if numpy then .npFloat f else .float f

/-- The first and the last value, and their type. -/
def Ends.vals : Ends F → Val F T L × Val F T L × Val F T L
  | .texts s t => (.str s, .str t, .func "str")
  | .numbers x y => (.npFloat x, .npFloat y, .func "float64")

/-- `_update_order` (order_column_profile.py:440-462): a random order stays. -/
def putOrder (o : String) (ends : Ends F) (piecewise : Bool) (a : Dict F T L) : Except Err (Dict F T L) :=
  match PyDict.get? a (.str "order") with
  | Option.none => .error .attributeError
  | some (.str "random") => .ok a
  | some _ =>
    andThen (setAttr "order" (.str o)) (andThen (setAttr "_first_value" ends.vals.1) (andThen (setAttr "_last_value" ends.vals.2.1)
      (andThen (setAttr "_piecewise" (.bool piecewise)) (setAttr "_data_store_type" ends.vals.2.2)))) a

/-- `_update_column_base_properties` (base_column_profilers.py:197-206). -/
def putSize (n : ℤ) (rest : List (String × Num F)) : Dict F T L → Except Err (Dict F T L) :=
  andThen (onAttr (addInt n) (.str "sample_size")) (setAttr "metadata" (numbers rest))

/-- One step. -/
def step (lib : Lib F T L) : Step F T → Dict F T L → Except Err (Dict F T L)
  | .time what t => onAttr (putItem what (.float t)) (.str "times")
  | .size n rest => putSize n rest
  | .hits n => onAttr (addInt n) (.str "match_count")
  | .setting k v => setAttr k v.val
  | .disable attr what => onAttr (delItem what) (.str attr)
  | .stat k numpy f => setAttr k (floatVal numpy f)
  | .counter k n => onAttr (addInt n) (.str k)
  | .batch props => onAttr (pushBatch (numbers props)) (.str "_batch_history")
  | .bars stored each suggested loss total =>
    andThen (onAttr (inItems fun m => andThen (putBars each) (putItem "suggested_bin_count" (.int (suggested m)))) (.str "histogram_methods"))
      (onAttr (andThen (putBars (some stored)) (putLosses loss total)) (.str "_stored_histogram"))
  | .quantiles q => setAttr "quantiles" (.list (q.map .npFloat))
  | .report best made loss total =>
    andThen (onAttr (inItems fun m => andThen
        (putItem "histogram" (.dict [(.str "bin_counts", numArray (made m).1), (.str "bin_edges", numArray (made m).2)]))
        (putLosses (loss m) (total m))) (.str "histogram_methods"))
      (setAttr "histogram_selection" (.str best))
  | .methods names =>
    andThen (setAttr "histogram_bin_method_names" (texts names))
      (setAttr "histogram_methods" (.dict (fromPairs (names.map fun m => (.str m, freshHist lib)))))
  | .precision min max var sum mean n =>
    onAttr (andThen (putItem "min" (.npFloat min)) (andThen (putItem "max" (.npFloat max)) (andThen (putItem "biased_var" (.npFloat var))
      (andThen (putItem "sum" (.npFloat sum)) (andThen (putItem "mean" (.npFloat mean)) (putItem "sample_size" (.int n)))))))
      (.str "_precision")
  | .vocab l => setAttr "vocab" (texts l)
  | .long b => setAttr "type" (.str (if b then "text" else "string"))
  | .formats l => setAttr "date_formats" (texts l)
  | .date earliest numpy s t =>
    andThen (setAttr (if earliest then "min" else "max") (.str s))
      (setAttr (if earliest then "_dt_obj_min" else "_dt_obj_max") (if numpy then .stamp t else .date t))
  | .order o ends piecewise n rest => andThen (putOrder o ends piecewise) (putSize n rest)
  | .categories default l => setAttr "_categories" (if default then .ddict .int (counts l) else .dict (counts l))
  | .stop met at_ =>
    andThen (setAttr "_stop_condition_is_met" (.bool met))
      (match at_ with
        | none => .ok
        | some (r, n) => andThen (setAttr "_stopped_at_unique_ratio" (.float r)) (setAttr "_stopped_at_unique_count" (.int n)))
  | .labels mapping possible =>
    andThen (setAttr "_reverse_label_mapping" (.dict (fromPairs (mapping.map fun x => (.int x.1, .str x.2)))))
      (setAttr "_possible_data_labels" (texts possible))
  | .predictions sums ranks =>
    andThen (setAttr "_sum_predictions" (numArray sums)) (setAttr "_rank_distribution" (.dict (counts ranks)))

/-! ### Which class makes which steps -/

/-- The attributes options set (numerical_column_stats.py:84-100, float_column_profile.py:58-60, categorical_column_profile.py:67-90,
data_labeler_column_profile.py:44-56), and those of every profile. -/
def Cls.settings (c : Cls) : List String :=
  ["name", "thread_safe"] ++
  (if c.numeric then ["_top_k_modes", "_median_is_enabled", "_median_abs_dev_is_enabled", "bias_correction", "_mode_is_enabled",
    "_num_quantiles", "user_set_histogram_bin", "histogram_selection"] else []) ++
  (match c with
    | .float => ["_FloatColumn__precision_sample_ratio"]
    | .category => ["_top_k_categories", "max_sample_size_to_check_stop_condition", "stop_condition_unique_value_ratio",
        "_cms_max_num_heavy_hitters", "cms_num_hashes", "cms_num_buckets"]
    | .labeler => ["_max_sample_size"]
    | _ => [])

/-- The attributes with calculations. -/
def Cls.calculations : Cls → List String
  | .int => ["_NumericStatsMixin__calculations", "_IntColumn__calculations"]
  | .float => ["_NumericStatsMixin__calculations", "_FloatColumn__calculations"]
  | .text => ["_NumericStatsMixin__calculations", "_TextColumn__calculations"]
  | .datetime => ["_DateTimeColumn__calculations"]
  | .order => ["_OrderColumn__calculations"]
  | .category => ["_CategoricalColumn__calculations"]
  | .labeler => ["_DataLabelerColumn__calculations"]

/-- Whether a class makes a step. -/
def Step.of (c : Cls) : Step F T → Bool
  | .time _ _ => true
  | .size _ _ => c != .order
  | .hits _ => c.numeric || c == .datetime
  | .setting k _ => c.settings.contains k
  | .disable k _ => c.calculations.contains k
  | .stat k _ _ => c.numeric && ["min", "max", "sum", "_biased_variance", "_biased_skewness", "_biased_kurtosis"].contains k
  | .counter k _ => c.numeric && ["num_zeros", "num_negatives"].contains k
  | .batch _ => c.numeric
  | .bars _ _ _ _ _ => c.numeric
  | .quantiles _ => c.numeric
  | .report _ _ _ _ => c.numeric
  | .methods _ => c.numeric
  | .precision _ _ _ _ _ _ => c == .float
  | .vocab _ => c == .text
  | .long _ => c == .text
  | .formats _ => c == .datetime
  | .date _ _ _ _ => c == .datetime
  | .order _ _ _ _ _ => c == .order
  | .categories _ _ => c == .category
  | .stop _ _ => c == .category
  | .labels _ _ => c == .labeler
  | .predictions _ _ => c == .labeler

/-- What happens to a profile: a step, or saving as JSON and loading. -/
inductive Event (F T : Type) where
  | step (s : Step F T)
  | reload

/-- The attributes of a profile of the class `c` after a history. -/
def live (lib : Lib F T L) (c : Cls) : List (Event F T) → Dict F T L → Except Err (Dict F T L)
  | [], a => .ok a
  | .step s :: t, a =>
    match step lib s a with
    | .error e => .error e
    | .ok b => live lib c t b
  | .reload :: t, a =>
    match reload lib (loadColumn lib) (.obj c.name a) with
    | .error e => .error e
    | .ok (.obj _ b) => live lib c t b
    | .ok _ => .error .typeError

end Verif.ColumnJson
