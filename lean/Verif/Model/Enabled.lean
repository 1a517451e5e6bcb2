import Verif.Model.Options
import Verif.Model.Calculations
import Mathlib.Data.Nat.Notation

/-!
# What options make a column calculate

Models the way from options to statistics: `is_prop_enabled` (dataprofiler/profilers/profiler_options.py:339-361), the
state of the numeric statistics (420-445, 812-837), the calculations that a numeric column keeps
(numerical_column_stats.py:117-131, float_column_profile.py:60-63, text_column_profile.py:42-43,
unstructured_text_profile.py:471-475), the columns that are made (column_profile_compilers.py:71-112), and an update of a
numeric column with these calculations (numerical_column_stats.py:1734-1990).

Simplifications
* floats and their operations are parameters (`Arith`), infinities and NaN among them;
* the dictionary of statistics of a batch, whose keys are fixed, is a record of optional entries;
* a histogram is an arbitrary state with an update;
* times, the history of batches and warnings are left out.
-/

namespace Verif.Enabled

open Verif Verif.Options

/-! ### Calculations -/

/-- `isinstance(option, BooleanOption)` (classes of profiler_options.py). -/
def isBoolean : Cls → Bool
  | .hll | .structured | .unstructured | .profiler => false
  | _ => true

/-- `is_numeric_stats_enabled` (profiler_options.py:420-445, 812-837). -/
def numericStats (cls : Cls) (fields : Fields) : Bool :=
  (switched cls).any fun n => truthy (attr (.obj cls fields) [n, "is_enabled"])

/-- `is_prop_enabled` (profiler_options.py:339-361), as a truth value. -/
def isPropEnabled (o : Opt) (prop : String) : Except Err Bool :=
  match o with
  | .val _ => .error .attributeError
  | .obj cls fields =>
    match PyDict.get? fields prop with
    | some (.val (.bool b)) => .ok b
    | some (.val _) => .ok true
    | some (.obj c fs) => if isBoolean c then .ok (truthy (attr (.obj c fs) ["is_enabled"])) else .ok true
    | none => if computed cls prop then .ok (numericStats cls fields) else .error .attributeError

/-- `_filter_properties_w_options` (base_column_profilers.py:82-95) with options that may raise: the names that remain. -/
def filterNames (options : Option Opt) : List String → Except Err (List String)
  | [] => .ok []
  | n :: rest =>
    match options with
    | none => (filterNames options rest).map (n :: ·)
    | some o => (isPropEnabled o n).bind fun b =>
        (filterNames options rest).map fun l => if b then n :: l else l

/-- The calculations of a numeric column (numerical_column_stats.py:117-127). -/
def numericNames : List String :=
  ["min", "max", "sum", "variance", "skewness", "kurtosis", "histogram_and_quantiles", "num_zeros", "num_negatives"]

/-- Kinds of columns with calculations. -/
inductive Kind where
  | int | float | text | unstructured
deriving DecidableEq

/-- The calculations of a column: the numeric ones and its own (numerical_column_stats.py:117-131,
int_column_profile.py:37-39, float_column_profile.py:60-63, text_column_profile.py:42-43,
unstructured_text_profile.py:471-475). -/
def ownNames : Kind → List String × List String
  | .int => (numericNames, [])
  | .float => (numericNames, ["precision"])
  | .text => (numericNames, ["vocab"])
  | .unstructured => ([], ["vocab", "words"])

/-- The calculations of a new column: first the numeric ones. -/
def calculations (k : Kind) (options : Option Opt) : Except Err (List String × List String) :=
  (filterNames options (ownNames k).1).bind fun numeric =>
    (filterNames options (ownNames k).2).map fun own => (numeric, own)

/-! ### Columns -/

/-- The compilers' columns (column_profile_compilers.py:261-266, 375-378, 420, 471-474). -/
inductive Compiler where
  | primitive | stats | labeler | unstructured
deriving DecidableEq

/-- `_profilers`, by type (column_profile_compilers.py:261-266, 375-378, 420, 471-474). -/
def profilers : Compiler → List String
  | .primitive => ["datetime", "int", "float", "text"]
  | .stats => ["order", "category"]
  | .labeler => ["data_labeler"]
  | .unstructured => ["text", "data_labeler"]

/-- `UnstructuredOptions.enabled_profiles` (profiler_options.py:1641-1648). -/
def enabledUnstructured (o : Opt) : List String :=
  match o with
  | .obj _ fields => (fields.map Prod.fst).filter fun n => truthy (attr o [n, "is_enabled"])
  | .val _ => []

/-- `options.enabled_profiles`. -/
def enabledOf (c : Compiler) (o : Opt) : List String :=
  if c = .unstructured then enabledUnstructured o else enabledProfiles o

/-- `warn_on_profile` (profiler_utils.py:143-165): a warning, but an exception of the class `ValueError` is raised again. -/
def warnOnProfile (cls : String) : Except Err Unit := if cls = "ValueError" then .error .valueError else .ok ()

/-- The loop of `_create_profile` (column_profile_compilers.py:92-109): the columns made, and those left out with a warning because making them
raised an exception of a class (`raises`). -/
def make (raises : String → Option String) : List String → Except Err (List String × List String)
  | [] => .ok ([], [])
  | n :: rest =>
    match raises n with
    | none => (make raises rest).map fun r => (n :: r.1, r.2)
    | some cls => (warnOnProfile cls).bind fun _ => (make raises rest).map fun r => (r.1, n :: r.2)

/-- `_create_profile` (column_profile_compilers.py:72-109). -/
def created (c : Compiler) (options : Option Opt) (raises : String → Option String) : Except Err (List String × List String) :=
  make raises (match options with
    | none => profilers c
    | some o => (profilers c).filter fun n => (enabledOf c o).contains n)

/-! ### An update of a numeric column -/

/-- Floats: `F`, with the functions used by the calculations. -/
structure Arith (F : Type) where
  isInf : F → Bool
  isNan : F → Bool
  falsy : F → Bool
  least : List F → F
  greatest : List F → F
  smaller : F → F → F
  larger : F → F → F
  total : List F → F
  add : F → F → F
  zero : F
  nan : F
  over : F → ℕ → F
  var : List F → F
  skew : List F → F
  kurt : List F → F
  mergeVar : ℕ → F → F → ℕ → F → F → F
  mergeSkew : ℕ → F → F → F → ℕ → F → F → F → F
  mergeKurt : ℕ → F → F → F → F → ℕ → F → F → F → F → F
  zeros : List F → ℕ
  negatives : List F → ℕ

/-- State of a numeric column (numerical_column_stats.py:59-84); `H` is the state of its histogram. -/
structure Col (F H : Type) where
  count : ℕ
  min : Option F
  max : Option F
  sum : F
  var : F
  skew : F
  kurt : F
  hist : H
  zeros : ℕ
  negatives : ℕ
deriving DecidableEq

/-- Entries of `subset_properties` that calculations read (numerical_column_stats.py:1806-1915). -/
structure Batch (F : Type) where
  sum : Option F := none
  mean : Option F := none
  var : Option F := none
  skew : Option F := none

/-- `prev_dependent_properties` (numerical_column_stats.py:1747-1752). -/
structure Prev (F : Type) where
  mean : F
  var : F
  skew : F
  kurt : F

section update

variable {F H : Type} (A : Arith F) (step : H → List F → H)

/-- `d[key]`. -/
def need {α : Type} : Option α → Except Err α
  | some x => .ok x
  | none => .error .keyError

/-- A new column. -/
def fresh (h : H) : Col F H := ⟨0, none, none, A.zero, A.nan, A.nan, A.nan, h, 0, 0⟩

/-- `mean` (numerical_column_stats.py:538-543). -/
def mean (s : Col F H) : F := if s.count = 0 then A.zero else A.over s.sum s.count

/-- Infinite, or NaN although there are values (numerical_column_stats.py:1795, 1817-1819, 1861-1863, 1905-1907). -/
def spoiled (x : F) (count : ℕ) : Bool := A.isInf x || (A.isNan x && decide (0 < count))

/-- `x if not self.x else f(self.x, x)` (numerical_column_stats.py:1773, 1784). -/
def extreme (f : F → F → F) (x : F) : Option F → F
  | none => x
  | some y => if A.falsy y then x else f y x

/-- `_get_min` (numerical_column_stats.py:1765-1774). -/
def getMin (values : List F) (s : Col F H) : Col F H :=
  { s with min := some (extreme A A.smaller (A.least values) s.min) }

/-- `_get_max` (numerical_column_stats.py:1776-1785). -/
def getMax (values : List F) (s : Col F H) : Col F H :=
  { s with max := some (extreme A A.larger (A.greatest values) s.max) }

/-- `_get_sum` (numerical_column_stats.py:1787-1807). -/
def getSum (values : List F) (s : Col F H) (b : Batch F) : Col F H × Batch F :=
  if spoiled A s.sum s.count then (s, b)
  else ({ s with sum := A.add s.sum (A.total values) }, { b with sum := some (A.total values) })

/-- `_get_variance` (numerical_column_stats.py:1809-1837). -/
def getVariance (p : Prev F) (values : List F) (s : Col F H) (b : Batch F) : Except Err (Col F H × Batch F) :=
  if spoiled A s.var s.count then .ok (s, b)
  else (need b.sum).bind fun sum =>
    let m := if values.length = 0 then A.zero else A.over sum values.length
    .ok ({ s with var := A.mergeVar s.count s.var p.mean values.length (A.var values) m },
      { b with var := some (A.var values), mean := some m })

/-- `_get_skewness` (numerical_column_stats.py:1839-1881). -/
def getSkewness (p : Prev F) (values : List F) (s : Col F H) (b : Batch F) : Except Err (Col F H × Batch F) :=
  if spoiled A s.skew s.count then .ok (s, b)
  else (need b.var).bind fun v => (need b.mean).bind fun m =>
    .ok ({ s with skew := A.mergeSkew s.count s.skew p.var p.mean values.length (A.skew values) v m },
      { b with skew := some (A.skew values) })

/-- `_get_kurtosis` (numerical_column_stats.py:1883-1928). -/
def getKurtosis (p : Prev F) (values : List F) (s : Col F H) (b : Batch F) : Except Err (Col F H × Batch F) :=
  if spoiled A s.kurt s.count then .ok (s, b)
  else (need b.var).bind fun v => (need b.skew).bind fun k => (need b.mean).bind fun m =>
    .ok ({ s with kurt := A.mergeKurt s.count s.kurt p.skew p.var p.mean values.length (A.kurt values) k v m }, b)

/-- One calculation, by name (numerical_column_stats.py:117-127). -/
def calculate (p : Prev F) (values : List F) (name : String) (s : Col F H) (b : Batch F) : Except Err (Col F H × Batch F) :=
  if name = "min" then .ok (getMin A values s, b)
  else if name = "max" then .ok (getMax A values s, b)
  else if name = "sum" then .ok (getSum A values s b)
  else if name = "variance" then getVariance A p values s b
  else if name = "skewness" then getSkewness A p values s b
  else if name = "kurtosis" then getKurtosis A p values s b
  else if name = "histogram_and_quantiles" then .ok ({ s with hist := step s.hist values }, b)
  else if name = "num_zeros" then .ok ({ s with zeros := s.zeros + A.zeros values }, b)
  else if name = "num_negatives" then .ok ({ s with negatives := s.negatives + A.negatives values }, b)
  else .error .keyError

/-- `_perform_property_calcs` (base_column_profilers.py:119-122). -/
def perform (p : Prev F) (values : List F) : List String → Col F H → Batch F → Except Err (Col F H × Batch F)
  | [], s, b => .ok (s, b)
  | n :: rest, s, b => (calculate A step p values n s b).bind fun r => perform p values rest r.1 r.2

/-- `update` of a numeric column with the values of a batch that match
(int_column_profile.py:147-149, numerical_column_stats.py:1744-1763). -/
def update (names : List String) (values : List F) (s : Col F H) : Except Err (Col F H) :=
  (if names = [] ∨ values = [] then .ok s
    else (perform A step ⟨mean A s, s.var, s.skew, s.kurt⟩ values names s {}).map Prod.fst).map fun r =>
      { r with count := r.count + values.length }

/-- Updates one after the other. -/
def updates (names : List String) : List (List F) → Col F H → Except Err (Col F H)
  | [], s => .ok s
  | values :: rest, s => (update A step names values s).bind (updates names rest)

/-- `type` of a column of text after an update (text_column_profile.py:170-171); `short x` is `x <= 255`. -/
def textType (short : F → Bool) (s : Col F H) : String :=
  match s.max with
  | none => "text"
  | some x => if A.falsy x then "text" else if short x then "string" else "text"

end update

/-! ### Quantiles and modes -/

/-- The number of quantiles of `_get_quantiles` (numerical_column_stats.py:1729-1732): `None - 1` raises, which
`_get_histogram_and_quantiles` turns into a warning (1944-1948). -/
def quantileCount (num : PV) : Except Err ℕ :=
  match num with
  | .int i => .ok (i - 1).toNat
  | .bool b => .ok ((if b then 1 else 0) - 1)
  | .regexFlag n => .ok (n - 1)
  | _ => .error .typeError

/-- Loop of `_estimate_mode_from_histogram` (numerical_column_stats.py:1097-1108): the greatest count so far, the bins
with it, and the position. `count < None` raises. -/
def modeLoop (limit : PV) : List ℕ → ℕ → Int → List ℕ → Except Err (List ℕ)
  | [], _, _, found => .ok found
  | c :: rest, i, top, found =>
    if (c : Int) > top then modeLoop limit rest (i + 1) c [i]
    else if (c : Int) = top then
      match limit with
      | .int k => modeLoop limit rest (i + 1) top (if (found.length : Int) < k then found ++ [i] else found)
      | .bool k => modeLoop limit rest (i + 1) top (if found.length < (if k then 1 else 0) then found ++ [i] else found)
      | .regexFlag k => modeLoop limit rest (i + 1) top (if found.length < k then found ++ [i] else found)
      | _ => .error .typeError
    else modeLoop limit rest (i + 1) top found

/-- The bins of `_estimate_mode_from_histogram` (numerical_column_stats.py:1093-1109). -/
def modeBins (limit : PV) (counts : List ℕ) : Except Err (List ℕ) := modeLoop limit counts 0 (-1) []

end Verif.Enabled
