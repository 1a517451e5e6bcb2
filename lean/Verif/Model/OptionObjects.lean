import Verif.Model.Basic
import Verif.Model.PyDict

/-!
# Copies and comparison of options

Models dataprofiler/profilers/profiler_options.py: `BaseOption.properties` (25-33), `BaseOption.__eq__` (172-181),
`NumericalOptions.properties` (473-482), `DataLabelerOptions.__deepcopy__` (1231-1249) and `DataLabelerOptions.properties`
(1251-1264), together with what they take from Python: `==` of objects and of dictionaries, and `copy.deepcopy`.

Every object that can be changed carries its address, so that two places holding the same object and two places holding
equal objects are different things.

Simplifications
* a value that is not an option object is an immutable value, a container of plain values (changed as a whole) or a data
  labeler; option objects do not contain themselves;
* `==` of plain values includes the identity test that the comparison of dictionaries makes first, and `==` of two different
  data labelers is a parameter (base_data_labeler.py:54-77);
* `copy.deepcopy` gives an object met twice one copy: the new address is a function of the old one;
* dictionaries are compared key by key in the order of the first.
-/

namespace Verif.OptionObjects

open Verif

/-- Classes of options (the `class` lines of profiler_options.py). -/
inductive Cls where
  | boolean | histogram | mode | inspector | numerical | int | precision | float | text | datetime | order | categorical
  | correlation | hll | uniqueCount | rowStatistics | dataLabeler | textProfiler | structured | unstructured | profiler
deriving DecidableEq

/-- The classes a class inherits from, itself first and `BaseOption` left out (profiler_options.py:184, 214, 279, 314, 363,
582, 634, 679, 736, 863, 887, 911, 1036, 1075, 1119, 1160, 1210, 1336, 1428, 1626, 1684). -/
def mro : Cls → List Cls
  | .boolean => [.boolean]
  | .histogram => [.histogram, .boolean]
  | .mode => [.mode, .boolean]
  | .inspector => [.inspector, .boolean]
  | .numerical => [.numerical, .inspector, .boolean]
  | .int => [.int, .numerical, .inspector, .boolean]
  | .precision => [.precision, .boolean]
  | .float => [.float, .numerical, .inspector, .boolean]
  | .text => [.text, .numerical, .inspector, .boolean]
  | .datetime => [.datetime, .inspector, .boolean]
  | .order => [.order, .inspector, .boolean]
  | .categorical => [.categorical, .inspector, .boolean]
  | .correlation => [.correlation, .inspector, .boolean]
  | .hll => [.hll]
  | .uniqueCount => [.uniqueCount, .boolean]
  | .rowStatistics => [.rowStatistics, .boolean]
  | .dataLabeler => [.dataLabeler, .inspector, .boolean]
  | .textProfiler => [.textProfiler, .inspector, .boolean]
  | .structured => [.structured]
  | .unstructured => [.unstructured]
  | .profiler => [.profiler]

/-- `isinstance(other, cls)` for an `other` of class `c`. -/
def isSub (c cls : Cls) : Bool := (mro c).contains cls

/-- Values. `Nat`s are addresses. -/
inductive Obj (α : Type) where
  | imm (a : α)
  | cont (addr : Nat) (a : α)
  | labeler (addr : Nat)
  | opt (addr : Nat) (cls : Cls) (fields : List (String × Obj α))

/-- The attributes of an option object, its `__dict__`. -/
abbrev Fields (α : Type) := List (String × Obj α)

/-- What is taken from Python and from the data labelers. -/
structure Ops (α : Type) where
  /-- `x is y or x == y` of plain values -/
  eq : α → α → Bool
  /-- `==` of two different data labelers -/
  labelerEq : Nat → Nat → Bool
  /-- `bool(x)` -/
  truthy : α → Bool
  /-- `True` and `False` -/
  ofBool : Bool → α

/-! ### Comparison -/

mutual
/-- `a == b`. The method of the right operand goes first when its class is a proper subclass of that of the left (Python data
model); it is `BaseOption.__eq__` either way (profiler_options.py:172-181), and never defers to the other operand. -/
def eqObj {α : Type} (ops : Ops α) : Obj α → Obj α → Bool
  | .imm a, .imm b => ops.eq a b
  | .imm a, .cont _ b => ops.eq a b
  | .cont _ a, .imm b => ops.eq a b
  | .cont _ a, .cont _ b => ops.eq a b
  | .labeler i, .labeler j => i == j || ops.labelerEq i j
  | .opt _ ca fa, .opt _ cb fb =>
    if isSub cb ca && cb != ca then isSub ca cb && (fa.length == fb.length && eqFields ops fa fb)
    else isSub cb ca && (fa.length == fb.length && eqFields ops fa fb)
  | _, _ => false

/-- `self.__dict__ == other.__dict__` for dictionaries of the same size (profiler_options.py:181). -/
def eqFields {α : Type} (ops : Ops α) : Fields α → Fields α → Bool
  | [], _ => true
  | (k, v) :: rest, fb =>
    (match PyDict.get? fb k with
      | some w => eqObj ops v w
      | none => false) && eqFields ops rest fb
end

/-! ### Copies -/

mutual
/-- `copy.deepcopy(o)`, where `fresh` gives the address of the copy of an object. A `DataLabelerOptions` keeps its data
labeler (profiler_options.py:1231-1249). -/
def deepcopy {α : Type} (fresh : Nat → Nat) : Obj α → Obj α
  | .imm a => .imm a
  | .cont i a => .cont (fresh i) a
  | .labeler i => .labeler (fresh i)
  | .opt i cls fields => .opt (fresh i) cls (copyFields fresh (cls == .dataLabeler) fields)

/-- Copies of attributes; `keep` says whether a data labeler is kept (profiler_options.py:1244-1248). -/
def copyFields {α : Type} (fresh : Nat → Nat) (keep : Bool) : Fields α → Fields α
  | [] => []
  | (k, v) :: rest =>
    (k, if keep && k == "data_labeler_object" then v else deepcopy fresh v) :: copyFields fresh keep rest
end

/-- The statistics `is_numeric_stats_enabled` looks at, in order (profiler_options.py:430-445, 823-837). -/
def statistics : Cls → List String
  | .text => ["min", "max", "sum", "mode", "variance", "skewness", "kurtosis", "median", "median_abs_deviation",
      "histogram_and_quantiles"]
  | _ => ["min", "max", "mode", "sum", "variance", "skewness", "kurtosis", "median", "median_abs_deviation",
      "histogram_and_quantiles", "num_zeros", "num_negatives"]

/-- `self.<name>.is_enabled` as a truth value. -/
def enabledAt {α : Type} (ops : Ops α) (fields : Fields α) (name : String) : Except Err Bool :=
  match PyDict.get? fields name with
  | some (.opt _ _ fs) =>
    match PyDict.get? fs "is_enabled" with
    | some (.imm a) => .ok (ops.truthy a)
    | some (.cont _ a) => .ok (ops.truthy a)
    | some _ => .ok true
    | none => .error .attributeError
  | _ => .error .attributeError

/-- The chain of `or` in `is_numeric_stats_enabled` (profiler_options.py:430-445, 823-837). -/
def anyEnabled {α : Type} (ops : Ops α) (fields : Fields α) : List String → Except Err Bool
  | [] => .ok false
  | n :: rest =>
    match enabledAt ops fields n with
    | .error e => .error e
    | .ok true => .ok true
    | .ok false => anyEnabled ops fields rest

/-- `options.properties` (profiler_options.py:25-33, 473-482, 1251-1264). -/
def properties {α : Type} (ops : Ops α) (fresh : Nat → Nat) (cls : Cls) (fields : Fields α) : Except Err (Fields α) :=
  if isSub cls .numerical then
    match anyEnabled ops fields (statistics cls) with
    | .error e => .error e
    | .ok b => .ok (PyDict.set (copyFields fresh false fields) "is_numeric_stats_enabled" (.imm (ops.ofBool b)))
  else if isSub cls .dataLabeler then
    match PyDict.get? fields "data_labeler_object" with
    | none => .error .attributeError
    | some l =>
      .ok (PyDict.set (copyFields fresh false (fields.filter fun kv => kv.1 != "data_labeler_object"))
        "data_labeler_object" l)
  else .ok (copyFields fresh false fields)

/-! ### Changes -/

/-- What one may do to an object: set an attribute of an option object, or change a container. -/
inductive Act (α : Type) where
  | attr (name : String) (v : Obj α)
  | contents (a : α)

mutual
/-- A value as seen after the object at an address was changed. -/
def poke {α : Type} (addr : Nat) (act : Act α) : Obj α → Obj α
  | .imm a => .imm a
  | .cont i a =>
    match act with
    | .contents b => .cont i (if i = addr then b else a)
    | .attr _ _ => .cont i a
  | .labeler i => .labeler i
  | .opt i cls fields =>
    match act with
    | .attr name v =>
      .opt i cls (if i = addr then PyDict.set (pokeFields addr act fields) name v else pokeFields addr act fields)
    | .contents _ => .opt i cls (pokeFields addr act fields)

/-- The same for attributes. -/
def pokeFields {α : Type} (addr : Nat) (act : Act α) : Fields α → Fields α
  | [] => []
  | (k, v) :: rest => (k, poke addr act v) :: pokeFields addr act rest
end

end Verif.OptionObjects
