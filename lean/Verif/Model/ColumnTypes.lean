import Mathlib.Data.Rat.Floor
import Verif.Model.PyDict
import Verif.Model.Basic

/-!
# The data type of a column

Models the counting part of `DateTimeColumn`, `IntColumn`, `FloatColumn`, `TextColumn` and
`ColumnPrimitiveTypeProfileCompiler` (dataprofiler/profilers/column_profile_compilers.py:74-145, 163-222, 255-317;
int_column_profile.py:104-179; float_column_profile.py:264-275, 324-342, 433-462; text_column_profile.py:121-198;
datetime_column_profile.py:428-451; base_column_profilers.py:297-339; numerical_column_stats.py:2004-2044).

Simplifications
* `float(x)` is an arbitrary function `toFloat` on texts; how many values of a batch `DateTimeColumn` counts as dates is
  part of the batch (see `Verif.Model.DateTime`);
* a ratio is an exact fraction;
* statistics other than counts, and the text lengths that decide between "string" and "text", are left out; creating a
  profile never fails; numeric statistics of the text column are enabled.
-/

namespace Verif.ColumnTypes

open Verif

/-- The four primitive types, in the order of `_profilers` (column_profile_compilers.py:261-266). -/
inductive Ty where
  | datetime | int | float | text
deriving DecidableEq, Repr

/-- `_profilers` (column_profile_compilers.py:261-266). -/
def order : List Ty := [.datetime, .int, .float, .text]

/-- A Python float. -/
inductive Flt where
  | fin (q : ℚ)
  | inf
  | nan
deriving DecidableEq

/-- `is_float` (numerical_column_stats.py:2004-2022). -/
def isFloat (toFloat : String → Option Flt) (x : String) : Bool :=
  match toFloat x with
  | none => false
  | some _ => true

/-- `is_int` (numerical_column_stats.py:2025-2044): `int` raises on infinities and nan, otherwise truncates. -/
def isInt (toFloat : String → Option Flt) (x : String) : Bool :=
  match toFloat x with
  | some (.fin q) => decide (q = (if 0 ≤ q then ⌊q⌋ else ⌈q⌉ : ℤ))
  | _ => false

/-- A batch of values and the number of them counted as dates. -/
structure Batch where
  values : List String
  dates : ℕ

/-- Counts of one type (base_column_profilers.py:303-323). -/
structure Prim where
  matchCount : ℕ
  sampleSize : ℕ
deriving DecidableEq

/-- `data_type_ratio` of the date, int and float columns (int_column_profile.py:104-113, float_column_profile.py:264-275,
datetime_column_profile.py:160-170). -/
def Prim.ratio (p : Prim) : Option ℚ := if p.sampleSize = 0 then none else some (p.matchCount / p.sampleSize)

/-- `data_type_ratio` of any column; text matches everything (text_column_profile.py:121-131). -/
def ratio (t : Ty) (p : Prim) : Option ℚ :=
  match t with
  | .text => if p.sampleSize = 0 then none else some 1
  | _ => p.ratio

/-- The values of a batch that match a type (int_column_profile.py:163-166, float_column_profile.py:444-447,
text_column_profile.py:183, datetime_column_profile.py:439-441). -/
def matching (toFloat : String → Option Flt) (t : Ty) (b : Batch) : ℕ :=
  match t with
  | .datetime => b.dates
  | .int => b.values.countP (isInt toFloat)
  | .float => b.values.countP (isFloat toFloat)
  | .text => b.values.length

/-- `update` of a column: nothing for an empty batch (int_column_profile.py:151-179 and alike). -/
def Prim.update (toFloat : String → Option Flt) (t : Ty) (p : Prim) (b : Batch) : Prim :=
  if b.values = [] then p else ⟨p.matchCount + matching toFloat t b, p.sampleSize + b.values.length⟩

/-- The part of a compiler that matters: enabled profiles in order, the length of the longest text and the `type` shown
by the text profile. -/
structure Compiler where
  profs : PyDict Ty Prim
  longest : Option ℕ
  label : String
deriving DecidableEq

/-- `_create_profile` before any data (column_profile_compilers.py:91-109). -/
def create (enabled : Ty → Bool) : Compiler :=
  ⟨(order.filter fun t => enabled t).map fun t => (t, ⟨0, 0⟩), none, "text"⟩

/-- Longest text of a list. -/
def longestOf (m : Option ℕ) (xs : List String) : Option ℕ :=
  xs.foldl (fun m x => some (match m with | none => x.length | some k => max k x.length)) m

/-- `self.type` after an update (text_column_profile.py:170-171). -/
def relabel (old : String) (m : Option ℕ) : String :=
  match m with
  | none => old
  | some k => if k = 0 then old else if k ≤ 255 then "string" else "text"

/-- `update_profile` (column_profile_compilers.py:163-222). -/
def update (toFloat : String → Option Flt) (c : Compiler) (b : Batch) : Compiler :=
  ⟨c.profs.map fun kv => (kv.1, kv.2.update toFloat kv.1 b), longestOf c.longest b.values,
    if b.values = [] then c.label else relabel c.label (longestOf c.longest b.values)⟩

/-- Sum of counts (base_column_profilers.py:178, 339). -/
def Prim.add (p q : Prim) : Prim := ⟨p.matchCount + q.matchCount, p.sampleSize + q.sampleSize⟩

/-- Longest text of two profiles. -/
def longestMerge (a b : Option ℕ) : Option ℕ :=
  match a, b with
  | none, m => m
  | m, none => m
  | some x, some y => some (max x y)

/-- Values paired by key, in the order of the first dictionary. -/
def mergeProfs (q : PyDict Ty Prim) : PyDict Ty Prim → Except Err (PyDict Ty Prim)
  | [] => .ok []
  | (t, a) :: rest =>
    match PyDict.get? q t with
    | none => .error .keyError
    | some b => match mergeProfs q rest with
      | .error e => .error e
      | .ok r => .ok ((t, a.add b) :: r)

/-- `__add__` (column_profile_compilers.py:114-145, text_column_profile.py:45-69): the merged text profile is a new one,
so that it shows "text". -/
def merge (c d : Compiler) : Except Err Compiler :=
  if (∀ t ∈ PyDict.keys c.profs, t ∈ PyDict.keys d.profs) ∧ (∀ t ∈ PyDict.keys d.profs, t ∈ PyDict.keys c.profs) then
    match mergeProfs d.profs c.profs with
    | .error e => .error e
    | .ok r => .ok ⟨r, longestMerge c.longest d.longest, "text"⟩
  else .error .valueError

/-- `selected_data_type` (column_profile_compilers.py:304-317). -/
def selectedOf : PyDict Ty Prim → Option Ty
  | [] => none
  | (t, p) :: rest => if ratio t p = some 1 then some t else selectedOf rest

@[inherit_doc selectedOf] def selected (c : Compiler) : Option Ty := selectedOf c.profs

/-- `profiler.type`. -/
def shown (c : Compiler) : Ty → String
  | .datetime => "datetime"
  | .int => "int"
  | .float => "float"
  | .text => c.label

/-- `report`: data type and data type representation (column_profile_compilers.py:269-296). -/
def reportLoop (c : Compiler) : PyDict Ty Prim → Option String → PyDict String (Option ℚ) →
    Option String × PyDict String (Option ℚ)
  | [], ty, rep => (ty, rep)
  | (t, p) :: rest, ty, rep =>
    reportLoop c rest (if ty = none ∧ ratio t p = some 1 then some (shown c t) else ty)
      (PyDict.set rep (shown c t) (ratio t p))

@[inherit_doc reportLoop] def report (c : Compiler) : Option String × PyDict String (Option ℚ) :=
  reportLoop c c.profs none []

/-- Everything that can happen to a compiler. -/
inductive History where
  | new
  | update (h : History) (b : Batch)
  | merge (h1 h2 : History)

/-- The resulting compiler. -/
def run (toFloat : String → Option Flt) (enabled : Ty → Bool) : History → Except Err Compiler
  | .new => .ok (create enabled)
  | .update h b => match run toFloat enabled h with
    | .error e => .error e
    | .ok c => .ok (update toFloat c b)
  | .merge h1 h2 => match run toFloat enabled h1, run toFloat enabled h2 with
    | .ok c, .ok d => merge c d
    | .error e, _ => .error e
    | _, .error e => .error e

end Verif.ColumnTypes
