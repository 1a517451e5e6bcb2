import Mathlib.Algebra.Order.Field.Rat
import Verif.Model.Basic
import Verif.Model.PyDict
import Verif.Model.Schema

/-!
# Validators

Models dataprofiler/validators/base_validators.py:12-147.  A data frame is a dictionary of columns with distinct names;
a column is a list of labelled cells.  Python's `float(...)` is a parameter, so are the cells.  `df_type` is given in
lower case.  Dask evaluates the rows in order.  A NaN is not in any list (Python would find the very same object).
-/

namespace Verif.Validator

open Verif
open Verif.Schema (Key)

/-- Python floats. -/
inductive Flt where
  | nan
  | neg
  | fin (q : ℚ)
  | pos
  deriving DecidableEq

/-- `a <= b` of floats. -/
def Flt.le : Flt → Flt → Bool
  | .nan, _ => false
  | _, .nan => false
  | .neg, _ => true
  | _, .pos => true
  | .fin p, .fin q => decide (p ≤ q)
  | _, _ => false

/-- `a == b` of floats. -/
def Flt.eq : Flt → Flt → Bool
  | .nan, _ => false
  | a, b => decide (a = b)

/-- An entry of a list in the configuration: a number, or something no float equals. -/
inductive Item where
  | num (f : Flt)
  | other
  deriving DecidableEq

/-- What is configured for a check: a dictionary of cells, or a list. -/
inductive Param (C : Type) where
  | dict (d : PyDict String C)
  | list (l : List Item)

variable {C : Type}

/-- `is_in_range` (base_validators.py:12-25): every exception becomes a `TypeError`; the end is only converted if the
start is not above the value. -/
def inRange (flt : C → Except Err Flt) (p : Param C) (x : C) : Except Err Bool :=
  match p with
  | .list _ => .error .typeError
  | .dict d =>
    match PyDict.get? d "start" with
    | none => .error .typeError
    | some s =>
      match flt s, flt x with
      | .ok a, .ok v =>
        if Flt.le a v then
          match PyDict.get? d "end" with
          | none => .error .typeError
          | some e =>
            match flt e with
            | .ok b => .ok (Flt.le v b)
            | .error _ => .error .typeError
        else .ok false
      | _, _ => .error .typeError

/-- Whether a float equals an entry of a list. -/
def Item.hit (v : Flt) : Item → Bool
  | .num f => Flt.eq v f
  | .other => false

/-- `is_in_list` (base_validators.py:28-38): the keys of a dictionary are strings, which no float equals. -/
def inList (flt : C → Except Err Flt) (p : Param C) (x : C) : Except Err Bool :=
  match flt x with
  | .error e => .error e
  | .ok v =>
    match p with
    | .dict _ => .ok false
    | .list l => .ok (l.any (Item.hit v))

/-- Apply a check to a column (base_validators.py:102-126): the booleans of the rows, or the exception. -/
def results (f : C → Except Err Bool) : List C → Except Err (List Bool)
  | [] => .ok []
  | x :: xs =>
    match f x with
    | .error e => .error e
    | .ok b =>
      match results f xs with
      | .error e => .error e
      | .ok bs => .ok (b :: bs)

/-- `[idx for idx, val in enumerate(results) if val]`, counting from `i`. -/
def positions : ℕ → List Bool → List Key
  | _, [] => []
  | i, true :: bs => .int i :: positions (i + 1) bs
  | i, false :: bs => positions (i + 1) bs

/-- `[idx for idx, val in results.items() if val]`. -/
def labels : List (Key × C) → List Bool → List Key
  | (k, _) :: rows, true :: bs => k :: labels rows bs
  | _ :: rows, false :: bs => labels rows bs
  | _, _ => []

/-- A column of a data frame. -/
abbrev Column (C : Type) := List (Key × C)

/-- The entry of a check in the report: `dict()` while the check has not been evaluated, then a list. -/
abbrev Entry := Option (List Key)

/-- The configuration: the checks, the type of the data frame, and whether there are other keys. -/
structure Config (C : Type) where
  checks : Option (PyDict String (PyDict String (Param C)))
  dfType : Option String
  others : Bool

/-- A validator. -/
structure State where
  run : Bool
  report : PyDict String (PyDict String Entry)
  deriving DecidableEq

/-- `Validator()` (base_validators.py:44-49). -/
def new : State := ⟨false, []⟩

/-- The function applied to the cells (base_validators.py:98-100). -/
def predicate (flt : C → Except Err Flt) (check : String) (p : Param C) : C → Except Err Bool :=
  if check = "range" then inRange flt p else inList flt p

/-- One check of one column (base_validators.py:93-132): the entry, or the exception. -/
def evaluate (flt : C → Except Err Flt) (dfType : String) (rows : Column C) (check : String) (p : Param C) :
    Except Err (List Key) :=
  if check ≠ "range" ∧ check ≠ "list" then .error .typeError
  else if dfType = "dask" then (results (predicate flt check p) (rows.map (·.2))).map (positions 0)
  else if dfType = "pandas" then (results (predicate flt check p) (rows.map (·.2))).map (labels rows)
  else .error .valueError

/-- The checks of a column (base_validators.py:92-134): its part of the report, and the exception. -/
def column (flt : C → Except Err Flt) (dfType : String) (rows : Column C) :
    PyDict String Entry → List (String × Param C) → PyDict String Entry × Option Err
  | acc, [] => (acc, none)
  | acc, (check, p) :: rest =>
    match evaluate flt dfType rows check p with
    | .error e => (PyDict.set acc check none, some e)
    | .ok ks => column flt dfType rows (PyDict.set acc check (some ks)) rest

/-- The columns (base_validators.py:89-134): the report, and the exception. -/
def columns (flt : C → Except Err Flt) (dfType : String) (data : PyDict String (Column C)) :
    PyDict String (PyDict String Entry) → List (String × PyDict String (Param C)) →
    PyDict String (PyDict String Entry) × Option Err
  | acc, [] => (acc, none)
  | acc, (name, checks) :: rest =>
    match PyDict.get? data name with
    | none => (PyDict.set acc name [], some .keyError)
    | some rows =>
      let r := column flt dfType rows [] checks
      match r.2 with
      | some e => (PyDict.set acc name r.1, some e)
      | none => columns flt dfType data (PyDict.set acc name r.1) rest

/-- `validate` (base_validators.py:51-136). -/
def validate (flt : C → Except Err Flt) (data : PyDict String (Column C)) (config : Config C) (s : State) :
    State × Option Err :=
  if config.checks.isNone ∧ config.dfType.isNone ∧ ¬ config.others then (s, some .valueError)
  else
    let checks := config.checks.getD []
    if checks.any fun c => c.2.isEmpty then (s, some .warning)
    else
      let r := columns flt (config.dfType.getD "") data s.report checks
      match r.2 with
      | some e => ({ s with report := r.1 }, some e)
      | none => (⟨true, r.1⟩, none)

/-- `get` (base_validators.py:138-147). -/
def get (s : State) : Except Err (PyDict String (PyDict String Entry)) :=
  if s.run then .ok s.report else .error .warning

/-- A sequence of calls on one validator. -/
def history (flt : C → Except Err Flt) : List (PyDict String (Column C) × Config C) → State → State
  | [], s => s
  | (data, config) :: rest, s => history flt rest (validate flt data config s).1

end Verif.Validator
