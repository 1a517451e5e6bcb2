import Verif.Model.Validator

/-!
# What validation should report
-/

namespace Verif.Spec.Validator

open Verif Verif.Validator
open Verif.Schema (Key)

variable {C : Type}

/-- The order of floats: a NaN compares with nothing. -/
def Below : Flt → Flt → Prop
  | .fin p, .fin q => p ≤ q
  | .neg, b => b ≠ .nan
  | a, .pos => a ≠ .nan
  | _, _ => False

/-- A cell satisfies a check. -/
def Holds (flt : C → Except Err Flt) (check : String) (p : Param C) (x : C) : Prop :=
  ∃ v, flt x = .ok v ∧
    ((check = "range" ∧ ∃ d s e a b, p = .dict d ∧ PyDict.get? d "start" = some s ∧ PyDict.get? d "end" = some e ∧
        flt s = .ok a ∧ flt e = .ok b ∧ Below a v ∧ Below v b) ∨
      (check = "list" ∧ ∃ l, p = .list l ∧ v ≠ .nan ∧ Item.num v ∈ l))

/-- How rows are named: by their labels in pandas, by their positions in dask. -/
def named (dfType : String) (rows : Column C) : List (Key × C) :=
  if dfType = "dask" then rows.zipIdx.map fun x => (Key.int x.2, x.1.2) else rows

open Classical in
/-- The names of the rows satisfying a check, in order. -/
noncomputable def satisfying (flt : C → Except Err Flt) (dfType : String) (rows : Column C) (check : String) (p : Param C) :
    List Key :=
  ((named dfType rows).filter fun r => decide (Holds flt check p r.2)).map (·.1)

/-- The part of a report about a column is exactly about the configured checks. -/
def Exact (flt : C → Except Err Flt) (dfType : String) (rows : Column C) (checks : PyDict String (Param C))
    (entry : PyDict String Entry) : Prop :=
  entry.map (·.1) = checks.map (·.1) ∧
    ∀ check p, (check, p) ∈ checks → PyDict.get? entry check = some (some (satisfying flt dfType rows check p))

/-- A configuration that can be evaluated: there is something to check for each column, all columns exist, all checks
are known, bounds and cells are numbers. -/
structure Sane (flt : C → Except Err Flt) (data : PyDict String (Column C)) (checks : PyDict String (PyDict String (Param C)))
    (dfType : String) : Prop where
  some_check : ∀ c ∈ checks, c.2 ≠ []
  frame : dfType = "pandas" ∨ dfType = "dask"
  present : ∀ c ∈ checks, ∃ rows, PyDict.get? data c.1 = some rows ∧ ∀ r ∈ rows, ∃ v, flt r.2 = .ok v
  known : ∀ c ∈ checks, ∀ k ∈ c.2, (k.1 = "list" ∧ ∃ l, k.2 = .list l) ∨
    (k.1 = "range" ∧ ∃ d s e a b, k.2 = .dict d ∧ PyDict.get? d "start" = some s ∧ PyDict.get? d "end" = some e ∧
      flt s = .ok a ∧ flt e = .ok b)

end Verif.Spec.Validator
