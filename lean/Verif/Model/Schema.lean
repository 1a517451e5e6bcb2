import Mathlib.Data.Nat.Notation
import Mathlib.Data.Int.Notation
import Verif.Model.Basic
import Verif.Model.PyDict

/-!
# Matching the columns of two tables

Models `StructuredProfiler._get_and_validate_schema_mapping` and the construction of a schema from a table
(dataprofiler/profilers/profile_builder.py:1972-2043, 2811-2818).

`str.lower` is an arbitrary function on strings.  `schema1` is a `defaultdict`: reading a missing (lower-cased) key
yields the empty list.
-/

namespace Verif.Schema

open Verif

/-- A column name: a string, or an integer for tables without header. -/
inductive Key where
  | str (s : String)
  | int (n : ℤ)
  deriving DecidableEq, Repr

/-- `if isinstance(key, str): key = key.lower()`. -/
def lowerKey (lower : String → String) : Key → Key
  | .str s => .str (lower s)
  | .int n => .int n

/-- Column name to column indices. -/
abbrev NameMap := PyDict Key (List ℕ)

/-- `mapping_given[col].append(col_idx)` over the columns from index `i` on (profile_builder.py:2811-2818). -/
def schemaFrom (lower : String → String) : NameMap → ℕ → List Key → NameMap
  | d, _, [] => d
  | d, i, c :: cs =>
    schemaFrom lower (PyDict.set d (lowerKey lower c) (PyDict.getD d (lowerKey lower c) [] ++ [i])) (i + 1) cs

/-- The schema of a table. -/
def schemaOf (lower : String → String) (cols : List Key) : NameMap := schemaFrom lower [] 0 cols

/-- The inner loop over the indices of one name (profile_builder.py:2033-2041). -/
def mapName (dup : Bool) : List (ℕ × ℕ) → PyDict ℕ ℕ → Except Err (PyDict ℕ ℕ)
  | [], m => .ok m
  | (i, j) :: rest, m =>
    if dup ∧ i ≠ j then .error .valueError else mapName dup rest (PyDict.set m i j)

/-- The loop over the names of the first schema (profile_builder.py:2016-2041). -/
def mapNames (lower : String → String) (s1 s2 : NameMap) : List Key → PyDict ℕ ℕ → Except Err (PyDict ℕ ℕ)
  | [], m => .ok m
  | key :: rest, m =>
    let k := lowerKey lower key
    if PyDict.has s2 k = false then .error .valueError
    else if (PyDict.getD s1 k []).length ≠ (PyDict.getD s2 k []).length then .error .valueError
    else match mapName (decide (1 < (PyDict.getD s1 k []).length)) ((PyDict.getD s1 k []).zip (PyDict.getD s2 k [])) m with
      | .error e => .error e
      | .ok m' => mapNames lower s1 s2 rest m'

/-- `_get_and_validate_schema_mapping` (profile_builder.py:1972-2043). -/
def getMapping (lower : String → String) (s1 s2 : NameMap) (strict : Bool) : Except Err (PyDict ℕ ℕ) :=
  if 0 < s1.length ∧ s1.length ≠ s2.length ∧ 0 < s2.length then .error .valueError
  else if strict ∧ (s1.length = 0 ∨ s2.length = 0) then .error .valueError
  else if strict = false ∧ s2.length = 0 then
    .ok (((PyDict.values s1).flatten.map fun i => (i, i)).foldl (fun m p => PyDict.set m p.1 p.2) [])
  else mapNames lower s1 s2 (PyDict.keys s1) []

end Verif.Schema
