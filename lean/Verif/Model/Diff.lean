import Mathlib.Data.Rat.Defs
import Mathlib.Data.Nat.Notation
import Verif.Model.Basic
import Verif.Model.PyDict

/-!
# Differences between statistics

Models the `find_diff_of_*` functions of `dataprofiler/profilers/profiler_utils.py:429-665`.

Simplifications: floats are exact rationals plus NaN; a date is its distance in microseconds from a
fixed instant and the textual rendering (`strftime`, `str(timedelta)`) is left out; elements of
reported lists come from a type with lawful equality (so no NaN inside lists); a list compared with a
string or a dictionary, whose characters or keys Python would take as elements, is not followed
(`notImplemented`).
-/

namespace Verif.Diffs

open Verif

/-- A Python number. -/
inductive Num where
  | fin (x : ℚ)
  | nan
  deriving DecidableEq

/-- `a != b` on numbers: NaN differs from everything. -/
def Num.ne : Num → Num → Bool
  | .fin a, .fin b => a ≠ b
  | _, _ => true

/-- `a - b`. -/
def Num.sub : Num → Num → Num
  | .fin a, .fin b => .fin (a - b)
  | _, _ => .nan

/-- The values that occur in reports; `α` is the type of list elements. -/
inductive PV (α : Type) where
  | none
  | num (x : Num)
  | bool (b : Bool)
  | str (s : String)
  | list (l : List α)
  | date (t : ℤ)
  | dict (items : List (String × PV α))

/-- The possible outcomes: the string `"unchanged"`, a number, the pair `[stat1, stat2]`, the three
lists of `find_diff_of_lists_and_sets`, a signed time difference, the pair of formatted dates, a
dictionary of differences, and the three dictionaries of `find_diff_of_dicts_with_diff_keys`. -/
inductive Diff (α : Type) where
  | unchanged
  | num (x : Num)
  | pair (a b : PV α)
  | lists (only1 shared only2 : List α)
  | delta (negative : Bool) (abs : ℕ)
  | dates (a b : Option ℤ)
  | dict (items : List (String × Diff α))
  | parts (only1 : List (String × PV α)) (shared : List (String × Diff α))
      (only2 : List (String × PV α))

variable {α : Type}

/-- Python treats booleans as the integers 0 and 1 in arithmetic and comparison. -/
def PV.asNum : PV α → Option Num
  | .num x => some x
  | .bool b => some (.fin (if b then 1 else 0))
  | _ => Option.none

/-- `find_diff_of_numbers` (profiler_utils.py:429-448) for `stat1` neither list, string nor date.
A number compared with a non-number differs, and subtracting them raises `TypeError`. -/
def diffNumbers : PV α → PV α → Except Err (Diff α)
  | .none, .none => .ok .unchanged
  | .none, b => .ok (.pair .none b)
  | a, .none => .ok (.pair a .none)
  | a, b =>
    match a.asNum, b.asNum with
    | some x, some y => if x.ne y then .ok (.num (x.sub y)) else .ok .unchanged
    | _, _ => .error .typeError

/-- `find_diff_of_strings_and_bools` (profiler_utils.py:451-468) on strings. -/
def diffStrings (a b : Option String) : Diff α :=
  if a ≠ b then .pair ((a.map PV.str).getD .none) ((b.map PV.str).getD .none) else .unchanged

/-- `find_diff_of_strings_and_bools` (profiler_utils.py:451-468) on booleans. -/
def diffBools (a b : Bool) : Diff α :=
  if a ≠ b then .pair (.bool a) (.bool b) else .unchanged

section Lists
variable [DecidableEq α]

/-- First loop of `find_diff_of_lists_and_sets` (profiler_utils.py:493-496): the shared elements and
what is left of `temp_stat2`. -/
def sharedLoop : List α → List α → List α × List α
  | [], t2 => ([], t2)
  | e :: es, t2 =>
    if e ∈ t2 then
      let r := sharedLoop es (t2.erase e)
      (e :: r.1, r.2)
    else sharedLoop es t2

/-- Second loop (profiler_utils.py:497-498): `temp_stat1.remove(element)` for every shared element. -/
def removeAll (t1 shared : List α) : List α := shared.foldl (fun t e => t.erase e) t1

/-- `find_diff_of_lists_and_sets` (profiler_utils.py:471-504). A set is given by any listing of its
elements. `set(a) != set(b)` is mutual inclusion. -/
def diffLists (a b : Option (List α)) : Diff α :=
  match a, b with
  | none, none => .unchanged
  | none, some b => .pair .none (.list b)
  | some a, none => .pair (.list a) .none
  | some a, some b =>
    if ¬ (a ⊆ b ∧ b ⊆ a) ∨ a.length ≠ b.length then
      let r := sharedLoop a b
      .lists (removeAll a r.1) r.1 r.2
    else .unchanged

end Lists

/-- `find_diff_of_dates` (profiler_utils.py:507-540). -/
def diffDates (a b : Option ℤ) : Diff α :=
  match a, b with
  | none, none => .unchanged
  | none, some b => .dates none (some b)
  | some a, none => .dates (some a) none
  | some a, some b =>
    if a ≠ b then
      if a - b ≥ 0 then .delta false (a - b).natAbs else .delta true (a - b).natAbs
    else .unchanged

variable [DecidableEq α]

/-- Second loop and the final test (profiler_utils.py:576-585): keys only in `dict2` get
`[None, value]`; an empty result is `"unchanged"`. -/
def assemble (items : List (String × Diff α)) (d2 : List (String × PV α)) : Diff α :=
  let all := items ++ (d2.filter fun kv => !PyDict.has items kv.1).map fun kv => (kv.1, Diff.pair .none kv.2)
  if all.isEmpty then .unchanged else .dict all

/-- What `set(b)` raises in the comparison of a list with `b`, neither list nor missing. -/
def listClash : PV α → Err
  | .str _ => .notImplemented
  | .dict _ => .notImplemented
  | _ => .typeError

mutual
/-- The type dispatch inside `find_diff_of_dicts` (profiler_utils.py:562-574). Comparing a list with a number, or
a date with a value of another type raises `TypeError`; the docstring assumes equal types. A string is
compared with anything. -/
def diffVal : PV α → PV α → Except Err (Diff α)
  | .list a, .list b => .ok (diffLists (some a) (some b))
  | .list a, .none => .ok (diffLists (some a) none)
  | .list _, b => .error (listClash b)
  | .date a, .date b => .ok (diffDates (some a) (some b))
  | .date a, .none => .ok (diffDates (some a) none)
  | .date _, _ => .error .typeError
  | .str a, .str b => .ok (diffStrings (some a) (some b))
  | .str a, b => .ok (.pair (.str a) b)
  | .dict d1, .dict d2 => do
    let items ← diffItems d1 d2
    .ok (assemble items d2)
  | a, b => diffNumbers a b

/-- First loop of `find_diff_of_dicts` (profiler_utils.py:561-574). -/
def diffItems : List (String × PV α) → List (String × PV α) → Except Err (List (String × Diff α))
  | [], _ => .ok []
  | (k, v1) :: rest, d2 => do
    let r ← diffVal v1 ((PyDict.get? d2 k).getD .none)
    let rs ← diffItems rest d2
    .ok ((k, r) :: rs)
end

/-- `find_diff_of_dicts` (profiler_utils.py:543-585); `None` counts as `{}`. -/
def diffDicts (d1 d2 : Option (List (String × PV α))) : Except Err (Diff α) :=
  diffVal (.dict (d1.getD [])) (.dict (d2.getD []))

/-- Final test (profiler_utils.py:657-665). -/
def assemble' (only1 : List (String × PV α)) (shared : List (String × Diff α))
    (only2 : List (String × PV α)) : Diff α :=
  if only1.isEmpty && shared.isEmpty && only2.isEmpty then .unchanged else .parts only1 shared only2

mutual
/-- The type dispatch of `find_diff_of_dicts_with_diff_keys` (profiler_utils.py:637-648); differs from
the one above on booleans. -/
def diffVal' : PV α → PV α → Except Err (Diff α)
  | .list a, .list b => .ok (diffLists (some a) (some b))
  | .list a, .none => .ok (diffLists (some a) none)
  | .list _, b => .error (listClash b)
  | .date a, .date b => .ok (diffDates (some a) (some b))
  | .date a, .none => .ok (diffDates (some a) none)
  | .date _, _ => .error .typeError
  | .str a, .str b => .ok (diffStrings (some a) (some b))
  | .str a, b => .ok (.pair (.str a) b)
  | .bool a, .bool b => .ok (diffBools a b)
  | .bool a, .num x => .ok (if (Num.fin (if a then 1 else 0)).ne x then .pair (.bool a) (.num x) else .unchanged)
  | .bool a, b => .ok (.pair (.bool a) b)
  | .dict d1, .dict d2 => do
    let shared ← diffShared d1 d2
    .ok (assemble' (d1.filter fun kv => !PyDict.has d2 kv.1) shared
      (d2.filter fun kv => !PyDict.has d1 kv.1))
  | a, b => diffNumbers a b

/-- The shared part of the first loop (profiler_utils.py:634-648). -/
def diffShared : List (String × PV α) → List (String × PV α) → Except Err (List (String × Diff α))
  | [], _ => .ok []
  | (k, v1) :: rest, d2 => do
    let r ← match PyDict.get? d2 k with
      | some v2 => (diffVal' v1 v2).map some
      | none => .ok none
    let rs ← diffShared rest d2
    .ok (match r with
      | some r => (k, r) :: rs
      | none => rs)
end

/-- `find_diff_of_dicts_with_diff_keys` (profiler_utils.py:614-665). -/
def diffDicts' (d1 d2 : Option (List (String × PV α))) : Except Err (Diff α) :=
  diffVal' (.dict (d1.getD [])) (.dict (d2.getD []))

/-- A matrix as a list of rows. -/
abbrev Matrix := List (List Num)

/-- Shape equality of rectangular arrays. -/
def sameShape (m1 m2 : Matrix) : Bool := m1.map List.length == m2.map List.length

/-- `mat1 - mat2`. -/
def matSub (m1 m2 : Matrix) : Matrix := List.zipWith (List.zipWith Num.sub) m1 m2

/-- The outcome of a matrix comparison. -/
inductive MatDiff where
  | none
  | unchanged
  | diff (m : Matrix)

/-- `find_diff_of_matrices` (profiler_utils.py:588-611). -/
def diffMatrices (m1 m2 : Option Matrix) : MatDiff :=
  match m1, m2 with
  | some a, some b =>
    if sameShape a b then
      let d := matSub a b
      if d.all (fun row => row.all fun x => x == .fin 0 || x == .nan) then .unchanged else .diff d
    else .none
  | _, _ => .none

end Verif.Diffs
