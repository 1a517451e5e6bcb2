import Verif.Model.Basic
import Verif.Model.Flat
import Verif.Model.PyDict

/-!
# Preparing a report

Models `_prepare_report` (dataprofiler/profilers/helpers/report_helpers.py:89-279): omitting keys and formatting values.

Simplifications
* values that are neither dictionaries nor lists of dictionaries are leaves; their formatting (rounding, shortening, lists for
  sets and arrays; report_helpers.py:141-142, 231-270) is a parameter `fmt`; keys are strings or integers;
* a list of dictionaries under another key than `data_stats` is left alone (for the formats `pretty` and `serializable` the
  code would descend); in a whole report `_clean_profile_schema`, which only converts keys, is the identity, and is modelled on
  its own;
* the output format `flat` is modelled separately (`Verif.Flat`).
-/

namespace Verif.Prepare

open Verif Flat

/-- A report. -/
inductive Rep (V : Type) where
  | leaf (v : V)
  | null
  | node (items : List (Key × Rep V))
  | cols (cs : List (Rep V))

variable {V : Type}

def star : List Char := ['*']
def dataStats : List Char := "data_stats".toList
def profileSchema : List Char := "profile_schema".toList

/-- `s.split(".", 1)`: the part in front of the first dot and what follows. -/
def split1 (s : List Char) : List Char × Option (List Char) :=
  match s.dropWhile (fun c => decide (c ≠ '.')) with
  | [] => (s, none)
  | _ :: rest => (s.takeWhile fun c => decide (c ≠ '.'), some rest)

/-- `key in omit_keys`. -/
def listed (pats : List (List Char)) : Key → Bool
  | .str s => decide (s ∈ pats)
  | .int _ => false

/-- One key for the next layer (report_helpers.py:213-222). -/
def nextKey (key : Key) (o : List Char) : Option (List Char) :=
  match split1 o with
  | (_, none) => none
  | (prior, some next) => if next ≠ [] ∧ (prior = star ∨ Key.str prior = key) then some next else none

/-- The keys to omit in the next layer (report_helpers.py:211-222). -/
def nextLayer (key : Key) (pats : List (List Char)) : List (List Char) := pats.filterMap (nextKey key)

/-- The keys to omit in a column, nothing if the column is omitted itself (report_helpers.py:161-186). -/
def colOmit (col : List Char) : List (List Char) → Except Err (Option (List (List Char)))
  | [] => .ok (some [])
  | o :: rest =>
    if o = star ++ '.' :: col ∨ o = dataStats ++ ['.', '*'] ∨ o = dataStats ++ '.' :: col then .ok none
    else
      match split1 o with
      | (_, none) => colOmit col rest
      | (prior, some next) =>
        if prior ≠ dataStats ∧ prior ≠ star then colOmit col rest
        else if (split1 next).1 = star ∨ (split1 next).1 = col then
          match (split1 next).2 with
          | none => .error .indexError
          | some x => (colOmit col rest).map fun r => r.map (x :: ·)
        else colOmit col rest

mutual
/-- The loop over the keys (report_helpers.py:131-274). `colName` is `str(column.get("column_name"))`. -/
def items (fmt : V → V) (colName : List (Key × Rep V) → List Char) (pats : List (List Char)) :
    List (Key × Rep V) → Except Err (List (Key × Rep V))
  | [] => .ok []
  | (k, v) :: rest =>
    if listed pats k || decide (star ∈ pats) then items fmt colName pats rest
    else do
      let v' ← value fmt colName pats k v
      let rest' ← items fmt colName pats rest
      .ok ((k, v') :: rest')

/-- The branches for one value (report_helpers.py:148-274). -/
def value (fmt : V → V) (colName : List (Key × Rep V) → List Char) (pats : List (List Char)) (k : Key) :
    Rep V → Except Err (Rep V)
  | .leaf v => .ok (.leaf (fmt v))
  | .null => .ok .null
  | .node is =>
    if k = .str profileSchema then .ok (.node is)
    else (items fmt colName (nextLayer k pats) is).map .node
  | .cols cs => if k = .str dataStats then (columns fmt colName pats cs).map .cols else .ok (.cols cs)

/-- The loop over the columns (report_helpers.py:157-193). -/
def columns (fmt : V → V) (colName : List (Key × Rep V) → List Char) (pats : List (List Char)) :
    List (Rep V) → Except Err (List (Rep V))
  | [] => .ok []
  | c :: rest => do
    let c' ← column fmt colName pats c
    let rest' ← columns fmt colName pats rest
    .ok (c' :: rest')

/-- One column (report_helpers.py:158-193). -/
def column (fmt : V → V) (colName : List (Key × Rep V) → List Char) (pats : List (List Char)) : Rep V → Except Err (Rep V)
  | .node is =>
    match colOmit (colName is) pats with
    | .error e => .error e
    | .ok none => .ok .null
    | .ok (some next) => (items fmt colName next is).map .node
  | _ => .error .attributeError
end

/-- The keys added by the compact format (report_helpers.py:119-128). -/
def compactKeys : List (List Char) :=
  ["data_stats.*.statistics.times".toList, "data_stats.*.statistics.avg_predictions".toList,
    "data_stats.*.statistics.data_label_representation".toList, "data_stats.*.statistics.null_types_index".toList,
    "data_stats.*.statistics.histogram".toList]

/-- `_prepare_report(report, output_format, omit_keys)` with the list of omitted keys the caller holds afterwards: for the
compact format it is extended in place (report_helpers.py:118-129). -/
def prepare (fmt : V → V) (colName : List (Key × Rep V) → List Char) (compact : Bool) (report : List (Key × Rep V))
    (pats : List (List Char)) : Except Err (List (Key × Rep V)) × List (List Char) :=
  let pats' := if compact then pats ++ compactKeys else pats
  (items fmt colName pats' report, pats')

/-- The name of a column as a key of a schema: a name of a type JSON has as a key (text, whole number, or another such type), a
number of NumPy, or a name of another type, which has a text. -/
inductive Name where
  | str (s : List Char)
  | int (i : Int)
  | plain (n : Nat)
  | int64 (i : Int)
  | other (n : Nat) (text : List Char)
deriving DecidableEq

/-- The key for a name (report_helpers.py:80-85). -/
def cleanName : Name → Name
  | .int64 i => .int i
  | .other _ text => .str text
  | n => n

/-- `_clean_profile_schema` (report_helpers.py:67-86): `dict(zip(keys, values))`. -/
def cleanSchema (schema : List (Name × V)) : List (Name × V) :=
  (schema.map fun kv => (cleanName kv.1, kv.2)).foldl (fun d kv => PyDict.set d kv.1 kv.2) []

end Verif.Prepare
