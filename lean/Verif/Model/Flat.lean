import Verif.Model.PyDict

/-!
# Flattening a report

Models `flat_dict` (dataprofiler/profilers/helpers/report_helpers.py:40-64).

Texts are lists of characters. Keys are strings or integers; a value that is not a `dict` is a leaf.
-/

namespace Verif.Flat

open Verif

/-- A dictionary key. -/
inductive Key where
  | str (s : List Char)
  | int (i : Int)
deriving DecidableEq

/-- `str(key)`. -/
def Key.text : Key → List Char
  | .str s => s
  | .int i => (toString i).toList

/-- Truth value of a key. -/
def Key.truthy : Key → Bool
  | .str s => decide (s ≠ [])
  | .int i => decide (i ≠ 0)

/-- `str(key).replace(" ", "_")`. -/
def clean (k : Key) : List Char := k.text.map fun c => if c = ' ' then '_' else c

/-- The joined key (report_helpers.py:59). -/
def join (sep : List Char) (key k : Key) : Key := if key.truthy then .str (clean key ++ sep ++ k.text) else k

/-- A nested report. -/
inductive Tree (V : Type) where
  | leaf (v : V)
  | node (items : List (Key × Tree V))

variable {V : Type}

mutual
/-- `flat_dict(od, separator, key)` (report_helpers.py:40-64). -/
def flat (sep : List Char) (key : Key) : Tree V → PyDict Key V
  | .leaf v => [(key, v)]
  | .node items => flatItems sep key items []

/-- The dictionary comprehension (report_helpers.py:58-62), which sets one key after the other. -/
def flatItems (sep : List Char) (key : Key) : List (Key × Tree V) → PyDict Key V → PyDict Key V
  | [], acc => acc
  | (kk, vv) :: rest, acc =>
    flatItems sep key rest ((flat sep kk vv).foldl (fun d kv => PyDict.set d (join sep key kv.1) kv.2) acc)
end

/-- `flat_dict(od)`. -/
def flatDict (t : Tree V) : PyDict Key V := flat ['_'] (.str []) t

end Verif.Flat
