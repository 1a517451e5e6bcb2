import Verif.Model.Basic
import Verif.Model.PyDict
import Mathlib.Data.Nat.Notation

/-!
# Flattening JSON documents

Models `_find_data`, `_coalesce_dicts` and `_get_data_as_flattened_dataframe`
(dataprofiler/data_readers/json_data.py:115-238).  A data frame is the list of its rows, each with the columns that are not
missing.  How pandas normalises a list of records is a parameter; selecting keys and turning cells into strings is left out.
-/

namespace Verif.Json

open Verif

/-- Keys and separators. -/
abbrev Key := List Char

/-- JSON values; the scalars are of an arbitrary type. -/
inductive J (A : Type) where
  | val (a : A)
  | list (xs : List (J A))
  | obj (fields : List (Key × J A))

variable {A V : Type}

/-- `isinstance(j, dict)`. -/
def J.isObj : J A → Bool
  | .obj _ => true
  | _ => false

/-- Neither a dictionary nor a list. -/
def J.isVal : J A → Bool
  | .val _ => true
  | _ => false

/-- `path[-n:]`. -/
def lastN (n : ℕ) (p : Key) : Key := if n = 0 then p else p.drop (p.length - n)

/-- `path[:-n]`. -/
def cutN (n : ℕ) (p : Key) : Key := if n = 0 then [] else p.take (p.length - n)

/-- The separator is added to the path (json_data.py:125-126). -/
def extend (sep path : Key) : Key := if path ≠ [] ∧ lastN sep.length path ≠ sep then path ++ sep else path

mutual
/-- `_find_data` (json_data.py:115-149): the dictionaries with one item each. -/
def find (sep path : Key) : J A → List (Key × J A)
  | .obj fields => findFields sep (extend sep path) fields
  | .list xs => if xs.all J.isObj then findAll sep (extend sep path) xs else [(cutN sep.length (extend sep path), .list xs)]
  | .val a => [(cutN sep.length (extend sep path), .val a)]

/-- The loop over a dictionary (json_data.py:130-136). -/
def findFields (sep path : Key) : List (Key × J A) → List (Key × J A)
  | [] => []
  | (k, j) :: rest => (if j.isVal then [(path ++ k, j)] else find sep (path ++ k) j) ++ findFields sep path rest

/-- The loop over a list of dictionaries (json_data.py:138-140). -/
def findAll (sep path : Key) : List (J A) → List (Key × J A)
  | [] => []
  | j :: rest => find sep path j ++ findAll sep path rest
end

/-- One item (json_data.py:161-169): it goes to the first dictionary without its key, or to a new one. -/
def place (item : Key × V) : List (PyDict Key V) → List (PyDict Key V)
  | [] => [[item]]
  | d :: ds => if PyDict.has d item.1 then d :: place item ds else PyDict.set d item.1 item.2 :: ds

/-- `_coalesce_dicts` (json_data.py:151-170). -/
def coalesce (items : List (Key × V)) : List (PyDict Key V) := items.foldl (fun ds item => place item ds) [[]]

/-- A row of a data frame. -/
abbrev Row (A : Type) := PyDict Key (J A)

/-- The data frame of a payload (json_data.py:190-206): columns get the payload key in front. -/
def payloadFrame (sep : Key) (normalize : J A → Except Err (List (Row A))) (key : Key) (j : J A) :
    Except Err (List (Row A)) :=
  (if j.isObj then .ok (coalesce (find sep [] j)) else normalize j).map fun rows =>
    rows.map fun row => row.map fun c => (key ++ sep ++ c.1, c.2)

/-- The loop over the payload keys (json_data.py:187-207). -/
def payloads (sep : Key) (normalize : J A → Except Err (List (Row A))) (doc : PyDict Key (J A)) :
    List Key → Except Err (List (Key × List (Row A)))
  | [] => .ok []
  | key :: keys =>
    match PyDict.get? doc key with
    | none => payloads sep normalize doc keys
    | some j =>
      match payloadFrame sep normalize key j with
      | .error e => .error e
      | .ok frame =>
        match payloads sep normalize doc keys with
        | .error e => .error e
        | .ok rest => .ok ((key, frame) :: rest)

/-- The payload with most rows, the first of those (json_data.py:209-214). -/
def largest : ℕ → Option (Key × List (Row A)) → List (Key × List (Row A)) → Option (Key × List (Row A))
  | _, best, [] => best
  | n, best, p :: ps => if n < p.2.length then largest p.2.length (some p) ps else largest n best ps

/-- The items outside the payload (json_data.py:217-222). -/
def others (sep : Key) (found : Option Key) : List (Key × J A) → List (Key × J A)
  | [] => []
  | (key, j) :: rest => (if some key ≠ found then find sep key j else []) ++ others sep found rest

/-- `_get_data_as_flattened_dataframe` of a dictionary (json_data.py:172-238): data and metadata. -/
def flattened (sep : Key) (normalize : J A → Except Err (List (Row A))) (keys : List Key) (doc : PyDict Key (J A)) :
    Except Err (List (Row A) × Option (List (Row A))) :=
  match payloads sep normalize doc keys with
  | .error e => .error e
  | .ok ps =>
    let best := largest 0 none ps
    let rows := coalesce (others sep (best.map (·.1)) doc)
    match best, ps.getLast? with
    | some p, _ => .ok (p.2, some rows)
    | none, some p => .ok (p.2, some rows)
    | none, none => .ok (rows, none)

end Verif.Json
