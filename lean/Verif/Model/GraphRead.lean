import Verif.Model.Basic
import Verif.Model.PyDict
import Verif.Model.Graph
import Mathlib.Data.List.Infix

/-!
# Reading graphs

Models `GraphData` (dataprofiler/data_readers/graph_data.py:84-308): finding the columns of the nodes, recognising a file and building the
graph from the table.  The rows of `csv.reader`, the table read by pandas after stripping, `float`, `str.isdigit` and `int` of a string are
parameters.  A cell of the table is a text or `None`; `nan` is not modelled.  Small integers, up to 256, are identical objects in CPython, others are not.
-/

namespace Verif.GraphRead

open Verif

/-- What is not modelled. -/
structure Lib where
  /-- `float(s)`: `none` if it raises, `some none` for `nan` and the infinities -/
  toFloat : String → Option (Option ℚ)
  isDigit : String → Bool
  /-- `int(s)`: `none` if it raises -/
  toInt : String → Option ℤ

/-- `column_name_symbols` (graph_data.py:89). -/
def symbols : List Char := ['_', '.', '-']

/-- Whether a keyword is found in a column name (graph_data.py:96-107). -/
def mentions (keywords : List String) (name : String) : Bool :=
  keywords.any fun k => symbols.any fun s =>
    decide ((s :: k.toList) <:+: name.toList) || decide ((k.toList ++ [s]) <:+: name.toList)

/-- `_find_target_string_in_column` (graph_data.py:84-110): the first column, or -1. -/
def findColumn (names keywords : List String) : ℤ :=
  match names.findIdx? (mentions keywords) with
  | some i => i
  | none => -1

/-- `a is b` for integers. -/
def same (a : ℕ) (b : Option ℤ) : Bool := decide (b = some (a : ℤ) ∧ a ≤ 256)

/-- `csv_column_names` (graph_data.py:113-141) on the rows of the file: `row_count is header` fails for large numbers. -/
def columnNames (rows : List (List String)) (header : Option ℤ) : List String :=
  match header with
  | none => []
  | some h =>
    match (rows.zipIdx).find? fun x => same x.2 (some h) with
    | none => []
    | some x => x.1.map fun s => String.ofList (s.toList.filter fun c => decide (c ≠ ' '))

/-- `is_match` (graph_data.py:144-191) for a delimited file with these column names: the columns of the source and the target. -/
def isGraph (names sources targets graphs : List String) : Option (ℤ × ℤ) :=
  if 0 ≤ findColumn names targets ∧ 0 ≤ findColumn names sources ∧ 0 ≤ findColumn names graphs then
    some (findColumn names sources, findColumn names targets)
  else none

/-- A node. -/
inductive Node where
  | int (n : ℤ)
  | str (s : String)
  deriving DecidableEq

/-- `check_integer` (graph_data.py:300-308): `string[0] == ("-", "+")` compares a character to a pair and never holds. -/
def checkInteger (lib : Lib) (s : String) : Except Err Node :=
  if s = "" then .error .indexError
  else if lib.isDigit s then
    match lib.toInt s with
    | none => .error .valueError
    | some n => .ok (.int n)
  else .ok (.str s)

/-- A value of an attribute. -/
def value : Option ℚ → Graph.Val
  | some q => .num q
  | none => .special

/-- `row[i]`. -/
def index (row : List (Option String)) (i : ℤ) : Except Err (Option String) :=
  let k := if i < 0 then i + row.length else i
  if k < 0 then .error .indexError
  else match row[k.toNat]? with
    | none => .error .indexError
    | some c => .ok c

/-- The node of a row (graph_data.py:285-286). -/
def nodeAt (lib : Lib) (row : List (Option String)) (i : Option ℤ) : Except Err Node :=
  match i with
  | none => .error .typeError
  | some i =>
    match index row i with
    | .error e => .error e
    | .ok none => .error .typeError
    | .ok (some s) => checkInteger lib s

/-- `graph.add_node`. -/
def addNode (g : Graph.Net Node) (n : Node) : Graph.Net Node := if n ∈ g.nodes then g else { g with nodes := g.nodes ++ [n] }

/-- Whether an edge joins two nodes. -/
def joins (u v : Node) (e : Graph.Edge Node) : Bool := decide ((e.u = u ∧ e.v = v) ∨ (e.u = v ∧ e.v = u))

/-- `d.update(e)`. -/
def updateDict (d e : PyDict String Graph.Val) : PyDict String Graph.Val := e.foldl (fun d x => PyDict.set d x.1 x.2) d

/-- `graph.add_edge`. -/
def addEdge (g : Graph.Net Node) (u v : Node) (attrs : PyDict String Graph.Val) : Graph.Net Node :=
  let g' := addNode (addNode g u) v
  if g'.edges.any (joins u v) then
    { g' with edges := g'.edges.map fun e => if joins u v e then { e with attrs := updateDict e.attrs attrs } else e }
  else { g' with edges := g'.edges ++ [⟨u, v, updateDict [] attrs⟩] }

/-- One cell of a row (graph_data.py:268-283). -/
def cellStep (lib : Lib) (names : Option (List String)) (src dst : Option ℤ) (s : Graph.Net Node × PyDict String Graph.Val)
    (x : Option String × ℕ) : Except Err (Graph.Net Node × PyDict String Graph.Val) :=
  match x.1 with
  | none => .ok s
  | some c =>
    match names with
    | some ns =>
      if same x.2 src = false ∨ same x.2 dst = false then
        match lib.toFloat c with
        | none => .error .valueError
        | some f =>
          match ns[x.2]? with
          | none => .error .indexError
          | some n => .ok (s.1, PyDict.set s.2 n (value f))
      else (checkInteger lib c).map fun n => (addNode s.1 n, s.2)
    | none =>
      if same x.2 src = true ∨ same x.2 dst = true then (checkInteger lib c).map fun n => (addNode s.1 n, s.2)
      else .ok s

/-- The cells of a row. -/
def cells (lib : Lib) (names : Option (List String)) (src dst : Option ℤ) :
    Graph.Net Node × PyDict String Graph.Val → List (Option String × ℕ) → Except Err (Graph.Net Node × PyDict String Graph.Val)
  | s, [] => .ok s
  | s, x :: xs =>
    match cellStep lib names src dst s x with
    | .error e => .error e
    | .ok s' => cells lib names src dst s' xs

/-- The parameters of `add_edge`: attributes of these names are refused. -/
def reserved : List String := ["self", "u_of_edge", "v_of_edge"]

/-- One row (graph_data.py:265-288). -/
def rowStep (lib : Lib) (names : Option (List String)) (src dst : Option ℤ) (g : Graph.Net Node) (row : List (Option String)) :
    Except Err (Graph.Net Node) :=
  match cells lib names src dst (g, []) row.zipIdx with
  | .error e => .error e
  | .ok s =>
    match nodeAt lib row src with
    | .error e => .error e
    | .ok u =>
      match nodeAt lib row dst with
      | .error e => .error e
      | .ok v => if s.2.any (fun x => decide (x.1 ∈ reserved)) then .error .typeError else .ok (addEdge s.1 u v s.2)

/-- The loop over the rows (graph_data.py:263-291). -/
def readRows (lib : Lib) (names : Option (List String)) (src dst : Option ℤ) :
    Graph.Net Node → List (List (Option String)) → Except Err (Graph.Net Node)
  | g, [] => .ok g
  | g, r :: rs =>
    match rowStep lib names src dst g r with
    | .error e => .error e
    | .ok g' => readRows lib names src dst g' rs

/-- The column of a node (graph_data.py:240-247). -/
def nodeColumn (given : Option ℤ) (names : Option (List String)) (keywords : List String) : Option ℤ :=
  match given with
  | some i => some i
  | none => names.map fun ns => findColumn ns keywords

/-- `_format_data_networkx` (graph_data.py:193-291) with the column names known, on the table. -/
def readGraph (lib : Lib) (names : Option (List String)) (givenSrc givenDst : Option ℤ) (sources targets : List String)
    (rows : List (List (Option String))) : Except Err (Graph.Net Node) :=
  readRows lib names (nodeColumn givenSrc names sources) (nodeColumn givenDst names targets) ⟨[], []⟩ rows

end Verif.GraphRead
