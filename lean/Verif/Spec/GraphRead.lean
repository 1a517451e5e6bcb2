import Verif.Model.GraphRead
import Verif.Spec.Graph

/-!
# Specification: reading graphs
-/

namespace Verif.GraphRead.Spec

open Verif
open Verif.GraphRead (Lib Node)

/-- A column name mentions a keyword: the keyword occurs with a symbol before or behind it. -/
def Mentions (keywords : List String) (name : String) : Prop :=
  ∃ k ∈ keywords, ∃ c ∈ ['_', '.', '-'], ∃ a b : List Char,
    name.toList = a ++ c :: (k.toList ++ b) ∨ name.toList = a ++ (k.toList ++ c :: b)

/-- The first column that mentions a keyword. -/
def IsFirst (names keywords : List String) (i : ℕ) : Prop :=
  (∃ n, names[i]? = some n ∧ Mentions keywords n) ∧ ∀ j : ℕ, j < i → ∀ n, names[j]? = some n → ¬ Mentions keywords n

/-- The node a text stands for. -/
def IsNode (lib : Lib) (s : String) (n : Node) : Prop :=
  s ≠ "" ∧ ((lib.isDigit s = true ∧ ∃ k, lib.toInt s = some k ∧ n = .int k) ∨ (lib.isDigit s = false ∧ n = .str s))

/-- A row goes from one node to another. -/
def Goes (lib : Lib) (src dst : ℕ) (row : List (Option String)) (u v : Node) : Prop :=
  ∃ a b, row[src]? = some (some a) ∧ row[dst]? = some (some b) ∧ IsNode lib a u ∧ IsNode lib b v

/-- A row joins two nodes. -/
def RowJoins (lib : Lib) (src dst : ℕ) (row : List (Option String)) (u v : Node) : Prop :=
  Goes lib src dst row u v ∨ Goes lib src dst row v u

/-- The number a row has under a name: that of the last column of this name with a value. -/
def Carries (lib : Lib) (names : List String) (row : List (Option String)) (name : String) (x : Graph.Val) : Prop :=
  ∃ (i : ℕ) (s : String) (f : Option ℚ), names[i]? = some name ∧ row[i]? = some (some s) ∧ lib.toFloat s = some f ∧
    (∀ q, f = some q → x = .num q) ∧ (f = none → x = .special) ∧
    ∀ j : ℕ, i < j → names[j]? = some name → ∀ t, row[j]? ≠ some (some t)

/-- The value two nodes have under a name: that of the last row that joins them and has one. -/
def Latest (lib : Lib) (names : List String) (src dst : ℕ) (rows : List (List (Option String))) (u v : Node) (name : String)
    (x : Graph.Val) : Prop :=
  ∃ pre row post, rows = pre ++ row :: post ∧ RowJoins lib src dst row u v ∧ Carries lib names row name x ∧
    ∀ r ∈ post, RowJoins lib src dst r u v → ∀ y, ¬ Carries lib names r name y

/-- A table that can be read: every row has a cell for every name, all numeric, and nodes in the two columns. -/
structure Readable (lib : Lib) (names : List String) (src dst : ℕ) (rows : List (List (Option String))) : Prop where
  width : ∀ r ∈ rows, r.length = names.length
  numeric : ∀ r ∈ rows, ∀ s, some s ∈ r → (lib.toFloat s).isSome
  nodes : ∀ r ∈ rows, ∃ u v, Goes lib src dst r u v
  names : "self" ∉ names ∧ "u_of_edge" ∉ names ∧ "v_of_edge" ∉ names

/-- The graph of a table. -/
structure IsGraphOf (lib : Lib) (names : List String) (src dst : ℕ) (rows : List (List (Option String))) (g : Graph.Net Node) : Prop where
  simple : Verif.Spec.Graph.Simple g
  numeric : Verif.Spec.Graph.Numeric g
  nodes : ∀ n, n ∈ g.nodes ↔ ∃ r ∈ rows, ∃ m, RowJoins lib src dst r n m
  joined : ∀ u v, Verif.Spec.Graph.Joined g u v ↔ ∃ r ∈ rows, RowJoins lib src dst r u v
  attrs : ∀ e ∈ g.edges, ∀ name x, (name, x) ∈ e.attrs ↔ Latest lib names src dst rows e.u e.v name x

end Verif.GraphRead.Spec
