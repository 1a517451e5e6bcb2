import Verif.Model.Graph
import Mathlib.Logic.Relation

/-!
# What the statistics of a graph should be

Independent of how the profiler computes them.
-/

namespace Verif.Spec.Graph

open Verif Verif.Graph

variable {V : Type}

/-- A simple undirected graph: nodes are distinct, edges join nodes, no two edges join the same pair,
and the attributes of an edge have distinct names. Self-loops are allowed. -/
structure Simple (g : Net V) : Prop where
  nodes : g.nodes.Nodup
  ends : ∀ e ∈ g.edges, e.u ∈ g.nodes ∧ e.v ∈ g.nodes
  distinct : g.edges.Pairwise fun e f => ¬(e.u = f.u ∧ e.v = f.v) ∧ ¬(e.u = f.v ∧ e.v = f.u)
  attrs : ∀ e ∈ g.edges, (e.attrs.map Prod.fst).Nodup

/-- Two nodes joined by an edge. -/
def Joined (g : Net V) (a b : V) : Prop := ∃ e ∈ g.edges, (e.u = a ∧ e.v = b) ∨ (e.u = b ∧ e.v = a)

/-- A connected component: the nodes reachable from one of the nodes. -/
def IsComponent (g : Net V) (c : List V) : Prop :=
  c.Nodup ∧ ∃ n ∈ g.nodes, ∀ m, m ∈ c ↔ Relation.ReflTransGen (Joined g) n m

/-- The attribute occurs on some edge. -/
def Occurs (g : Net V) (a : String) : Prop := ∃ e ∈ g.edges, ∃ x, (a, x) ∈ e.attrs

/-- Some edge carries an integer as value of the attribute. -/
def HasInteger (g : Net V) (a : String) : Prop := ∃ e ∈ g.edges, ∃ z : ℤ, (a, Val.num z) ∈ e.attrs

/-- Every edge carries every attribute that occurs. -/
def Uniform (g : Net V) : Prop := ∀ a, Occurs g a → ∀ e ∈ g.edges, ∃ x, (a, x) ∈ e.attrs

/-- Every attribute value is a number (possibly `nan` or infinite). -/
def Numeric (g : Net V) : Prop := ∀ e ∈ g.edges, ∀ a, (a, Val.bad) ∉ e.attrs

/-- The values of an attribute, edge by edge. -/
def column (g : Net V) (a : String) : List Val :=
  g.edges.flatMap fun e => (e.attrs.filter fun p => p.1 = a).map Prod.snd

/-- The library functions do what they are documented to do. -/
structure Faithful (lib : Lib V) : Prop where
  unique_nodup : ∀ l, (lib.unique l).Nodup
  unique_mem : ∀ l a, a ∈ lib.unique l ↔ a ∈ l
  component : ∀ g, Simple g → ∀ c ∈ lib.components g, IsComponent g c
  covers : ∀ g, Simple g → ∀ n ∈ g.nodes, ∃ c ∈ lib.components g, n ∈ c

/-- The statistics are those of the graph. The largest component is the one with the most nodes, its
size is the number of its edges. -/
structure Describes (lib : Lib V) (g : Net V) (p : Prof) : Prop where
  nodes : p.numNodes = some g.nodes.length
  edges : p.numEdges = some g.edges.length
  degree : p.avgDegree = some ((2 * g.edges.length : ℕ) / (g.nodes.length : ℚ))
  component : ∃ c, IsComponent g c ∧ (∀ c', IsComponent g c' → c'.length ≤ c.length) ∧
    ∃ es : List (Edge V), es.Sublist g.edges ∧ (∀ e ∈ g.edges, e ∈ es ↔ e.u ∈ c) ∧
      p.maxComponent = some es.length
  categorical : ∃ l, p.categorical = some l ∧ l.Nodup ∧ ∀ a, a ∈ l ↔ HasInteger g a
  continuous : ∃ l, p.continuous = some l ∧ l.Nodup ∧ ∀ a, a ∈ l ↔ Occurs g a ∧ ¬HasInteger g a
  contDist : ∃ d, p.contDist = some d ∧ (∀ a, (∃ x, (a, x) ∈ d) ↔ Occurs g a) ∧
    (d.map Prod.fst).Nodup ∧
    (∀ a, (a, none) ∈ d ↔ HasInteger g a) ∧
    ∀ a i m, (a, some (i, m)) ∈ d → i < 6 ∧ lib.nnlf i (column g a) = some m ∧
      ∀ j < 6, ∀ m', lib.nnlf j (column g a) = some m' → m ≤ m'
  catDist : ∃ d, p.catDist = some d ∧ (∀ a, (∃ x, (a, x) ∈ d) ↔ Occurs g a) ∧
    (d.map Prod.fst).Nodup ∧
    (∀ a, (a, none) ∈ d ↔ Occurs g a ∧ ¬HasInteger g a) ∧
    ∀ a h, (a, some h) ∈ d → lib.histogram (column g a) = .ok h

/-- The search for distributions succeeds: every attribute without integer values has a candidate of
negative log-likelihood at most 1000, and every other attribute can be put into a histogram. -/
structure Fits (lib : Lib V) (g : Net V) : Prop where
  cont : ∀ a, Occurs g a → ¬HasInteger g a → ∃ i < 6, ∃ m, lib.nnlf i (column g a) = some m ∧ m ≤ 1000
  cat : ∀ a, HasInteger g a → ∃ h, lib.histogram (column g a) = .ok h

end Verif.Spec.Graph
