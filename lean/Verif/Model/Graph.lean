import Verif.Model.Basic
import Verif.Model.PyDict
import Verif.Model.Counter
import Mathlib.Data.Rat.Defs

/-!
# The graph profiler

Models `GraphProfiler` (dataprofiler/profilers/graph_profiler.py:30-577): construction, `update`,
the eight statistics, `profile`, `report`, `save` and `load`.

Simplified: `networkx.Graph` is a list of nodes and a list of undirected edges with their attribute
dictionaries (no directed graphs and no multigraphs).  The library functions the code calls are
parameters: the iteration order of a `set`, `nx.connected_components`, the fitted
negative log-likelihood of each of the six scipy distributions and `np.histogram`.  The moments of
the fitted distribution are not modelled.  Times are not modelled.
-/

namespace Verif.Graph

open Verif

variable {V : Type} [DecidableEq V]

/-- An edge attribute value, by what `float(value)` does with it. -/
inductive Val where
  /-- a finite number -/
  | num (q : ℚ)
  /-- `nan` or an infinity -/
  | special
  /-- a text `float` rejects -/
  | bad
  deriving DecidableEq

/-- An edge: its two endpoints and its attributes. -/
structure Edge (V : Type) where
  u : V
  v : V
  attrs : PyDict String Val

/-- A `networkx.Graph`. -/
structure Net (V : Type) where
  nodes : List V
  edges : List (Edge V)

/-- The neighbours of a node: `graph.adj[n]` of networkx. A self-loop makes the node its own
neighbour. -/
def neighbours (g : Net V) (n : V) : List V :=
  g.edges.filterMap fun e => if e.u = n then some e.v else if e.v = n then some e.u else none

/-- `graph.degree[n]` of networkx: the number of neighbours, a self-loop counting twice. -/
def degree (g : Net V) (n : V) : ℕ :=
  (neighbours g n).length + if n ∈ neighbours g n then 1 else 0

/-- `graph.size()` and `graph.number_of_edges()` of networkx: half the sum of the degrees. -/
def size (g : Net V) : ℕ := (g.nodes.map (degree g)).sum / 2

/-- `graph.subgraph(nodes)` of networkx: the induced subgraph. -/
def subgraph (g : Net V) (c : List V) : Net V where
  nodes := g.nodes.filter fun n => decide (n ∈ c)
  edges := g.edges.filter fun e => decide (e.u ∈ c) && decide (e.v ∈ c)

/-- The library functions called by the profiler. -/
structure Lib (V : Type) where
  /-- `list(set(l))` -/
  unique : List String → List String
  /-- `nx.connected_components` -/
  components : Net V → List (List V)
  /-- `distribution.nnlf(distribution.fit(df), df)` of the `i`-th candidate; `none` is `nan` -/
  nnlf : ℕ → List Val → Option ℚ
  /-- `np.histogram(data, bins="auto")`: counts and edges -/
  histogram : List Val → Except Err (List ℕ × List ℚ)

/-- `_get_avg_node_degree` (graph_profiler.py:354-359). -/
def avgNodeDegree (g : Net V) (numNodes : ℕ) : Except Err ℚ :=
  let total := g.nodes.foldl (fun t n => t + degree g n) 0
  if numNodes = 0 then .error .zeroDivision else .ok ((total : ℚ) / numNodes)

/-- `sorted(components, key=len, reverse=True)` (graph_profiler.py:364-366). -/
def sortedComponents (cs : List (List V)) : List (List V) :=
  (Counter.sortDesc (cs.map fun c => (c, c.length))).map (·.1)

/-- `_get_global_max_component_size` (graph_profiler.py:362-368). -/
def globalMaxComponentSize (lib : Lib V) (g : Net V) : Except Err ℕ :=
  match sortedComponents (lib.components g) with
  | [] => .error .indexError
  | c :: _ => .ok (size (subgraph g c))

/-- `_find_all_attributes` (graph_profiler.py:493-498): `np.array` of lists of different lengths
raises. -/
def findAllAttributes (lib : Lib V) (g : Net V) : Except Err (List String) :=
  let rows := g.edges.map fun e => PyDict.keys e.attrs
  match rows with
  | [] => .ok (lib.unique [])
  | r :: rest =>
    if rest.all fun s => s.length = r.length then .ok (lib.unique rows.flatten)
    else .error .valueError

/-- `float(attribute_value).is_integer()` (graph_profiler.py:479). -/
def isInteger : Val → Except Err Bool
  | .num q => .ok (decide (q.den = 1))
  | .special => .ok false
  | .bad => .error .valueError

/-- The inner loop of `_get_categorical_and_continuous_attributes` (graph_profiler.py:476-481). -/
def isCategorical (a : String) : List (Edge V) → Except Err Bool
  | [] => .ok false
  | e :: es =>
    match PyDict.get? e.attrs a with
    | none => .error .keyError
    | some x =>
      match isInteger x with
      | .error err => .error err
      | .ok true => .ok true
      | .ok false => isCategorical a es

/-- The outer loop of `_get_categorical_and_continuous_attributes` (graph_profiler.py:475-485). -/
def classify (es : List (Edge V)) :
    List String → List String × List String → Except Err (List String × List String)
  | [], acc => .ok acc
  | a :: as, acc =>
    match isCategorical a es with
    | .error err => .error err
    | .ok true => classify es as (acc.1 ++ [a], acc.2)
    | .ok false => classify es as (acc.1, acc.2 ++ [a])

/-- `_get_categorical_and_continuous_attributes` (graph_profiler.py:468-486). -/
def categoricalAndContinuous (lib : Lib V) (g : Net V) : Except Err (List String × List String) :=
  match findAllAttributes lib g with
  | .error err => .error err
  | .ok as => classify g.edges as ([], [])

/-- `_attribute_data_as_list` (graph_profiler.py:500-506). -/
def attributeData (a : String) : List (Edge V) → Except Err (List Val)
  | [] => .ok []
  | e :: es =>
    match PyDict.get? e.attrs a with
    | none => .error .keyError
    | some x =>
      match attributeData a es with
      | .error err => .error err
      | .ok xs => .ok (x :: xs)

/-- `distribution_candidates` (graph_profiler.py:388-395): norm, uniform, expon, logistic, lognorm,
gamma, by position. -/
def candidates : List ℕ := [0, 1, 2, 3, 4, 5]

/-- The local variables of the search for the best distribution (graph_profiler.py:405-407, 422):
`best_distrib` (unbound at first, kept from one attribute to the next), `best_fit` and
`best_mle`. -/
structure Search where
  distrib : Option ℕ
  fit : Option ℕ
  mle : ℚ

/-- The body of the loop over the candidates (graph_profiler.py:414-425). A comparison with `nan` is
false. -/
def searchStep (lib : Lib V) (xs : List Val) (s : Search) (i : ℕ) : Search :=
  match lib.nnlf i xs with
  | none => s
  | some m => if m ≤ s.mle then ⟨some i, some i, m⟩ else s

/-- The loop over the candidates (graph_profiler.py:405-425). -/
def search (lib : Lib V) (xs : List Val) (distrib : Option ℕ) : Search :=
  candidates.foldl (searchStep lib xs) ⟨distrib, none, 1000⟩

/-- The loop of `_get_continuous_distribution` (graph_profiler.py:401-443). An attribute gets the
position of the best candidate and its negative log-likelihood. Using `best_distrib` unbound raises;
so does `list(None)` when no candidate was chosen. -/
def continuousLoop (lib : Lib V) (es : List (Edge V)) (cont : List String) :
    List String → Option ℕ → PyDict String (Option (ℕ × ℚ)) →
      Except Err (PyDict String (Option (ℕ × ℚ)))
  | [], _, acc => .ok acc
  | a :: as, best, acc =>
    if a ∈ cont then
      match attributeData a es with
      | .error err => .error err
      | .ok xs =>
        let s := search lib xs best
        match s.distrib with
        | none => .error .exception
        | some _ =>
          match s.fit with
          | none => .error .typeError
          | some i => continuousLoop lib es cont as s.distrib (PyDict.set acc a (some (i, s.mle)))
    else continuousLoop lib es cont as best (PyDict.set acc a none)

/-- `_get_continuous_distribution` (graph_profiler.py:371-444). -/
def continuousDistribution (lib : Lib V) (g : Net V) (cont : List String) :
    Except Err (PyDict String (Option (ℕ × ℚ))) :=
  match findAllAttributes lib g with
  | .error err => .error err
  | .ok as => continuousLoop lib g.edges cont as none []

/-- The loop of `_get_categorical_distribution` (graph_profiler.py:455-464). -/
def categoricalLoop (lib : Lib V) (es : List (Edge V)) (cat : List String) :
    List String → PyDict String (Option (List ℕ × List ℚ)) →
      Except Err (PyDict String (Option (List ℕ × List ℚ)))
  | [], acc => .ok acc
  | a :: as, acc =>
    if a ∈ cat then
      match attributeData a es with
      | .error err => .error err
      | .ok xs =>
        match lib.histogram xs with
        | .error err => .error err
        | .ok h => categoricalLoop lib es cat as (PyDict.set acc a (some h))
    else categoricalLoop lib es cat as (PyDict.set acc a none)

/-- `_get_categorical_distribution` (graph_profiler.py:447-465). -/
def categoricalDistribution (lib : Lib V) (g : Net V) (cat : List String) :
    Except Err (PyDict String (Option (List ℕ × List ℚ))) :=
  match findAllAttributes lib g with
  | .error err => .error err
  | .ok as => categoricalLoop lib g.edges cat as []

/-- The profiler (graph_profiler.py:42-57). `metadata` holds the profile dictionary of the last
update, which is empty once `sample_size` is popped: not modelled. -/
structure Prof where
  sampleSize : ℕ := 0
  numNodes : Option ℕ := none
  numEdges : Option ℕ := none
  categorical : Option (List String) := none
  continuous : Option (List String) := none
  avgDegree : Option ℚ := none
  maxComponent : Option ℕ := none
  contDist : Option (PyDict String (Option (ℕ × ℚ))) := none
  catDist : Option (PyDict String (Option (List ℕ × List ℚ))) := none
  deriving DecidableEq

/-- A freshly constructed profiler (graph_profiler.py:30-57): the data passed is ignored. -/
def new : Prof := {}

/-- `subset_properties` (graph_profiler.py:219, 241, 286, 299). -/
structure Subset where
  numNodes : Option ℕ := none
  categorical : Option (List String) := none
  continuous : Option (List String) := none

/-- One calculation: it assigns its attribute or raises before assigning anything. -/
abbrev Step := Prof × Subset → Except Err (Prof × Subset)

/-- `_update_num_nodes` (graph_profiler.py:230-241). -/
def stepNumNodes (g : Net V) : Step := fun s =>
  .ok ({ s.1 with numNodes := some g.nodes.length }, { s.2 with numNodes := some g.nodes.length })

/-- `_update_num_edges` (graph_profiler.py:243-250). -/
def stepNumEdges (g : Net V) : Step := fun s => .ok ({ s.1 with numEdges := some (size g) }, s.2)

/-- `_update_categorical_attributes` (graph_profiler.py:275-286). -/
def stepCategorical (lib : Lib V) (g : Net V) : Step := fun s =>
  match categoricalAndContinuous lib g with
  | .error err => .error err
  | .ok r => .ok ({ s.1 with categorical := some r.1 }, { s.2 with categorical := some r.1 })

/-- `_update_continuous_attributes` (graph_profiler.py:288-299). -/
def stepContinuous (lib : Lib V) (g : Net V) : Step := fun s =>
  match categoricalAndContinuous lib g with
  | .error err => .error err
  | .ok r => .ok ({ s.1 with continuous := some r.2 }, { s.2 with continuous := some r.2 })

/-- `_update_avg_node_degree` (graph_profiler.py:252-264). -/
def stepAvgDegree (g : Net V) : Step := fun s =>
  match avgNodeDegree g (s.2.numNodes.getD 0) with
  | .error err => .error err
  | .ok r => .ok ({ s.1 with avgDegree := some r }, s.2)

/-- `_update_global_max_comp_size` (graph_profiler.py:266-273). -/
def stepMaxComponent (lib : Lib V) (g : Net V) : Step := fun s =>
  match globalMaxComponentSize lib g with
  | .error err => .error err
  | .ok r => .ok ({ s.1 with maxComponent := some r }, s.2)

/-- `_update_continuous_distribution` (graph_profiler.py:301-313). -/
def stepContDist (lib : Lib V) (g : Net V) : Step := fun s =>
  match continuousDistribution lib g (s.2.continuous.getD []) with
  | .error err => .error err
  | .ok r => .ok ({ s.1 with contDist := some r }, s.2)

/-- `_update_categorical_distribution` (graph_profiler.py:315-327). -/
def stepCatDist (lib : Lib V) (g : Net V) : Step := fun s =>
  match categoricalDistribution lib g (s.2.categorical.getD []) with
  | .error err => .error err
  | .ok r => .ok ({ s.1 with catDist := some r }, s.2)

/-- `self.__calculations` (graph_profiler.py:58-67), in order. -/
def calculations (lib : Lib V) (g : Net V) : List Step :=
  [stepNumNodes g, stepNumEdges g, stepCategorical lib g, stepContinuous lib g, stepAvgDegree g,
    stepMaxComponent lib g, stepContDist lib g, stepCatDist lib g]

/-- `_perform_property_calcs` (base_column_profilers.py:97-122): an exception leaves the attributes
assigned so far. -/
def perform : List Step → Prof × Subset → Prof × Option Err
  | [], s => (s.1, none)
  | f :: fs, s =>
    match f s with
    | .error err => (s.1, some err)
    | .ok s' => perform fs s'

/-- `update` (graph_profiler.py:195-224): the profiler afterwards and the exception raised. -/
def update (lib : Lib V) (p : Prof) (g : Net V) : Prof × Option Err :=
  let n := size g
  if n = 0 ∧ g.nodes.length = 0 then (p, none)
  else
    match perform (calculations lib g) (p, {}) with
    | (p', some err) => (p', some err)
    | (p', none) => ({ p' with sampleSize := p'.sampleSize + n }, none)

/-- The values of the profile dictionary. -/
inductive Entry where
  | nat (n : Option ℕ)
  | rat (q : Option ℚ)
  | names (l : Option (List String))
  | cont (d : Option (PyDict String (Option (ℕ × ℚ))))
  | cat (d : Option (PyDict String (Option (List ℕ × List ℚ))))
  | times
  deriving DecidableEq

/-- `profile` (graph_profiler.py:82-100). -/
def profile (p : Prof) : PyDict String Entry :=
  [("num_nodes", .nat p.numNodes), ("num_edges", .nat p.numEdges),
    ("categorical_attributes", .names p.categorical), ("continuous_attributes", .names p.continuous),
    ("avg_node_degree", .rat p.avgDegree), ("global_max_component_size", .nat p.maxComponent),
    ("continuous_distribution", .cont p.contDist), ("categorical_distribution", .cat p.catDist),
    ("times", .times)]

/-- The keys of `self.__calculations` (graph_profiler.py:58-67). -/
def calculationKeys : List String :=
  ["num_nodes", "num_edges", "categorical_attributes", "continuous_attributes", "avg_node_degree",
    "global_max_component_size", "continuous_distribution", "categorical_distribution"]

/-- `list_keys` (graph_profiler.py:161-170). -/
def listKeys : List String :=
  ["num_nodes", "num_edges", "categorical_attributes", "continuous_attributes", "avg_node_degree",
    "global_max_component_size", "continuous_distribution", "categorical_distribution"]

/-- `report` (graph_profiler.py:153-180). -/
def report (p : Prof) (removeDisabled : Bool) : PyDict String Entry :=
  if removeDisabled then
    (PyDict.keys (profile p)).foldl
      (fun d k => if k ∈ listKeys ∧ k ∈ calculationKeys then d else PyDict.del d k) (profile p)
  else profile p

end Verif.Graph
