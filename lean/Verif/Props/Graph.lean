import Verif.Lemmas.GraphComponents

/-!
# C41: the statistics of a graph
-/

namespace Verif.Props.Graph

open Verif Verif.Graph Verif.Spec.Graph

variable {V : Type} [DecidableEq V]

/-- The profile of a fresh profiler updated with a sequence of graphs, and whether some update
raised. -/
def updates (lib : Lib V) : List (Net V) → Prof × Bool → Prof × Bool
  | [], s => s
  | g :: gs, s => updates lib gs ((update lib s.1 g).1, s.2 || (update lib s.1 g).2.isSome)

/-- A graph the profiler can handle. -/
structure Good (lib : Lib V) (g : Net V) : Prop where
  simple : Simple g
  uniform : Uniform g
  numeric : Numeric g
  fits : Fits lib g

/-- C41 for one update: node and edge counts, average degree, the largest component (the number of
edges of the component with the most nodes), the two kinds of attributes and their distributions are
those of the graph, whatever was profiled before. Missing from the full claim: the size of the
component is its number of edges, and the graph must be `Uniform` and `Fits`. -/
theorem C41_partial {lib : Lib V} (hl : Faithful lib) {g : Net V} (hg : Good lib g) (hne : g.nodes ≠ []) (p : Prof) :
    (update lib p g).2 = none ∧ Describes lib g (update lib p g).1 :=
  let h := update_ok hl hg.simple hne hg.uniform hg.numeric hg.fits p
  ⟨h.1, h.2.1⟩

/-- On a simple graph with numeric attributes an update succeeds exactly when every edge carries the
same attributes and every attribute can be fitted; otherwise it raises. -/
theorem C41_succeeds_iff {lib : Lib V} (hl : Faithful lib) {g : Net V} (hs : Simple g) (hne : g.nodes ≠ [])
    (hn : Numeric g) (p : Prof) : (update lib p g).2 = none ↔ Uniform g ∧ Fits lib g :=
  ⟨update_needs hl hs hne hn, fun h => (update_ok hl hs hne h.1 hn h.2 p).1⟩

/-- Every attribute is in exactly one of the two lists. -/
theorem C41_attributes {lib : Lib V} (hl : Faithful lib) {g : Net V} (hg : Good lib g) (hne : g.nodes ≠ []) (p : Prof) :
    ∃ l r, (update lib p g).1.categorical = some l ∧ (update lib p g).1.continuous = some r ∧
      (l ++ r).Nodup ∧ ∀ a, a ∈ l ++ r ↔ ∃ e ∈ g.edges, ∃ x, (a, x) ∈ e.attrs := by
  obtain ⟨_, h⟩ := C41_partial hl hg hne p
  obtain ⟨l, h1, h2, h3⟩ := h.categorical
  obtain ⟨r, h4, h5, h6⟩ := h.continuous
  refine ⟨l, r, h1, h4, List.nodup_append'.2 ⟨h2, h5, fun a hl hr => ((h6 a).1 hr).2 ((h3 a).1 hl)⟩, fun a => ?_⟩
  rw [List.mem_append, h3, h6]
  constructor
  · rintro (⟨e, he, z, hz⟩ | h)
    · exact ⟨e, he, _, hz⟩
    · exact h.1
  · intro h
    by_cases hi : HasInteger g a
    · exact Or.inl hi
    · exact Or.inr ⟨h, hi⟩

/-- A graph without nodes changes nothing. -/
theorem C41_empty (lib : Lib V) (p : Prof) {g : Net V} (h : g.nodes = []) : update lib p g = (p, none) :=
  update_empty lib p h

theorem updates_spec {lib : Lib V} (hl : Faithful lib) (gs : List (Net V)) (hg : ∀ g ∈ gs, Good lib g)
    (hnil : ∀ g ∈ gs, g.nodes = [] → g.edges = []) (p : Prof) (g0 : Option (Net V))
    (hp : ∀ g, g0 = some g → Describes lib g p) :
    (updates lib gs (p, false)).2 = false ∧
      (updates lib gs (p, false)).1.sampleSize = p.sampleSize + (gs.map fun g => g.edges.length).sum ∧
      (∀ g, ((gs.filter fun g => !g.nodes.isEmpty).getLast?.or g0) = some g →
        Describes lib g (updates lib gs (p, false)).1) ∧
      ((gs.filter fun g => !g.nodes.isEmpty) = [] → (updates lib gs (p, false)).1 = p) := by
  induction gs generalizing p g0 with
  | nil => exact ⟨rfl, by simp [updates], by simpa [updates] using hp, fun _ => rfl⟩
  | cons g gs ih =>
    have ih := fun p g0 => ih (fun g hx => hg g (List.mem_cons_of_mem _ hx))
      (fun g hx => hnil g (List.mem_cons_of_mem _ hx)) p g0
    unfold updates
    by_cases hne : g.nodes = []
    · simp only [update_empty lib p hne, Option.isSome_none, Bool.or_false, List.map_cons, List.sum_cons,
        hnil g List.mem_cons_self hne, List.length_nil, Nat.zero_add]
      rw [List.filter_cons_of_neg (by simp [hne])]
      exact ih p g0 hp
    · have hG := hg g List.mem_cons_self
      obtain ⟨h1, h2, h3⟩ := update_ok hl hG.simple hne hG.uniform hG.numeric hG.fits p
      simp only [h1, Option.isSome_none, Bool.or_false, List.map_cons, List.sum_cons]
      obtain ⟨i1, i2, i3, i4⟩ := ih (update lib p g).1 (some g) (fun g' h => by cases h; exact h2)
      rw [List.filter_cons_of_pos (by simp [hne])]
      refine ⟨i1, by rw [i2, h3]; omega, ?_, (fun h => nomatch h)⟩
      intro g' hg'
      refine i3 g' ?_
      rw [List.getLast?_cons] at hg'
      simp only [Option.or] at hg'
      cases hL : (gs.filter fun g => !g.nodes.isEmpty).getLast? with
      | none => rw [hL] at hg'; exact hg'
      | some x => rw [hL] at hg'; exact hg'

/-- After any sequence of updates the statistics are those of the last graph with a node, while the
sample size counts the edges of all the graphs. -/
theorem C41_last {lib : Lib V} (hl : Faithful lib) (gs : List (Net V)) (hg : ∀ g ∈ gs, Good lib g) :
    (updates lib gs (new, false)).2 = false ∧
      (updates lib gs (new, false)).1.sampleSize = (gs.map fun g => g.edges.length).sum ∧
      (∀ g, (gs.filter fun g => !g.nodes.isEmpty).getLast? = some g →
        Describes lib g (updates lib gs (new, false)).1) ∧
      ((∀ g ∈ gs, g.nodes = []) → (updates lib gs (new, false)).1 = new) := by
  have hnil : ∀ g ∈ gs, g.nodes = [] → g.edges = [] := by
    intro g hx hn
    refine List.eq_nil_iff_forall_not_mem.2 fun e he => ?_
    have := ((hg g hx).simple.ends e he).1
    rw [hn] at this; cases this
  obtain ⟨h1, h2, h3, h4⟩ := updates_spec hl gs hg hnil new none (fun _ h => nomatch h)
  refine ⟨h1, by rw [h2]; simp [new], fun g hx => h3 g (by rw [hx]; rfl), fun h => h4 ?_⟩
  rw [List.filter_eq_nil_iff]
  intro g hx
  simp [h g hx]

/-- The report lists the eight statistics, and the times as well unless disabled entries are
removed. -/
theorem C41_report (p : Prof) :
    (PyDict.keys (report p false) = ["num_nodes", "num_edges", "categorical_attributes", "continuous_attributes",
        "avg_node_degree", "global_max_component_size", "continuous_distribution", "categorical_distribution",
        "times"]) ∧
      report p true = [("num_nodes", .nat p.numNodes), ("num_edges", .nat p.numEdges),
        ("categorical_attributes", .names p.categorical), ("continuous_attributes", .names p.continuous),
        ("avg_node_degree", .rat p.avgDegree), ("global_max_component_size", .nat p.maxComponent),
        ("continuous_distribution", .cont p.contDist), ("categorical_distribution", .cat p.catDist)] := by
  constructor
  · rfl
  · simp [report, profile, PyDict.keys, listKeys, calculationKeys, PyDict.del]

/-! ### Concrete graphs -/

/-- scipy finding negative log-likelihoods 9, 8, 7, 6, 5, 4 and numpy one bin. -/
def someLib : Lib ℕ := toyLib (fun i _ => some (9 - i)) fun xs => .ok ([xs.length], [0, 1])

theorem someLib_faithful : Faithful someLib := toyLib_faithful _ _

/-- Checkable conditions for a graph to be good for `someLib`. -/
theorem good_of {g : Net ℕ} (hs : Simple g)
    (hu : ∀ e ∈ g.edges, ∀ p ∈ e.attrs, ∀ f ∈ g.edges, p.1 ∈ f.attrs.map Prod.fst)
    (hn : ∀ e ∈ g.edges, ∀ p ∈ e.attrs, p.2 ≠ Val.bad) : Good someLib g where
  simple := hs
  uniform := by
    rintro a ⟨e, he, x, hx⟩ f hf
    obtain ⟨q, hq, hqa⟩ := List.mem_map.1 (hu e he (a, x) hx f hf)
    exact ⟨q.2, by rw [show a = q.1 from hqa.symm]; exact hq⟩
  numeric e he a ha := hn e he _ ha rfl
  fits := ⟨fun _ _ _ => ⟨5, by decide, 9 - 5, rfl, by decide +kernel⟩, fun _ _ => ⟨_, rfl⟩⟩

/-- A triangle with a tail, a self-loop and an isolated node. -/
def sample : Net ℕ where
  nodes := [0, 1, 2, 3, 4, 5]
  edges := [⟨0, 1, [("w", .num (1 / 2)), ("k", .num 3)]⟩, ⟨1, 2, [("w", .num (3 / 2)), ("k", .num (7 / 2))]⟩,
    ⟨2, 0, [("k", .special), ("w", .special)]⟩, ⟨2, 3, [("w", .num (-1 / 3)), ("k", .num 1)]⟩,
    ⟨4, 4, [("w", .num (5 / 2)), ("k", .num 1)]⟩]

theorem sample_simple : Simple sample := ⟨by decide, by decide, by decide, by decide⟩

/-- The hypotheses of `C41_partial` and the profile it describes: degree 10 / 6, four edges in the
component of four nodes, `k` categorical although one of its values is 7/2. -/
example : Good someLib sample ∧ sample.nodes ≠ [] ∧
    (update someLib new sample).1 =
      { sampleSize := 5, numNodes := some 6, numEdges := some 5, categorical := some ["k"], continuous := some ["w"],
        avgDegree := some (10 / 6), maxComponent := some 4,
        contDist := some [("w", some (5, 4)), ("k", none)], catDist := some [("w", none), ("k", some ([5], [0, 1]))] } :=
  ⟨good_of sample_simple (by decide) (by decide), by decide, by decide +kernel⟩

/-- Two updates: the statistics of the second graph, the edges of both. -/
example : (updates someLib [sample, ⟨[7, 8], [⟨7, 8, []⟩]⟩, ⟨[], []⟩] (new, false)).1 =
    { sampleSize := 6, numNodes := some 2, numEdges := some 1, categorical := some [], continuous := some [],
      avgDegree := some 1, maxComponent := some 1, contDist := some [], catDist := some [] } := by decide +kernel

/-! ### Where the claim fails -/

/-- One edge. -/
def pair : Net ℕ := ⟨[0, 1], [⟨0, 1, []⟩]⟩

/-- The largest component statistic is not the number of nodes of the largest component: for a single
edge it is 1. -/
theorem C41_size_fails : ¬∀ (lib : Lib ℕ) (g : Net ℕ) (p : Prof), Faithful lib → Good lib g → g.nodes ≠ [] →
    ∃ c, IsComponent g c ∧ (∀ c', IsComponent g c' → c'.length ≤ c.length) ∧
      (update lib p g).1.maxComponent = some c.length := by
  intro h
  obtain ⟨c, _, h2, h3⟩ := h someLib pair new someLib_faithful
    (good_of ⟨by decide, by decide, by decide, by decide⟩ (by decide) (by decide)) (by decide)
  have h4 : (update someLib new pair).1.maxComponent = some 1 := by decide +kernel
  have h5 := h2 [0, 1] (someLib_faithful.component pair ⟨by decide, by decide, by decide, by decide⟩ [0, 1] (by decide))
  rw [h4, Option.some.injEq] at h3
  rw [← h3] at h5
  exact absurd h5 (by decide)

/-- A complete graph on four nodes and a path on five. -/
def cliqueAndPath : Net ℕ where
  nodes := [0, 1, 2, 3, 4, 5, 6, 7, 8]
  edges := [⟨0, 1, []⟩, ⟨0, 2, []⟩, ⟨0, 3, []⟩, ⟨1, 2, []⟩, ⟨1, 3, []⟩, ⟨2, 3, []⟩,
    ⟨4, 5, []⟩, ⟨5, 6, []⟩, ⟨6, 7, []⟩, ⟨7, 8, []⟩]

/-- Nor is it the largest number of edges of a component: a component with fewer nodes can have
more. -/
theorem C41_edges_fails : ¬∀ (lib : Lib ℕ) (g : Net ℕ) (p : Prof), Faithful lib → Good lib g → g.nodes ≠ [] →
    ∀ c, IsComponent g c → ∀ n, (update lib p g).1.maxComponent = some n →
      (g.edges.filter fun e => decide (e.u ∈ c)).length ≤ n := by
  intro h
  have hs : Simple cliqueAndPath := ⟨by decide, by decide, by decide, by decide⟩
  have h1 := h someLib cliqueAndPath new someLib_faithful (good_of hs (by decide) (by decide)) (by decide)
  have h2 : (classes cliqueAndPath.nodes cliqueAndPath.edges).any fun c =>
      decide ((cliqueAndPath.edges.filter fun e => decide (e.u ∈ c)).length = 6) := by decide
  obtain ⟨c, hc, h3⟩ := List.any_eq_true.1 h2
  have h4 := h1 c (someLib_faithful.component _ hs c hc) 4 (by decide +kernel)
  rw [of_decide_eq_true h3] at h4
  exact absurd h4 (by decide)

/-- Not every simple graph with numeric attributes can be profiled: an edge with an attribute the other
edge lacks makes the update raise, after the counts were already overwritten. -/
theorem C41_ragged_fails : ¬∀ (lib : Lib ℕ) (g : Net ℕ) (p : Prof), Faithful lib → Simple g → Numeric g →
    (update lib p g).2 = none ∨ (update lib p g).1 = p := by
  intro h
  have := h someLib ⟨[0, 1, 2], [⟨0, 1, [("w", .num 1)]⟩, ⟨1, 2, []⟩]⟩ new someLib_faithful
    ⟨by decide, by decide, by decide, by decide⟩ (fun e he a ha => by
      simp only [List.mem_cons, List.not_mem_nil, or_false] at he
      rcases he with rfl | rfl
      · simp at ha
      · simp at ha)
  revert this
  decide +kernel

/-- When every candidate distribution has a negative log-likelihood above 1000, as for any large
enough graph, the update raises. -/
theorem C41_likelihood_fails : ¬∀ (lib : Lib ℕ) (g : Net ℕ) (p : Prof), Faithful lib → Simple g → Numeric g →
    Uniform g → (∀ i xs, (lib.nnlf i xs).isSome) → (update lib p g).2 = none := by
  intro h
  have hs : Simple (⟨[0, 1], [⟨0, 1, [("w", .num (1 / 2))]⟩]⟩ : Net ℕ) :=
    ⟨by decide, by decide, by decide, by decide⟩
  have := h (toyLib (fun _ _ => some 1001) fun xs => .ok ([xs.length], [0, 1])) _ new (toyLib_faithful _ _) hs
    (good_of hs (by decide) (by decide)).numeric (good_of hs (by decide) (by decide)).uniform (fun _ _ => rfl)
  revert this
  decide +kernel

end Verif.Props.Graph
