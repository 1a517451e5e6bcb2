import Verif.Lemmas.GraphRead

/-!
# C69: a table of edges is read as its graph

Property C69 of properties.jsonl.
-/

namespace Verif.Props.GraphRead

open Verif Verif.GraphRead Verif.GraphRead.Spec

/-- Digits of decimal numbers: enough of `float`, `isdigit` and `int` for the examples. -/
def demo : Lib where
  toFloat s := (s.toList.foldl (fun (a : Option ℕ) c => a.bind fun n => if c.isDigit then some (10 * n + (c.toNat - 48)) else none)
    (some 0)).map fun n => some (n : ℚ)
  isDigit s := s.toList.all Char.isDigit
  toInt s := (s.toList.foldl (fun (a : Option ℕ) c => a.bind fun n => if c.isDigit then some (10 * n + (c.toNat - 48)) else none)
    (some 0)).map fun n => (n : ℤ)

/-! ## Finding the columns -/

/-- C69: the column of a node is the first one whose name has one of the keywords next to an underscore, a dot or a dash; there is none
exactly if the result is -1. -/
theorem C69_find (names ks : List String) :
    (∀ i : ℕ, findColumn names ks = (i : ℤ) ↔ IsFirst names ks i) ∧ (findColumn names ks = -1 ↔ ∀ n ∈ names, ¬ Mentions ks n) ∧
      (findColumn names ks = -1 ∨ ∃ i : ℕ, findColumn names ks = (i : ℤ)) :=
  ⟨findColumn_spec names ks, findColumn_none names ks, findColumn_cases names ks⟩

example : findColumn ["id", "resource", "node_source", "source_b"] ["source", "src"] = 2 := by decide +kernel

/-- C69: a delimited file is taken for a graph exactly if a column mentions a source, one a target and one a node; the columns of the
nodes are the first such ones. -/
theorem C69_match (names ss ts gs : List String) (a b : ℤ) :
    isGraph names ss ts gs = some (a, b) ↔
      (∃ i j : ℕ, a = i ∧ b = j ∧ IsFirst names ss i ∧ IsFirst names ts j) ∧ ∃ n ∈ names, Mentions gs n := by
  unfold isGraph
  have hpos : ∀ ks, 0 ≤ findColumn names ks ↔ ∃ n ∈ names, Mentions ks n := by
    intro ks
    have hn := findColumn_none names ks
    rcases findColumn_cases names ks with h | ⟨i, h⟩
    · constructor
      · intro h'; omega
      · rintro ⟨n, hn', hm⟩
        exact absurd hm (hn.1 h n hn')
    · obtain ⟨⟨n, h1, h2⟩, -⟩ := (findColumn_spec names ks i).1 h
      exact ⟨fun _ => ⟨n, List.mem_of_getElem? h1, h2⟩, fun _ => by omega⟩
  constructor
  · intro h
    split at h
    · rename_i hc
      cases h
      obtain ⟨h1, h2, h3⟩ := hc
      rcases findColumn_cases names ss with h | ⟨i, hi⟩
      · omega
      rcases findColumn_cases names ts with h | ⟨j, hj⟩
      · omega
      exact ⟨⟨i, j, hi, hj, (findColumn_spec _ _ _).1 hi, (findColumn_spec _ _ _).1 hj⟩, (hpos gs).1 h3⟩
    · cases h
  · rintro ⟨⟨i, j, rfl, rfl, hi, hj⟩, hg⟩
    rw [(findColumn_spec names ss i).2 hi, (findColumn_spec names ts j).2 hj]
    rw [if_pos ⟨by omega, by omega, (hpos gs).2 hg⟩]

example : isGraph ["node_source", "weight", "node_target"] ["source"] ["target"] ["node"] = some (0, 2) := by decide +kernel

/-- C69 does not hold for columns that are just called by the keyword. -/
theorem C69_plain_fails : isGraph ["source", "target", "weight_node"] ["source", "src", "origin"] ["target", "destination", "dst"] ["node"] = none := by
  decide +kernel

/-- C69: the names of the columns are the cells of the header row without their blanks, for header rows up to the 257th. -/
theorem C69_names (rows : List (List String)) (h : ℕ) (hh : h ≤ 256) (row : List String) (hr : rows[h]? = some row) :
    (columnNames rows (some (h : ℤ))).length = row.length ∧
      ∀ (i : ℕ) (s : String), row[i]? = some s → ∃ n, (columnNames rows (some (h : ℤ)))[i]? = some n ∧ ' ' ∉ n.toList ∧
        n.toList = s.toList.filter fun c => decide (c ≠ ' ') := by
  have hf : ((rows.zipIdx).find? fun x => same x.2 (some (h : ℤ))) = some (row, h) := by
    rw [List.find?_eq_some_iff_getElem]
    have hl : h < rows.length := (List.getElem?_eq_some_iff.1 hr).1
    have he : rows[h] = row := (List.getElem?_eq_some_iff.1 hr).2
    refine ⟨by simp [same, hh], h, by simpa using hl, by simp [he], ?_⟩
    intro j hj
    simp only [List.getElem_zipIdx, Nat.zero_add, same]
    simp only [Bool.not_eq_true', decide_eq_false_iff_not, Option.some.injEq]
    omega
  unfold columnNames
  dsimp only
  rw [hf]
  dsimp only
  refine ⟨by simp, fun i s hs => ?_⟩
  refine ⟨String.ofList (s.toList.filter fun c => decide (c ≠ ' ')), by simp [hs], ?_, by simp⟩
  simp

/-- C69 does not hold for later header rows: the numbers are compared by identity, no name is found and the file is no graph. -/
theorem C69_far_fails (rows : List (List String)) (h : ℤ) (hh : 256 < h) (ss ts gs : List String) :
    columnNames rows (some h) = [] ∧ isGraph (columnNames rows (some h)) ss ts gs = none := by
  have hf : columnNames rows (some h) = [] := by
    unfold columnNames
    dsimp only
    have : ((rows.zipIdx).find? fun x => same x.2 (some h)) = none := by
      rw [List.find?_eq_none]
      intro x _
      simp only [same, Option.some.injEq, decide_eq_true_eq]
      omega
    rw [this]
  refine ⟨hf, ?_⟩
  rw [hf]
  simp [isGraph, findColumn]

/-! ## Building the graph -/

/-- C69 (partial): a table with a name for every column, numbers in all its cells and two columns of nodes is read as its graph: its nodes
are the texts in the two columns, two nodes are joined exactly if a row joins them, no edge is double, and an edge has under each name
the value of the last row that joins its nodes.  Missing: tables with texts. -/
theorem C69_graph_partial (lib : Lib) (ns : List String) (src dst : ℕ) (hne : src ≠ dst) (rows : List (List (Option String)))
    (h : Readable lib ns src dst rows) (ss ts : List String) :
    ∃ g, readGraph lib (some ns) (some (src : ℤ)) (some (dst : ℤ)) ss ts rows = .ok g ∧ IsGraphOf lib ns src dst rows g :=
  readRows_spec hne h

/-- C69 (partial): the same with the columns found by their names. -/
theorem C69_found_partial (lib : Lib) (ns ss ts : List String) (src dst : ℕ) (hs : IsFirst ns ss src) (ht : IsFirst ns ts dst)
    (hne : src ≠ dst) (rows : List (List (Option String))) (h : Readable lib ns src dst rows) :
    ∃ g, readGraph lib (some ns) none none ss ts rows = .ok g ∧ IsGraphOf lib ns src dst rows g := by
  unfold readGraph nodeColumn
  simp only [Option.map_some]
  rw [(findColumn_spec ns ss src).2 hs, (findColumn_spec ns ts dst).2 ht]
  exact readRows_spec hne h

/-- Three rows, two of them for the same pair of nodes. -/
def sample : List (List (Option String)) :=
  [[some "1", some "2", some "10"], [some "2", some "3", some "20"], [some "2", some "1", some "30"]]

example : Readable demo ["node_source", "node_target", "weight"] 0 1 sample := by
  refine ⟨by decide, ?_, ?_, by decide⟩
  · intro r hr s hs
    simp only [sample, List.mem_cons, List.not_mem_nil, or_false] at hr
    rcases hr with rfl | rfl | rfl <;> simp only [List.mem_cons, Option.some.injEq, List.not_mem_nil, or_false] at hs <;>
      rcases hs with rfl | rfl | rfl <;> decide +kernel
  · intro r hr
    simp only [sample, List.mem_cons, List.not_mem_nil, or_false] at hr
    rcases hr with rfl | rfl | rfl
    · exact ⟨.int 1, .int 2, "1", "2", rfl, rfl, by rw [← checkInteger_iff]; rfl, by rw [← checkInteger_iff]; rfl⟩
    · exact ⟨.int 2, .int 3, "2", "3", rfl, rfl, by rw [← checkInteger_iff]; rfl, by rw [← checkInteger_iff]; rfl⟩
    · exact ⟨.int 2, .int 1, "2", "1", rfl, rfl, by rw [← checkInteger_iff]; rfl, by rw [← checkInteger_iff]; rfl⟩

example : ((readGraph demo (some ["node_source", "node_target", "weight"]) none none ["source"] ["target"] sample).map fun g =>
    g.nodes).toOption = some [.int 1, .int 2, .int 3] := by decide +kernel

example : ((readGraph demo (some ["node_source", "node_target", "weight"]) none none ["source"] ["target"] sample).map fun g =>
    g.edges.map fun e => ((e.u, e.v), (e.attrs : List (String × Graph.Val)))).toOption =
    some [((.int 1, .int 2), [("node_source", .num 2), ("node_target", .num 1), ("weight", .num 30)]),
      ((.int 2, .int 3), [("node_source", .num 2), ("node_target", .num 3), ("weight", .num 20)])] := by decide +kernel

/-- A row with a number in a column has a value under the name of the column. -/
theorem carries_exists (lib : Lib) (ns : List String) (row : List (Option String)) (hw : row.length ≤ ns.length)
    (hf : ∀ s, some s ∈ row → (lib.toFloat s).isSome) (i : ℕ) (s : String) (hi : row[i]? = some (some s)) (name : String)
    (hn : ns[i]? = some name) : ∃ x, Carries lib ns row name x := by
  induction row using List.reverseRecOn with
  | nil => simp at hi
  | append_singleton row c ih =>
    simp only [List.length_append, List.length_singleton] at hw
    have ih := ih (by omega) (fun s hs => hf s (List.mem_append_left _ hs))
    cases c with
    | none =>
      have : row[i]? = some (some s) := by
        by_cases hlt : i < row.length
        · rwa [List.getElem?_append_left hlt] at hi
        · rw [List.getElem?_append_right (by omega)] at hi
          rcases h : i - row.length with _ | k <;> simp [h] at hi
      obtain ⟨x, hx⟩ := ih this
      exact ⟨x, (carries_none lib ns row name x).2 hx⟩
    | some c =>
      have hc := hf c (by simp)
      rw [Option.isSome_iff_exists] at hc
      obtain ⟨f, hc⟩ := hc
      have hm : ns[row.length]? = some (ns[row.length]'(by omega)) := List.getElem?_eq_getElem (by omega)
      generalize ns[row.length]'(by omega) = n at hm
      by_cases hnn : n = name
      · exact ⟨value f, (carries_some lib ns row c f n hc hm name _).2 (by rw [if_pos hnn])⟩
      · have : row[i]? = some (some s) := by
          by_cases hlt : i < row.length
          · rwa [List.getElem?_append_left hlt] at hi
          · have hlen : i < (row ++ [some c]).length := (List.getElem?_eq_some_iff.1 hi).1
            simp only [List.length_append, List.length_singleton] at hlen
            have : i = row.length := by omega
            subst this
            rw [hm] at hn
            exact absurd (Option.some.inj hn) hnn
        obtain ⟨x, hx⟩ := ih this
        exact ⟨x, (carries_some lib ns row c f n hc hm name x).2 (by rw [if_neg hnn]; exact hx)⟩

/-- If a row joins two nodes and has a value under a name, some row is the last such one. -/
theorem latest_exists (lib : Lib) (ns : List String) (src dst : ℕ) (rows : List (List (Option String))) (u v : Node) (name : String)
    (h : ∃ r ∈ rows, RowJoins lib src dst r u v ∧ ∃ x, Carries lib ns r name x) : ∃ x, Latest lib ns src dst rows u v name x := by
  induction rows using List.reverseRecOn with
  | nil => obtain ⟨r, hr, -⟩ := h; cases hr
  | append_singleton rows r ih =>
    by_cases hr : RowJoins lib src dst r u v ∧ ∃ x, Carries lib ns r name x
    · obtain ⟨h1, x, h2⟩ := hr
      exact ⟨x, (latest_snoc rows r u v name x).2 (Or.inl ⟨h1, h2⟩)⟩
    · obtain ⟨r', hr', h'⟩ := h
      rcases List.mem_append.1 hr' with hr' | hr'
      · obtain ⟨x, hx⟩ := ih ⟨r', hr', h'⟩
        exact ⟨x, (latest_snoc rows r u v name x).2 (Or.inr ⟨fun hj y hy => hr ⟨hj, y, hy⟩, hx⟩)⟩
      · rw [List.mem_singleton.1 hr'] at h'
        exact absurd h' hr

/-- C69: in such a table without empty cells every edge has a value under the name of every column, so the profile of the graph (C41) is
that of its edges. -/
theorem C69_uniform (lib : Lib) (ns : List String) (src dst : ℕ) (rows : List (List (Option String)))
    (h : Readable lib ns src dst rows) (hfull : ∀ r ∈ rows, none ∉ r) (g : Graph.Net Node) (hg : IsGraphOf lib ns src dst rows g) :
    (∀ e ∈ g.edges, ∀ name ∈ ns, ∃ x, (name, x) ∈ e.attrs) ∧ (∀ e ∈ g.edges, ∀ name x, (name, x) ∈ e.attrs → name ∈ ns) ∧
      Verif.Spec.Graph.Uniform g := by
  have h1 : ∀ e ∈ g.edges, ∀ name ∈ ns, ∃ x, (name, x) ∈ e.attrs := by
    intro e he name hn
    have hj : Verif.Spec.Graph.Joined g e.u e.v := ⟨e, he, Or.inl ⟨rfl, rfl⟩⟩
    obtain ⟨r, hr, hj⟩ := (hg.joined _ _).1 hj
    obtain ⟨i, hi, rfl⟩ := List.mem_iff_getElem.1 hn
    have hir : i < r.length := by rw [h.width r hr]; exact hi
    rcases hc : r[i] with _ | s
    · exact absurd (hc ▸ List.getElem_mem hir) (hfull r hr)
    · have hcar := carries_exists lib ns r (le_of_eq (h.width r hr)) (h.numeric r hr) i s (by rw [List.getElem?_eq_getElem hir, hc]) _
        (List.getElem?_eq_getElem hi)
      obtain ⟨x, hx⟩ := latest_exists lib ns src dst rows e.u e.v _ ⟨r, hr, hj, hcar⟩
      exact ⟨x, (hg.attrs e he _ x).2 hx⟩
  have h2 : ∀ e ∈ g.edges, ∀ name x, (name, x) ∈ e.attrs → name ∈ ns := by
    intro e he name x hx
    obtain ⟨pre, row, post, -, -, ⟨i, s, f, hi, -⟩, -⟩ := (hg.attrs e he name x).1 hx
    exact List.mem_of_getElem? hi
  refine ⟨h1, h2, ?_⟩
  rintro a ⟨e, he, x, hx⟩ e' he'
  exact h1 e' he' a (h2 e he a x hx)

/-! ## Where it goes wrong -/

theorem cells_numeric (lib : Lib) (ns : List String) (src dst : Option ℤ) (hne : ∀ c, same c src = false ∨ same c dst = false)
    (xs : List (Option String × ℕ)) (s s' : Graph.Net Node × PyDict String Graph.Val) (h : cells lib (some ns) src dst s xs = .ok s') :
    ∀ x ∈ xs, ∀ c, x.1 = some c → (lib.toFloat c).isSome := by
  induction xs generalizing s with
  | nil => simp
  | cons y xs ih =>
    intro x hx c hc
    simp only [cells] at h
    cases hstep : cellStep lib (some ns) src dst s y with
    | error e => rw [hstep] at h; cases h
    | ok s1 =>
      rw [hstep] at h
      rcases List.mem_cons.1 hx with rfl | hx
      · unfold cellStep at hstep
        rw [hc] at hstep
        dsimp only at hstep
        rw [if_pos (hne _)] at hstep
        cases hf : lib.toFloat c with
        | none => rw [hf] at hstep; cases hstep
        | some f => rfl
      · exact ih s1 h x hx c hc

/-- C69 does not hold for tables with texts: if a cell of any row, be it the name of a node, is not a number, no graph is read. -/
theorem C69_text_fails (lib : Lib) (ns : List String) (src dst : ℕ) (hne : src ≠ dst) (ss ts : List String)
    (rows : List (List (Option String))) (r : List (Option String)) (hr : r ∈ rows) (s : String) (hs : some s ∈ r)
    (hf : lib.toFloat s = none) : ∀ g, readGraph lib (some ns) (some (src : ℤ)) (some (dst : ℤ)) ss ts rows ≠ .ok g := by
  unfold readGraph nodeColumn
  dsimp only
  generalize (⟨[], []⟩ : Graph.Net Node) = g0
  induction rows generalizing g0 with
  | nil => cases hr
  | cons row rows ih =>
    intro g h
    simp only [readRows] at h
    cases hstep : rowStep lib (some ns) (some (src : ℤ)) (some (dst : ℤ)) g0 row with
    | error e => rw [hstep] at h; cases h
    | ok g1 =>
      rw [hstep] at h
      rcases List.mem_cons.1 hr with rfl | hr
      · unfold rowStep at hstep
        cases hcells : cells lib (some ns) (some (src : ℤ)) (some (dst : ℤ)) (g0, []) r.zipIdx with
        | error e => rw [hcells] at hstep; cases hstep
        | ok s' =>
          obtain ⟨i, hi, hir⟩ := List.mem_iff_getElem.1 hs
          have := cells_numeric lib ns _ _ (not_both hne) _ _ _ hcells (some s, i)
            (by rw [List.mk_mem_zipIdx_iff_getElem?]; rw [List.getElem?_eq_getElem hi, hir]) s rfl
          rw [hf] at this
          cases this
      · exact ih hr g1 g h

example : (readGraph demo (some ["node_source", "node_target", "weight"]) (some 0) (some 1) [] []
    [[some "1", some "2", some "10"], [some "Ann", some "Bob", some "20"]]).toOption.isNone = true := by decide +kernel

/-- C69 does not hold for the columns of the nodes: they become attributes of the edges as well, on every edge. -/
theorem C69_ends_fails (lib : Lib) (ns : List String) (src dst : ℕ) (rows : List (List (Option String)))
    (h : Readable lib ns src dst rows) (g : Graph.Net Node) (hg : IsGraphOf lib ns src dst rows g) (name : String)
    (hn : ns[src]? = some name ∨ ns[dst]? = some name) : ∀ e ∈ g.edges, ∃ x, (name, x) ∈ e.attrs := by
  intro e he
  have hj : Verif.Spec.Graph.Joined g e.u e.v := ⟨e, he, Or.inl ⟨rfl, rfl⟩⟩
  obtain ⟨r, hr, hj⟩ := (hg.joined _ _).1 hj
  obtain ⟨u, v, a, b, ha, hb, -, -⟩ := h.nodes r hr
  have hcar : ∃ x, Carries lib ns r name x := by
    rcases hn with hn | hn
    · exact carries_exists lib ns r (le_of_eq (h.width r hr)) (h.numeric r hr) src a ha name hn
    · exact carries_exists lib ns r (le_of_eq (h.width r hr)) (h.numeric r hr) dst b hb name hn
  obtain ⟨x, hx⟩ := latest_exists lib ns src dst rows e.u e.v name ⟨r, hr, hj, hcar⟩
  exact ⟨x, (hg.attrs e he _ x).2 hx⟩

theorem readRows_loops (lib : Lib) (names : Option (List String)) (c : Option ℤ) (rows : List (List (Option String)))
    (g g' : Graph.Net Node) (hg : ∀ e ∈ g.edges, e.u = e.v) (h : readRows lib names c c g rows = .ok g') :
    ∀ e ∈ g'.edges, e.u = e.v := by
  have hcell : ∀ (xs : List (Option String × ℕ)) (s s' : Graph.Net Node × PyDict String Graph.Val),
      cells lib names c c s xs = .ok s' → s'.1.edges = s.1.edges := by
    intro xs
    induction xs with
    | nil => intro s s' h; cases h; rfl
    | cons x xs ih =>
      intro s s' h
      simp only [cells] at h
      cases hstep : cellStep lib names c c s x with
      | error e => rw [hstep] at h; cases h
      | ok s1 =>
        rw [hstep] at h
        rw [ih s1 s' h]
        have hmap : ∀ t, ((checkInteger lib t).map fun n => (addNode s.1 n, s.2)) = .ok s1 → s1.1.edges = s.1.edges := by
          intro t ht
          cases hc : checkInteger lib t with
          | error e => rw [hc] at ht; cases ht
          | ok n => rw [hc] at ht; cases ht; exact addNode_edges _ _
        unfold cellStep at hstep
        cases hx : x.1 with
        | none => rw [hx] at hstep; cases hstep; rfl
        | some t =>
          rw [hx] at hstep
          cases names with
          | none =>
            dsimp only at hstep
            split at hstep
            · exact hmap t hstep
            · cases hstep; rfl
          | some ns =>
            dsimp only at hstep
            split at hstep
            · cases hf : lib.toFloat t with
              | none => rw [hf] at hstep; cases hstep
              | some f =>
                rw [hf] at hstep
                dsimp only at hstep
                cases hn : ns[x.2]? with
                | none => rw [hn] at hstep; cases hstep
                | some n => rw [hn] at hstep; cases hstep; rfl
            · exact hmap t hstep
  induction rows generalizing g with
  | nil => cases h; exact hg
  | cons row rows ih =>
    simp only [readRows] at h
    cases hstep : rowStep lib names c c g row with
    | error e => rw [hstep] at h; cases h
    | ok g1 =>
      rw [hstep] at h
      refine ih g1 ?_ h
      unfold rowStep at hstep
      cases hcells : cells lib names c c (g, []) row.zipIdx with
      | error e => rw [hcells] at hstep; cases hstep
      | ok s =>
        rw [hcells] at hstep
        dsimp only at hstep
        cases hn : nodeAt lib row c with
        | error e => rw [hn] at hstep; cases hstep
        | ok u =>
          rw [hn] at hstep
          dsimp only at hstep
          split at hstep
          · cases hstep
          · cases hstep
            have hs := hcell _ _ _ hcells
            dsimp only at hs
            intro e he
            unfold addEdge at he
            dsimp only at he
            rw [addNode_edges, addNode_edges, hs] at he
            split at he
            · obtain ⟨f, hf, rfl⟩ := List.mem_map.1 he
              split <;> exact hg f hf
            · rcases List.mem_append.1 he with he | he
              · exact hg e he
              · rw [List.mem_singleton.1 he]

/-- C69 does not hold if no column has the keywords: the last column is taken for both nodes, and every edge is a loop. -/
theorem C69_unfound_fails (lib : Lib) (ns ss ts : List String) (hs : ∀ n ∈ ns, ¬ Mentions ss n) (ht : ∀ n ∈ ns, ¬ Mentions ts n)
    (rows : List (List (Option String))) (g : Graph.Net Node) (h : readGraph lib (some ns) none none ss ts rows = .ok g) :
    ∀ e ∈ g.edges, e.u = e.v := by
  unfold readGraph nodeColumn at h
  simp only [Option.map_some] at h
  rw [(findColumn_none ns ss).2 hs, (findColumn_none ns ts).2 ht] at h
  exact readRows_loops lib (some ns) (some (-1)) rows _ _ (by simp) h

example : ((readGraph demo (some ["from", "to", "weight"]) none none ["source"] ["target"] sample).map fun g =>
    g.edges.map fun e => (e.u, e.v)).toOption = some [(.int 10, .int 10), (.int 20, .int 20), (.int 30, .int 30)] := by decide +kernel

/-- C69 does not hold for a column with both keywords: every edge is a loop. -/
theorem C69_shared_fails (lib : Lib) (ns ss ts : List String) (i : ℕ) (hs : IsFirst ns ss i) (ht : IsFirst ns ts i)
    (rows : List (List (Option String))) (g : Graph.Net Node) (h : readGraph lib (some ns) none none ss ts rows = .ok g) :
    ∀ e ∈ g.edges, e.u = e.v := by
  unfold readGraph nodeColumn at h
  simp only [Option.map_some] at h
  rw [(findColumn_spec ns ss i).2 hs, (findColumn_spec ns ts i).2 ht] at h
  exact readRows_loops lib (some ns) (some (i : ℤ)) rows _ _ (by simp) h

example : findColumn ["node_source_target", "weight", "node_target"] ["source"] = 0 ∧
    findColumn ["node_source_target", "weight", "node_target"] ["target"] = 0 := by decide +kernel

theorem cells_nameless (lib : Lib) (xs : List (Option String × ℕ)) (s : Graph.Net Node × PyDict String Graph.Val) :
    cells lib none none none s xs = .ok s := by
  induction xs with
  | nil => rfl
  | cons x xs ih =>
    have : cellStep lib none none none s x = .ok s := by
      unfold cellStep
      rcases x.1 with _ | c
      · rfl
      · simp [same]
    simp only [cells, this]
    exact ih

/-- C69 does not hold for tables without a header: reading them fails with a type error. -/
theorem C69_header_fails (lib : Lib) (ss ts : List String) (rows : List (List (Option String))) (h : rows ≠ []) :
    readGraph lib none none none ss ts rows = .error .typeError := by
  cases rows with
  | nil => exact absurd rfl h
  | cons r rs =>
    unfold readGraph nodeColumn
    simp only [Option.map_none, readRows, rowStep, cells_nameless, nodeAt]

/-- C69 does not hold for numbers with a sign: they are nodes of their own, named by their text, and not integers. -/
theorem C69_sign_fails (lib : Lib) (s : String) (hs : s ≠ "") (hd : lib.isDigit s = false) : checkInteger lib s = .ok (.str s) := by
  rw [checkInteger_iff]
  exact ⟨hs, Or.inr ⟨hd, rfl⟩⟩

example : (checkInteger demo "5").toOption = some (.int 5) ∧ (checkInteger demo "-5").toOption = some (.str "-5") ∧
    (checkInteger demo "+5").toOption = some (.str "+5") := by decide +kernel

end Verif.Props.GraphRead
