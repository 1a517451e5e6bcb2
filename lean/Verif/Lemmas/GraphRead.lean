import Verif.Spec.GraphRead
import Verif.Lemmas.PyDict
import Mathlib.Data.List.Induction
import Mathlib.Data.List.Basic
import Mathlib.Tactic.Tauto

/-! Lemmas about reading graphs. -/

namespace Verif.GraphRead

open Verif Verif.GraphRead.Spec

/-! ## Columns -/

theorem mentions_iff (ks : List String) (n : String) : mentions ks n = true ↔ Mentions ks n := by
  unfold mentions Mentions symbols
  simp only [List.any_eq_true, Bool.or_eq_true, decide_eq_true_eq]
  constructor
  · rintro ⟨k, hk, c, hc, h | h⟩
    · obtain ⟨a, b, h⟩ := h
      exact ⟨k, hk, c, hc, a, b, Or.inl (by rw [← h]; simp)⟩
    · obtain ⟨a, b, h⟩ := h
      exact ⟨k, hk, c, hc, a, b, Or.inr (by rw [← h]; simp)⟩
  · rintro ⟨k, hk, c, hc, a, b, h | h⟩
    · exact ⟨k, hk, c, hc, Or.inl ⟨a, b, by rw [h]; simp⟩⟩
    · exact ⟨k, hk, c, hc, Or.inr ⟨a, b, by rw [h]; simp⟩⟩

theorem findColumn_spec (names ks : List String) (i : ℕ) : findColumn names ks = (i : ℤ) ↔ IsFirst names ks i := by
  unfold findColumn IsFirst
  cases h : names.findIdx? (mentions ks) with
  | none =>
    rw [List.findIdx?_eq_none_iff] at h
    constructor
    · intro h'; dsimp only at h'; omega
    · rintro ⟨⟨n, hn, hm⟩, -⟩
      have := h n (List.mem_of_getElem? hn)
      rw [(mentions_iff ks n).2 hm] at this
      cases this
  | some k =>
    rw [List.findIdx?_eq_some_iff_getElem] at h
    obtain ⟨hk, h1, h2⟩ := h
    have hfirst : ∀ j : ℕ, j < k → ∀ n, names[j]? = some n → ¬ Mentions ks n := by
      intro j hj n hn hm
      have := h2 j hj
      rw [List.getElem?_eq_getElem (by omega), Option.some.injEq] at hn
      rw [hn] at this
      exact this ((mentions_iff ks n).2 hm)
    have hhere : names[k]? = some names[k] ∧ Mentions ks names[k] := ⟨List.getElem?_eq_getElem hk, (mentions_iff ks _).1 h1⟩
    constructor
    · intro h'
      have : k = i := by dsimp only at h'; omega
      subst this
      exact ⟨⟨_, hhere⟩, hfirst⟩
    · rintro ⟨⟨n, hn, hm⟩, h3⟩
      rcases Nat.lt_trichotomy i k with h | h | h
      · exact absurd hm (hfirst i h n hn)
      · simp [h]
      · exact absurd hhere.2 (h3 k h _ hhere.1)

theorem findColumn_none (names ks : List String) : findColumn names ks = -1 ↔ ∀ n ∈ names, ¬ Mentions ks n := by
  unfold findColumn
  cases h : names.findIdx? (mentions ks) with
  | none =>
    rw [List.findIdx?_eq_none_iff] at h
    simp only [true_iff]
    intro n hn hm
    have := h n hn
    rw [(mentions_iff ks n).2 hm] at this
    cases this
  | some k =>
    rw [List.findIdx?_eq_some_iff_getElem] at h
    obtain ⟨hk, h1, -⟩ := h
    constructor
    · intro h'; dsimp only at h'; omega
    · intro h'
      exact absurd ((mentions_iff ks _).1 h1) (h' _ (List.getElem_mem hk))

theorem findColumn_cases (names ks : List String) : findColumn names ks = -1 ∨ ∃ i : ℕ, findColumn names ks = (i : ℤ) := by
  unfold findColumn
  cases names.findIdx? (mentions ks) with
  | none => exact Or.inl rfl
  | some k => exact Or.inr ⟨k, rfl⟩

/-! ## Nodes -/

theorem checkInteger_iff (lib : Lib) (s : String) (n : Node) : checkInteger lib s = .ok n ↔ IsNode lib s n := by
  unfold checkInteger IsNode
  by_cases h : s = ""
  · simp [h]
  · rw [if_neg h]
    cases hd : lib.isDigit s with
    | false =>
      simp only [Bool.false_eq_true, if_false, Except.ok.injEq, false_and, false_or, true_and]
      constructor
      · intro h'; exact ⟨h, h'.symm⟩
      · intro h'; exact h'.2.symm
    | true =>
      simp only [if_true, true_and, Bool.true_eq_false, false_and, or_false]
      cases ht : lib.toInt s with
      | none => simp
      | some k =>
        simp only [Except.ok.injEq, Option.some.injEq]
        constructor
        · intro h'; exact ⟨h, k, rfl, h'.symm⟩
        · rintro ⟨-, k', rfl, rfl⟩; rfl

theorem isNode_unique {lib : Lib} {s : String} {m n : Node} (h : IsNode lib s m) (h' : IsNode lib s n) : m = n := by
  rw [← checkInteger_iff] at h h'
  rw [h] at h'
  exact Except.ok.inj h'

theorem nodeAt_iff (lib : Lib) (row : List (Option String)) (i : ℕ) (n : Node) :
    nodeAt lib row (some (i : ℤ)) = .ok n ↔ ∃ s, row[i]? = some (some s) ∧ IsNode lib s n := by
  unfold nodeAt index
  dsimp only
  have h1 : ¬ ((i : ℤ) < 0) := by omega
  simp only [if_neg h1]
  simp only [Int.toNat_natCast]
  rcases h : row[i]? with _ | _ | s
  · simp
  · simp
  · dsimp only
    rw [checkInteger_iff]
    simp

theorem goes_unique {lib : Lib} {src dst : ℕ} {row : List (Option String)} {u v u' v' : Node} (h : Goes lib src dst row u v)
    (h' : Goes lib src dst row u' v') : u = u' ∧ v = v' := by
  obtain ⟨a, b, h1, h2, h3, h4⟩ := h
  obtain ⟨a', b', h1', h2', h3', h4'⟩ := h'
  rw [h1] at h1'
  rw [h2] at h2'
  cases h1'
  cases h2'
  exact ⟨isNode_unique h3 h3', isNode_unique h4 h4'⟩

theorem rowJoins_iff {lib : Lib} {src dst : ℕ} {row : List (Option String)} {u v : Node} (h : Goes lib src dst row u v) (a b : Node) :
    RowJoins lib src dst row a b ↔ (u = a ∧ v = b) ∨ (u = b ∧ v = a) := by
  unfold RowJoins
  constructor
  · rintro (h' | h')
    · exact Or.inl (goes_unique h h')
    · exact Or.inr (goes_unique h h')
  · rintro (⟨rfl, rfl⟩ | ⟨rfl, rfl⟩)
    · exact Or.inl h
    · exact Or.inr h

theorem RowJoins.symm {lib : Lib} {src dst : ℕ} {row : List (Option String)} {u v : Node} (h : RowJoins lib src dst row u v) :
    RowJoins lib src dst row v u := Or.symm h

/-! ## The attributes of a row -/

theorem carries_nil (lib : Lib) (ns : List String) (name : String) (x : Graph.Val) : ¬ Carries lib ns [] name x := by
  rintro ⟨i, s, f, -, h, -⟩
  simp at h

theorem carries_none (lib : Lib) (ns : List String) (row : List (Option String)) (name : String) (x : Graph.Val) :
    Carries lib ns (row ++ [none]) name x ↔ Carries lib ns row name x := by
  have key : ∀ (i : ℕ) (s : String), (row ++ [none])[i]? = some (some s) ↔ row[i]? = some (some s) := by
    intro i s
    by_cases hi : i < row.length
    · rw [List.getElem?_append_left hi]
    · rw [List.getElem?_append_right (by omega), List.getElem?_eq_none (l := row) (by omega)]
      rcases h : i - row.length with _ | k <;> simp
  unfold Carries
  simp only [key, ne_eq]

theorem carries_some (lib : Lib) (ns : List String) (row : List (Option String)) (c : String) (f : Option ℚ) (n : String)
    (hf : lib.toFloat c = some f) (hn : ns[row.length]? = some n) (name : String) (x : Graph.Val) :
    Carries lib ns (row ++ [some c]) name x ↔ if n = name then x = value f else Carries lib ns row name x := by
  have key : ∀ (i : ℕ) (s : String), (row ++ [some c])[i]? = some (some s) ↔
      row[i]? = some (some s) ∨ (i = row.length ∧ c = s) := by
    intro i s
    by_cases hi : i < row.length
    · rw [List.getElem?_append_left hi]
      constructor
      · exact Or.inl
      · rintro (h | h)
        · exact h
        · omega
    · rw [List.getElem?_append_right (by omega), List.getElem?_eq_none (l := row) (by omega)]
      rcases h : i - row.length with _ | k
      · have : i = row.length := by omega
        simp [this]
      · have : i ≠ row.length := by omega
        simp [this]
  have hval : ∀ y, ((∀ q, f = some q → y = .num q) ∧ (f = none → y = Graph.Val.special)) ↔ y = value f := by
    intro y
    cases f <;> simp [value]
  unfold Carries
  simp only [key, ne_eq]
  by_cases h : n = name
  · subst h
    rw [if_pos rfl]
    constructor
    · rintro ⟨i, s, f', h1, h2 | ⟨h2, h2'⟩, h3, h4, h5, h6⟩
      · have hi : i < row.length := by
          rw [List.getElem?_eq_some_iff] at h2
          exact h2.1
        exact absurd (Or.inr ⟨rfl, rfl⟩) (h6 row.length hi hn c)
      · subst h2'
        rw [hf] at h3
        cases h3
        exact (hval x).1 ⟨h4, h5⟩
    · intro hx
      have := (hval x).2 hx
      refine ⟨row.length, c, f, hn, Or.inr ⟨rfl, rfl⟩, hf, this.1, this.2, ?_⟩
      intro j hj _ t
      rintro (h | h)
      · rw [List.getElem?_eq_none (by omega)] at h
        cases h
      · omega
  · rw [if_neg h]
    constructor
    · rintro ⟨i, s, f', h1, h2 | ⟨h2, h2'⟩, h3, h4, h5, h6⟩
      · exact ⟨i, s, f', h1, h2, h3, h4, h5, fun j hj hn t ht => h6 j hj hn t (Or.inl ht)⟩
      · subst h2
        rw [hn] at h1
        exact absurd (Option.some.inj h1) h
    · rintro ⟨i, s, f', h1, h2, h3, h4, h5, h6⟩
      refine ⟨i, s, f', h1, Or.inl h2, h3, h4, h5, fun j hj hn' t ht => ?_⟩
      rcases ht with ht | ⟨ht, -⟩
      · exact h6 j hj hn' t ht
      · subst ht
        rw [hn] at hn'
        exact h (Option.some.inj hn')

theorem cells_append (lib : Lib) (names : Option (List String)) (src dst : Option ℤ) (xs ys : List (Option String × ℕ))
    (s : Graph.Net Node × PyDict String Graph.Val) :
    cells lib names src dst s (xs ++ ys) =
      match cells lib names src dst s xs with
      | .error e => .error e
      | .ok s' => cells lib names src dst s' ys := by
  induction xs generalizing s with
  | nil => rfl
  | cons x xs ih =>
    simp only [List.cons_append, cells]
    cases cellStep lib names src dst s x with
    | error e => rfl
    | ok s' => exact ih s'

/-- The two columns are not the same. -/
theorem not_both {src dst : ℕ} (h : src ≠ dst) (c : ℕ) : same c (some (src : ℤ)) = false ∨ same c (some (dst : ℤ)) = false := by
  unfold same
  simp only [decide_eq_false_iff_not, Option.some.injEq]
  omega

theorem cells_spec (lib : Lib) (ns : List String) {src dst : ℕ} (h : src ≠ dst) (g : Graph.Net Node) (row : List (Option String))
    (hw : row.length ≤ ns.length) (hf : ∀ s, some s ∈ row → (lib.toFloat s).isSome) :
    ∃ d, cells lib (some ns) (some (src : ℤ)) (some (dst : ℤ)) (g, []) row.zipIdx = .ok (g, d) ∧ PyDict.WF d ∧
      (∀ name x, PyDict.get? d name = some x ↔ Carries lib ns row name x) ∧
      (∀ k ∈ PyDict.keys d, k ∈ ns) ∧ ∀ k, (k, Graph.Val.bad) ∉ d := by
  induction row using List.reverseRecOn with
  | nil => exact ⟨[], rfl, PyDict.WF_nil, fun n x => by simp [carries_nil], by simp [PyDict.keys], by simp⟩
  | append_singleton row c ih =>
    simp only [List.length_append, List.length_singleton] at hw
    obtain ⟨d, h1, h2, h3, h4, h5⟩ := ih (by omega) (fun s hs => hf s (List.mem_append_left _ hs))
    rw [List.zipIdx_append, cells_append, h1]
    dsimp only
    simp only [List.zipIdx_cons, List.zipIdx_nil, cells]
    cases c with
    | none =>
      refine ⟨d, rfl, h2, fun name x => ?_, h4, h5⟩
      rw [carries_none]; exact h3 name x
    | some s =>
      have hs := hf s (by simp)
      rw [Option.isSome_iff_exists] at hs
      obtain ⟨f, hs⟩ := hs
      have hn : ns[row.length]? = some (ns[row.length]'(by omega)) := List.getElem?_eq_getElem (by omega)
      generalize hnm : ns[row.length]'(by omega) = n at hn
      refine ⟨PyDict.set d n (value f), ?_, PyDict.WF_set h2 _ _, fun name x => ?_, ?_, ?_⟩
      · simp only [cellStep, Nat.zero_add, hs, hn]
        rw [if_pos (not_both h _)]
      · rw [carries_some lib ns row s f n hs hn, PyDict.get?_set]
        by_cases hnn : n = name
        · rw [if_pos hnn, if_pos hnn, Option.some.injEq]; exact eq_comm
        · rw [if_neg hnn, if_neg hnn]; exact h3 name x
      · intro k hk
        rw [PyDict.keys_set] at hk
        have hin : n ∈ ns := List.mem_of_getElem? hn
        split at hk
        · exact h4 k hk
        · rcases List.mem_append.1 hk with hk | hk
          · exact h4 k hk
          · rw [List.mem_singleton.1 hk]; exact hin
      · intro k hk
        have := PyDict.get?_of_mem (PyDict.WF_set h2 _ _) hk
        rw [PyDict.get?_set] at this
        split at this
        · cases f <;> cases this
        · exact h5 k (PyDict.mem_of_get? this)

/-! ## Adding a row -/

theorem updateDict_wf {d : PyDict String Graph.Val} (h : PyDict.WF d) (e : PyDict String Graph.Val) : PyDict.WF (updateDict d e) := by
  unfold updateDict
  induction e generalizing d with
  | nil => exact h
  | cons x e ih => exact ih (PyDict.WF_set h _ _)

theorem updateDict_get {e : PyDict String Graph.Val} (he : PyDict.WF e) (d : PyDict String Graph.Val) (k : String) :
    PyDict.get? (updateDict d e) k = (PyDict.get? e k).or (PyDict.get? d k) := by
  unfold updateDict
  induction e generalizing d with
  | nil => simp
  | cons x e ih =>
    obtain ⟨a, b⟩ := x
    have he' : a ∉ PyDict.keys e ∧ PyDict.WF e := by
      simpa [PyDict.WF, PyDict.keys] using he
    rw [List.foldl_cons, ih he'.2, PyDict.get?_set, PyDict.get?_cons]
    by_cases hk : a = k
    · subst hk
      rw [(PyDict.get?_eq_none_iff e a).2 he'.1, if_pos rfl, if_pos rfl]
      rfl
    · rw [if_neg hk, if_neg hk]

theorem mem_addNode (g : Graph.Net Node) (a n : Node) : n ∈ (addNode g a).nodes ↔ n ∈ g.nodes ∨ n = a := by
  unfold addNode
  split
  · rename_i h
    constructor
    · exact Or.inl
    · rintro (h' | rfl)
      · exact h'
      · exact h
  · simp

theorem addNode_edges (g : Graph.Net Node) (a : Node) : (addNode g a).edges = g.edges := by
  unfold addNode; split <;> rfl

theorem addNode_nodup {g : Graph.Net Node} (h : g.nodes.Nodup) (a : Node) : (addNode g a).nodes.Nodup := by
  unfold addNode
  split
  · exact h
  · rename_i ha
    dsimp only
    rw [List.nodup_append]
    refine ⟨h, by simp, ?_⟩
    intro x hx y hy hxy
    rw [List.mem_singleton.1 hy] at hxy
    exact ha (hxy ▸ hx)

theorem addEdge_nodes (g : Graph.Net Node) (u v : Node) (d : PyDict String Graph.Val) :
    (addEdge g u v d).nodes = (addNode (addNode g u) v).nodes := by
  unfold addEdge
  dsimp only
  split <;> rfl

theorem latest_snoc {lib : Lib} {ns : List String} {src dst : ℕ} (rows : List (List (Option String))) (r : List (Option String))
    (u v : Node) (name : String) (x : Graph.Val) :
    Latest lib ns src dst (rows ++ [r]) u v name x ↔
      (RowJoins lib src dst r u v ∧ Carries lib ns r name x) ∨
        ((RowJoins lib src dst r u v → ∀ y, ¬ Carries lib ns r name y) ∧ Latest lib ns src dst rows u v name x) := by
  constructor
  · rintro ⟨pre, row, post, h1, h2, h3, h4⟩
    rcases List.eq_nil_or_concat post with rfl | ⟨post', last, rfl⟩
    · obtain ⟨-, h⟩ := List.append_inj' (h1 : rows ++ [r] = pre ++ [row]) rfl
      have : r = row := by simpa using h
      subst this
      exact Or.inl ⟨h2, h3⟩
    · rw [List.concat_eq_append] at h1 h4
      have h1' : rows ++ [r] = (pre ++ row :: post') ++ [last] := by rw [h1]; simp
      obtain ⟨h, h'⟩ := List.append_inj' h1' rfl
      have : r = last := by simpa using h'
      subst this
      exact Or.inr ⟨h4 r (by simp), pre, row, post', h, h2, h3, fun r' hr' => h4 r' (by simp [hr'])⟩
  · rintro (⟨h1, h2⟩ | ⟨h1, pre, row, post, h2, h3, h4, h5⟩)
    · exact ⟨rows, r, [], rfl, h1, h2, by simp⟩
    · refine ⟨pre, row, post ++ [r], by rw [h2]; simp, h3, h4, ?_⟩
      intro r' hr'
      rcases List.mem_append.1 hr' with hr' | hr'
      · exact h5 r' hr'
      · rw [List.mem_singleton.1 hr']; exact h1

theorem latest_symm {lib : Lib} {ns : List String} {src dst : ℕ} {rows : List (List (Option String))}
    {u v : Node} {name : String} {x : Graph.Val} (h : Latest lib ns src dst rows u v name x) : Latest lib ns src dst rows v u name x := by
  obtain ⟨pre, row, post, h1, h2, h3, h4⟩ := h
  exact ⟨pre, row, post, h1, h2.symm, h3, fun r hr hj => h4 r hr hj.symm⟩

theorem joins_iff (u v : Node) (e : Graph.Edge Node) : joins u v e = true ↔ (e.u = u ∧ e.v = v) ∨ (e.u = v ∧ e.v = u) := by
  unfold joins; simp

theorem isGraphOf_nil (lib : Lib) (ns : List String) (src dst : ℕ) : IsGraphOf lib ns src dst [] ⟨[], []⟩ := by
  refine ⟨⟨by simp, by simp, by simp, by simp⟩, by simp [Verif.Spec.Graph.Numeric], by simp, ?_, by simp⟩
  intro u v
  simp [Verif.Spec.Graph.Joined]

theorem isGraphOf_snoc {lib : Lib} {ns : List String} {src dst : ℕ} {rows : List (List (Option String))} {g : Graph.Net Node}
    (hg : IsGraphOf lib ns src dst rows g) {r : List (Option String)} {u v : Node} (hr : Goes lib src dst r u v)
    {d : PyDict String Graph.Val} (hd : PyDict.WF d) (hc : ∀ name x, PyDict.get? d name = some x ↔ Carries lib ns r name x)
    (hb : ∀ k, (k, Graph.Val.bad) ∉ d) : IsGraphOf lib ns src dst (rows ++ [r]) (addEdge g u v d) := by
  have hnodes : ∀ n, n ∈ (addEdge g u v d).nodes ↔ n ∈ g.nodes ∨ n = u ∨ n = v := by
    intro n
    rw [addEdge_nodes, mem_addNode, mem_addNode, or_assoc]
  have hrj : ∀ a b, RowJoins lib src dst r a b ↔ (u = a ∧ v = b) ∨ (u = b ∧ v = a) := fun a b => rowJoins_iff hr a b
  have hup : ∀ (old : PyDict String Graph.Val), PyDict.WF old → ∀ name x, (name, x) ∈ updateDict old d ↔
      Carries lib ns r name x ∨ ((∀ y, ¬ Carries lib ns r name y) ∧ (name, x) ∈ old) := by
    intro old hold name x
    rw [PyDict.mem_iff_get? (updateDict_wf hold d), updateDict_get hd, PyDict.mem_iff_get? hold, ← hc]
    simp only [← hc]
    cases PyDict.get? d name <;> simp
  have hold : ∀ e ∈ g.edges, PyDict.WF e.attrs := fun e he => hg.simple.attrs e he
  have hends : ∀ e ∈ (addEdge g u v d).edges, (∃ f ∈ g.edges, f.u = e.u ∧ f.v = e.v) ∨ (e.u = u ∧ e.v = v) := by
    intro e he
    unfold addEdge at he
    dsimp only at he
    rw [addNode_edges, addNode_edges] at he
    split at he
    · obtain ⟨f, hf, rfl⟩ := List.mem_map.1 he
      refine Or.inl ⟨f, hf, ?_⟩
      split <;> exact ⟨rfl, rfl⟩
    · rcases List.mem_append.1 he with he | he
      · exact Or.inl ⟨e, he, rfl, rfl⟩
      · rw [List.mem_singleton.1 he]; exact Or.inr ⟨rfl, rfl⟩
  have hattr : ∀ e ∈ (addEdge g u v d).edges,
      (joins u v e = true ∧ ((∃ f ∈ g.edges, f.u = e.u ∧ f.v = e.v ∧ e.attrs = updateDict f.attrs d) ∨
        ((∀ f ∈ g.edges, joins u v f = false) ∧ e.attrs = updateDict [] d))) ∨
      (joins u v e = false ∧ e ∈ g.edges) := by
    intro e he
    unfold addEdge at he
    dsimp only at he
    rw [addNode_edges, addNode_edges] at he
    by_cases hany : g.edges.any (joins u v) = true
    · rw [if_pos hany] at he
      obtain ⟨f, hf, rfl⟩ := List.mem_map.1 he
      cases hj : joins u v f with
      | true =>
        rw [if_pos rfl]
        exact Or.inl ⟨by rw [joins_iff] at hj ⊢; exact hj, Or.inl ⟨f, hf, rfl, rfl, rfl⟩⟩
      | false =>
        rw [if_neg (by simp)]
        exact Or.inr ⟨hj, hf⟩
    · rw [if_neg hany] at he
      have hnone : ∀ f ∈ g.edges, joins u v f = false := by simpa using hany
      rcases List.mem_append.1 he with he | he
      · exact Or.inr ⟨hnone e he, he⟩
      · rw [List.mem_singleton.1 he]
        exact Or.inl ⟨by rw [joins_iff]; exact Or.inl ⟨rfl, rfl⟩, Or.inr ⟨hnone, rfl⟩⟩
  have hjoin : ∀ a b, Verif.Spec.Graph.Joined (addEdge g u v d) a b ↔
      Verif.Spec.Graph.Joined g a b ∨ (u = a ∧ v = b) ∨ (u = b ∧ v = a) := by
    intro a b
    constructor
    · rintro ⟨e, he, hab⟩
      rcases hends e he with ⟨f, hf, h1, h2⟩ | ⟨h1, h2⟩
      · exact Or.inl ⟨f, hf, by rw [h1, h2]; exact hab⟩
      · rw [h1, h2] at hab; exact Or.inr hab
    · rintro (⟨f, hf, hab⟩ | hab)
      · unfold addEdge Verif.Spec.Graph.Joined
        dsimp only
        rw [addNode_edges, addNode_edges]
        split
        · refine ⟨_, List.mem_map.2 ⟨f, hf, rfl⟩, ?_⟩
          split <;> exact hab
        · exact ⟨f, List.mem_append_left _ hf, hab⟩
      · unfold addEdge Verif.Spec.Graph.Joined
        dsimp only
        rw [addNode_edges, addNode_edges]
        by_cases hany : g.edges.any (joins u v) = true
        · rw [if_pos hany]
          obtain ⟨f, hf, hj⟩ := List.any_eq_true.1 hany
          refine ⟨_, List.mem_map.2 ⟨f, hf, rfl⟩, ?_⟩
          rw [if_pos hj]
          rw [joins_iff] at hj
          dsimp only
          rcases hj with ⟨h1, h2⟩ | ⟨h1, h2⟩ <;> rw [h1, h2]
          · exact hab
          · tauto
        · rw [if_neg hany]
          exact ⟨_, List.mem_append_right _ (List.mem_singleton.2 rfl), hab⟩
  refine ⟨⟨?_, ?_, ?_, ?_⟩, ?_, ?_, ?_, ?_⟩
  · rw [addEdge_nodes]
    exact addNode_nodup (addNode_nodup hg.simple.nodes u) v
  · intro e he
    rw [hnodes, hnodes]
    rcases hends e he with ⟨f, hf, h1, h2⟩ | ⟨h1, h2⟩
    · rw [← h1, ← h2]
      have := hg.simple.ends f hf
      exact ⟨Or.inl this.1, Or.inl this.2⟩
    · exact ⟨Or.inr (Or.inl h1), Or.inr (Or.inr h2)⟩
  · have hp := hg.simple.distinct
    unfold addEdge
    dsimp only
    rw [addNode_edges, addNode_edges]
    by_cases hany : g.edges.any (joins u v) = true
    · rw [if_pos hany]
      dsimp only
      rw [List.pairwise_map]
      refine hp.imp ?_
      intro a b hab
      split <;> split <;> exact hab
    · rw [if_neg hany]
      dsimp only
      rw [List.pairwise_append]
      refine ⟨hp, by simp, ?_⟩
      intro a ha b hb
      rw [List.mem_singleton.1 hb]
      have hnone : ∀ f ∈ g.edges, joins u v f = false := by simpa using hany
      have := hnone a ha
      rw [← Bool.not_eq_true, joins_iff] at this
      dsimp only
      tauto
  · intro e he
    rcases hattr e he with ⟨-, ⟨f, hf, -, -, h⟩ | ⟨-, h⟩⟩ | ⟨-, he⟩
    · rw [h]; exact updateDict_wf (hold f hf) d
    · rw [h]; exact updateDict_wf PyDict.WF_nil d
    · exact hold e he
  · intro e he k hk
    have hcb : ¬ Carries lib ns r k Graph.Val.bad := by
      rw [← hc]; intro h; exact hb k (PyDict.mem_of_get? h)
    rcases hattr e he with ⟨-, ⟨f, hf, -, -, h⟩ | ⟨-, h⟩⟩ | ⟨-, he⟩
    · rw [h, hup _ (hold f hf)] at hk
      rcases hk with hk | ⟨-, hk⟩
      · exact hcb hk
      · exact hg.numeric f hf k hk
    · rw [h, hup _ PyDict.WF_nil] at hk
      rcases hk with hk | ⟨-, hk⟩
      · exact hcb hk
      · cases hk
    · exact hg.numeric e he k hk
  · intro n
    rw [hnodes, hg.nodes]
    constructor
    · rintro (⟨r', hr', m, hm⟩ | rfl | rfl)
      · exact ⟨r', List.mem_append_left _ hr', m, hm⟩
      · exact ⟨r, by simp, v, Or.inl hr⟩
      · exact ⟨r, by simp, u, Or.inr hr⟩
    · rintro ⟨r', hr', m, hm⟩
      rcases List.mem_append.1 hr' with hr' | hr'
      · exact Or.inl ⟨r', hr', m, hm⟩
      · rw [List.mem_singleton.1 hr', hrj] at hm
        rcases hm with ⟨h, -⟩ | ⟨-, h⟩
        · exact Or.inr (Or.inl h.symm)
        · exact Or.inr (Or.inr h.symm)
  · intro a b
    rw [hjoin, hg.joined]
    constructor
    · rintro (⟨r', hr', h⟩ | h)
      · exact ⟨r', List.mem_append_left _ hr', h⟩
      · exact ⟨r, by simp, (hrj a b).2 h⟩
    · rintro ⟨r', hr', h⟩
      rcases List.mem_append.1 hr' with hr' | hr'
      · exact Or.inl ⟨r', hr', h⟩
      · rw [List.mem_singleton.1 hr', hrj] at h
        exact Or.inr h
  · intro e he name x
    rw [latest_snoc, hrj]
    rcases hattr e he with ⟨hj, h⟩ | ⟨hj, he⟩
    · have hj' : (u = e.u ∧ v = e.v) ∨ (u = e.v ∧ v = e.u) := by
        rw [joins_iff] at hj
        rcases hj with ⟨h1, h2⟩ | ⟨h1, h2⟩
        · exact Or.inl ⟨h1.symm, h2.symm⟩
        · exact Or.inr ⟨h2.symm, h1.symm⟩
      rcases h with ⟨f, hf, h1, h2, h⟩ | ⟨hnone, h⟩
      · rw [h, hup _ (hold f hf), hg.attrs f hf, h1, h2]
        simp only [hj', true_and, true_imp_iff]
      · rw [h, hup _ PyDict.WF_nil]
        simp only [hj', true_and, true_imp_iff]
        have hno : ¬ Latest lib ns src dst rows e.u e.v name x := by
          rintro ⟨pre, row, post, h1, h2, -⟩
          have hjn : Verif.Spec.Graph.Joined g e.u e.v := (hg.joined _ _).2 ⟨row, by rw [h1]; simp, h2⟩
          obtain ⟨f, hf, hff⟩ := hjn
          have := hnone f hf
          rw [← Bool.not_eq_true, joins_iff] at this
          apply this
          rcases hj' with ⟨h1, h2⟩ | ⟨h1, h2⟩ <;> rw [h1, h2]
          · exact hff
          · tauto
        simp [hno]
    · have hj' : ¬ ((u = e.u ∧ v = e.v) ∨ (u = e.v ∧ v = e.u)) := by
        intro h
        rw [← Bool.not_eq_true, joins_iff] at hj
        apply hj
        rcases h with ⟨h1, h2⟩ | ⟨h1, h2⟩
        · exact Or.inl ⟨h1.symm, h2.symm⟩
        · exact Or.inr ⟨h2.symm, h1.symm⟩
      rw [hg.attrs e he]
      simp only [hj', false_and, false_imp_iff, true_and, false_or]

theorem readRows_append (lib : Lib) (names : Option (List String)) (src dst : Option ℤ) (xs ys : List (List (Option String)))
    (g : Graph.Net Node) :
    readRows lib names src dst g (xs ++ ys) =
      match readRows lib names src dst g xs with
      | .error e => .error e
      | .ok g' => readRows lib names src dst g' ys := by
  induction xs generalizing g with
  | nil => rfl
  | cons x xs ih =>
    simp only [List.cons_append, readRows]
    cases rowStep lib names src dst g x with
    | error e => rfl
    | ok s' => exact ih s'

theorem readRows_spec {lib : Lib} {ns : List String} {src dst : ℕ} (hne : src ≠ dst) {rows : List (List (Option String))}
    (h : Readable lib ns src dst rows) :
    ∃ g, readRows lib (some ns) (some (src : ℤ)) (some (dst : ℤ)) ⟨[], []⟩ rows = .ok g ∧ IsGraphOf lib ns src dst rows g := by
  induction rows using List.reverseRecOn with
  | nil => exact ⟨_, rfl, isGraphOf_nil lib ns src dst⟩
  | append_singleton rows r ih =>
    obtain ⟨g, h1, h2⟩ := ih ⟨fun r hr => h.width r (List.mem_append_left _ hr), fun r hr => h.numeric r (List.mem_append_left _ hr),
      fun r hr => h.nodes r (List.mem_append_left _ hr), h.names⟩
    have hr : r ∈ rows ++ [r] := by simp
    obtain ⟨d, c1, c2, c3, c4, c5⟩ := cells_spec lib ns hne g r (le_of_eq (h.width r hr)) (h.numeric r hr)
    obtain ⟨u, v, huv⟩ := h.nodes r hr
    refine ⟨addEdge g u v d, ?_, isGraphOf_snoc h2 huv c2 c3 c5⟩
    rw [readRows_append, h1]
    have hu : nodeAt lib r (some (src : ℤ)) = .ok u := by
      obtain ⟨a, b, ha, hb, hu, hv⟩ := huv
      exact (nodeAt_iff lib r src u).2 ⟨a, ha, hu⟩
    have hv : nodeAt lib r (some (dst : ℤ)) = .ok v := by
      obtain ⟨a, b, ha, hb, hu, hv⟩ := huv
      exact (nodeAt_iff lib r dst v).2 ⟨b, hb, hv⟩
    have hres : (d.any fun x => decide (x.1 ∈ reserved)) = false := by
      rw [List.any_eq_false]
      intro x hx hx'
      have hk := c4 x.1 (List.mem_map.2 ⟨x, hx, rfl⟩)
      simp only [reserved, decide_eq_true_eq, List.mem_cons, List.not_mem_nil, or_false] at hx'
      obtain ⟨n1, n2, n3⟩ := h.names
      rcases hx' with hx' | hx' | hx' <;> rw [hx'] at hk
      · exact n1 hk
      · exact n2 hk
      · exact n3 hk
    simp only [readRows, rowStep, c1, hu, hv, hres, Bool.false_eq_true, if_false]

end Verif.GraphRead
