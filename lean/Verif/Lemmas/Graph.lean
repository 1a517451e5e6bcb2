import Verif.Spec.Graph
import Verif.Lemmas.Counter
import Verif.Lemmas.PyDict
import Mathlib.Algebra.BigOperators.Group.List.Basic
import Mathlib.Tactic.SplitIfs
import Mathlib.Tactic.Ring
import Mathlib.Data.Rat.Lemmas

namespace Verif.Graph

open Verif Verif.Spec.Graph

variable {V : Type} [DecidableEq V]

/-- How many ends of an edge lie at a node. -/
def endsAt (e : Edge V) (n : V) : ℕ := (if e.u = n then 1 else 0) + (if e.v = n then 1 else 0)

theorem degree_eq (es : List (Edge V)) (ns : List V) (n : V)
    (h : es.Pairwise fun e f => ¬(e.u = f.u ∧ e.v = f.v) ∧ ¬(e.u = f.v ∧ e.v = f.u)) :
    degree ⟨ns, es⟩ n = (es.map fun e => endsAt e n).sum := by
  induction es with
  | nil => simp [degree, neighbours]
  | cons e es ih =>
    rw [List.pairwise_cons] at h
    have ih := ih h.2
    rw [List.map_cons, List.sum_cons, ← ih]
    simp only [degree, neighbours, List.filterMap_cons]
    by_cases hu : e.u = n
    · by_cases hv : e.v = n
      · have hno : n ∉ List.filterMap
            (fun e => if e.u = n then some e.v else if e.v = n then some e.u else none) es := by
          intro hm
          obtain ⟨f, hf, hfn⟩ := List.mem_filterMap.1 hm
          have := h.1 f hf
          split_ifs at hfn with h1 h2
          · simp only [Option.some.injEq] at hfn
            exact this.1 ⟨hu.trans h1.symm, hv.trans hfn.symm⟩
          · simp only [Option.some.injEq] at hfn
            exact h1 hfn
        simp [endsAt, hu, hv, hno]
        omega
      · have hv' : ¬n = e.v := fun h => hv h.symm
        simp [endsAt, hu, hv, hv']
        omega
    · by_cases hv : e.v = n
      · have hu' : ¬n = e.u := fun h => hu h.symm
        simp [endsAt, hu, hv, hu']
        omega
      · simp [endsAt, hu, hv]

theorem sum_endsAt {ns : List V} (hn : ns.Nodup) (e : Edge V) (hu : e.u ∈ ns) (hv : e.v ∈ ns) :
    (ns.map fun n => endsAt e n).sum = 2 := by
  have key : ∀ (ns : List V) (_ : ns.Nodup) (x : V), (ns.map fun n => if x = n then 1 else 0).sum = if x ∈ ns then 1 else 0 := by
    intro ns hn x
    induction ns with
    | nil => rfl
    | cons a l ih =>
      rw [List.nodup_cons] at hn
      rw [List.map_cons, List.sum_cons, ih hn.2]
      by_cases hx : x = a
      · subst hx; simp [hn.1]
      · simp [hx]
  have : (ns.map fun n => endsAt e n).sum
      = (ns.map fun n => if e.u = n then 1 else 0).sum + (ns.map fun n => if e.v = n then 1 else 0).sum := by
    clear hn hu hv
    induction ns with
    | nil => rfl
    | cons a l ih => rw [List.map_cons, List.sum_cons, ih]; simp only [List.map_cons, List.sum_cons, endsAt]; omega
  rw [this, key ns hn, key ns hn, if_pos hu, if_pos hv]

theorem sum_swap (ns : List V) (es : List (Edge V)) :
    (ns.map fun n => (es.map fun e => endsAt e n).sum).sum = (es.map fun e => (ns.map fun n => endsAt e n).sum).sum := by
  induction ns with
  | nil => simp
  | cons n ns ih =>
    rw [List.map_cons, List.sum_cons, ih]
    clear ih
    induction es with
    | nil => rfl
    | cons e es ih => simp only [List.map_cons, List.sum_cons] at *; omega

/-- The handshake lemma. -/
theorem sum_degree {g : Net V} (h : Simple g) : (g.nodes.map (degree g)).sum = 2 * g.edges.length := by
  have : g.nodes.map (degree g) = g.nodes.map fun n => (g.edges.map fun e => endsAt e n).sum :=
    List.map_congr_left fun n _ => degree_eq g.edges g.nodes n h.distinct
  rw [this, sum_swap]
  have : g.edges.map (fun e => (g.nodes.map fun n => endsAt e n).sum) = g.edges.map fun _ => 2 :=
    List.map_congr_left fun e he => sum_endsAt h.nodes e (h.ends e he).1 (h.ends e he).2
  rw [this, List.map_const', List.sum_replicate_nat, Nat.mul_comm]

theorem size_eq {g : Net V} (h : Simple g) : size g = g.edges.length := by
  rw [size, sum_degree h]; omega

theorem foldl_degree (g : Net V) (ns : List V) (t : ℕ) :
    ns.foldl (fun t n => t + degree g n) t = t + (ns.map (degree g)).sum := by
  induction ns generalizing t with
  | nil => simp
  | cons n ns ih => rw [List.foldl_cons, ih]; simp [Nat.add_assoc]

theorem avg_eq {g : Net V} (h : Simple g) (hn : g.nodes ≠ []) :
    avgNodeDegree g g.nodes.length = .ok ((2 * g.edges.length : ℕ) / (g.nodes.length : ℚ)) := by
  unfold avgNodeDegree
  have : g.nodes.length ≠ 0 := fun h => hn (List.length_eq_zero_iff.1 h)
  simp only [foldl_degree, sum_degree h, Nat.zero_add, if_neg this]

theorem simple_subgraph {g : Net V} (h : Simple g) (c : List V) : Simple (subgraph g c) where
  nodes := h.nodes.filter _
  ends := by
    intro e he
    have := List.mem_filter.1 he
    simp only [Bool.and_eq_true, decide_eq_true_eq] at this
    exact ⟨List.mem_filter.2 ⟨(h.ends e this.1).1, by simpa using this.2.1⟩,
      List.mem_filter.2 ⟨(h.ends e this.1).2, by simpa using this.2.2⟩⟩
  distinct := h.distinct.filter _
  attrs := fun e he => h.attrs e (List.mem_filter.1 he).1

omit [DecidableEq V] in
theorem joined_symm {g : Net V} {a b : V} (h : Joined g a b) : Joined g b a := by
  obtain ⟨e, he, h⟩ := h
  exact ⟨e, he, h.symm⟩

omit [DecidableEq V] in
/-- Both ends of an edge are in a component or neither is. -/
theorem component_closed {g : Net V} {c : List V} (hc : IsComponent g c) {e : Edge V} (he : e ∈ g.edges) :
    e.u ∈ c ↔ e.v ∈ c := by
  obtain ⟨_, n, _, hn⟩ := hc
  have h1 : Joined g e.u e.v := ⟨e, he, Or.inl ⟨rfl, rfl⟩⟩
  rw [hn, hn]
  exact ⟨fun h => h.tail h1, fun h => h.tail (joined_symm h1)⟩

omit [DecidableEq V] in
/-- Two components with a common node have the same nodes. -/
theorem component_same {g : Net V} {c c' : List V} (hc : IsComponent g c) (hc' : IsComponent g c') {x : V} (hx : x ∈ c)
    (hx' : x ∈ c') (m : V) : m ∈ c ↔ m ∈ c' := by
  obtain ⟨_, n, _, hn⟩ := hc
  obtain ⟨_, n', _, hn'⟩ := hc'
  have hs : ∀ {a b}, Relation.ReflTransGen (Joined g) a b → Relation.ReflTransGen (Joined g) b a :=
    fun {a b} h => by
      induction h with
      | refl => exact .refl
      | tail _ h2 ih => exact .head (joined_symm h2) ih
  rw [hn, hn']
  rw [hn] at hx
  rw [hn'] at hx'
  exact ⟨fun h => hx'.trans ((hs hx).trans h), fun h => hx.trans ((hs hx').trans h)⟩

omit [DecidableEq V] in
theorem sortedComponents_head {cs : List (List V)} {c : List V} {rest : List (List V)}
    (h : sortedComponents cs = c :: rest) : c ∈ cs ∧ ∀ c' ∈ cs, c'.length ≤ c.length := by
  unfold sortedComponents at h
  have hp := Counter.sortDesc_perm (cs.map fun c => (c, c.length))
  have hs := Counter.sortDesc_sorted (cs.map fun c => (c, c.length))
  revert hp hs h
  generalize Counter.sortDesc (cs.map fun c => (c, c.length)) = l
  intro h hp hs
  cases l with
  | nil => simp at h
  | cons a l =>
    simp only [List.map_cons, List.cons.injEq] at h
    have ha : a ∈ cs.map fun c => (c, c.length) := hp.mem_iff.1 (List.mem_cons_self)
    obtain ⟨c0, hc0, rfl⟩ := List.mem_map.1 ha
    simp only at h
    obtain ⟨rfl, _⟩ := h
    refine ⟨hc0, fun c' hc' => ?_⟩
    have : (c', c'.length) ∈ (c0, c0.length) :: l := hp.mem_iff.2 (List.mem_map.2 ⟨c', hc', rfl⟩)
    rcases List.mem_cons.1 this with h | h
    · rw [Prod.mk.injEq] at h; rw [h.1]
    · exact (List.pairwise_cons.1 hs).1 _ h

theorem maxComponent_eq {lib : Lib V} (hl : Faithful lib) {g : Net V} (h : Simple g) (hn : g.nodes ≠ []) :
    ∃ n, globalMaxComponentSize lib g = .ok n ∧
      ∃ c, IsComponent g c ∧ (∀ c', IsComponent g c' → c'.length ≤ c.length) ∧
        ∃ es : List (Edge V), es.Sublist g.edges ∧ (∀ e ∈ g.edges, e ∈ es ↔ e.u ∈ c) ∧ n = es.length := by
  unfold globalMaxComponentSize
  cases hs : sortedComponents (lib.components g) with
  | nil =>
    exfalso
    obtain ⟨x, hx⟩ := List.exists_mem_of_ne_nil _ hn
    obtain ⟨c, hc, _⟩ := hl.covers g h x hx
    unfold sortedComponents at hs
    have hp := Counter.sortDesc_perm ((lib.components g).map fun c => (c, c.length))
    rw [List.map_eq_nil_iff.1 hs] at hp
    have := List.map_eq_nil_iff.1 hp.symm.eq_nil
    rw [this] at hc
    cases hc
  | cons c rest =>
    obtain ⟨hc, hmax⟩ := sortedComponents_head hs
    have hcc := hl.component g h c hc
    refine ⟨_, rfl, c, hcc, ?_, (subgraph g c).edges, List.filter_sublist, ?_, size_eq (simple_subgraph h c)⟩
    · intro c' hc'
      obtain ⟨n', hn', hm⟩ := hc'.2
      obtain ⟨d, hd, hxd⟩ := hl.covers g h n' hn'
      have hsame := component_same hc' (hl.component g h d hd) ((hm n').2 .refl) hxd
      have : c'.length ≤ d.length :=
        (List.subperm_of_subset hc'.1 fun m hm => (hsame m).1 hm).length_le
      exact this.trans (hmax d hd)
    · intro e he
      have := component_closed hcc he
      simp only [subgraph, List.mem_filter, Bool.and_eq_true, decide_eq_true_eq]
      exact ⟨fun h => h.2.1, fun h => ⟨he, h, this.1 h⟩⟩

omit [DecidableEq V] in
theorem occurs_iff (g : Net V) (a : String) : Occurs g a ↔ ∃ e ∈ g.edges, a ∈ PyDict.keys e.attrs := by
  simp only [Occurs, PyDict.keys, List.mem_map, Prod.exists, exists_and_right, exists_eq_right]

omit [DecidableEq V] in
theorem findAll_ok {lib : Lib V} (hl : Faithful lib) {g : Net V} (h : Simple g) (hu : Uniform g) :
    ∃ as, findAllAttributes lib g = .ok as ∧ as.Nodup ∧ ∀ a, a ∈ as ↔ Occurs g a := by
  unfold findAllAttributes
  cases he : g.edges with
  | nil =>
    refine ⟨_, rfl, hl.unique_nodup _, fun a => ?_⟩
    rw [hl.unique_mem, occurs_iff, he]; simp
  | cons e es =>
    simp only [List.map_cons]
    rw [if_pos]
    · refine ⟨_, rfl, hl.unique_nodup _, fun a => ?_⟩
      rw [hl.unique_mem, occurs_iff, he]
      simp
    · rw [List.all_eq_true]
      intro s hs
      obtain ⟨f, hf, rfl⟩ := List.mem_map.1 hs
      have hfm : f ∈ g.edges := by rw [he]; exact List.mem_cons_of_mem _ hf
      have hem : e ∈ g.edges := by rw [he]; exact List.mem_cons_self
      have sub : ∀ e ∈ g.edges, ∀ f ∈ g.edges, PyDict.keys e.attrs ⊆ PyDict.keys f.attrs := by
        intro e he f hf a ha
        have ho : Occurs g a := (occurs_iff g a).2 ⟨e, he, ha⟩
        obtain ⟨x, hx⟩ := hu a ho f hf
        exact List.mem_map.2 ⟨_, hx, rfl⟩
      have h1 := (List.subperm_of_subset (h.attrs e hem) (sub e hem f hfm)).length_le
      have h2 := (List.subperm_of_subset (h.attrs f hfm) (sub f hfm e hem)).length_le
      rw [decide_eq_true_eq]
      exact Nat.le_antisymm h2 h1

omit [DecidableEq V] in
theorem isCategorical_ok {a : String} {es : List (Edge V)} (hw : ∀ e ∈ es, (e.attrs.map Prod.fst).Nodup)
    (hk : ∀ e ∈ es, ∃ x, (a, x) ∈ e.attrs) (hb : ∀ e ∈ es, (a, Val.bad) ∉ e.attrs) :
    ∃ b, isCategorical a es = .ok b ∧ (b = true ↔ ∃ e ∈ es, ∃ z : ℤ, (a, Val.num z) ∈ e.attrs) := by
  induction es with
  | nil => exact ⟨false, rfl, by simp⟩
  | cons e es ih =>
    obtain ⟨x, hx⟩ := hk e List.mem_cons_self
    have hwe : PyDict.WF e.attrs := hw e List.mem_cons_self
    have hget : PyDict.get? e.attrs a = some x := PyDict.get?_of_mem hwe hx
    have huniq : ∀ y, (a, y) ∈ e.attrs → y = x := fun y hy => by
      have := PyDict.get?_of_mem hwe hy
      rw [hget] at this; exact (Option.some.inj this).symm
    obtain ⟨b, hb1, hb2⟩ := ih (fun e he => hw e (List.mem_cons_of_mem _ he))
      (fun e he => hk e (List.mem_cons_of_mem _ he)) (fun e he => hb e (List.mem_cons_of_mem _ he))
    simp only [isCategorical, hget]
    cases x with
    | bad => exact absurd hx (hb e List.mem_cons_self)
    | special =>
      simp only [isInteger]
      refine ⟨b, hb1, hb2.trans ⟨fun ⟨f, hf, z, hz⟩ => ⟨f, List.mem_cons_of_mem _ hf, z, hz⟩, ?_⟩⟩
      rintro ⟨f, hf, z, hz⟩
      rcases List.mem_cons.1 hf with rfl | hf
      · exact absurd (huniq _ hz) (by simp)
      · exact ⟨f, hf, z, hz⟩
    | num q =>
      simp only [isInteger]
      by_cases hq : q.den = 1
      · rw [decide_eq_true hq]
        refine ⟨true, rfl, fun _ => ⟨e, List.mem_cons_self, q.num, ?_⟩, fun _ => rfl⟩
        rw [Rat.den_eq_one_iff] at hq
        rw [hq]; exact hx
      · rw [decide_eq_false hq]
        refine ⟨b, hb1, hb2.trans ⟨fun ⟨f, hf, z, hz⟩ => ⟨f, List.mem_cons_of_mem _ hf, z, hz⟩, ?_⟩⟩
        rintro ⟨f, hf, z, hz⟩
        rcases List.mem_cons.1 hf with rfl | hf
        · have := huniq _ hz
          rw [Val.num.injEq] at this
          exact absurd (by rw [← this]; rfl) hq
        · exact ⟨f, hf, z, hz⟩

omit [DecidableEq V] in
theorem classify_ok {es : List (Edge V)} (P : String → Prop) {as : List String}
    (h : ∀ a ∈ as, ∃ b, isCategorical a es = .ok b ∧ (b = true ↔ P a)) (acc : List String × List String) :
    ∃ l r, classify es as acc = .ok (acc.1 ++ l, acc.2 ++ r) ∧ l.Sublist as ∧ r.Sublist as ∧
      (∀ a, a ∈ l ↔ a ∈ as ∧ P a) ∧ (∀ a, a ∈ r ↔ a ∈ as ∧ ¬P a) := by
  induction as generalizing acc with
  | nil => exact ⟨[], [], by simp [classify], List.Sublist.refl _, List.Sublist.refl _, by simp, by simp⟩
  | cons a as ih =>
    obtain ⟨b, hb, hP⟩ := h a List.mem_cons_self
    have ih := ih (fun a ha => h a (List.mem_cons_of_mem _ ha))
    simp only [classify, hb]
    cases b with
    | true =>
      obtain ⟨l, r, h1, h2, h3, h4, h5⟩ := ih (acc.1 ++ [a], acc.2)
      refine ⟨a :: l, r, ?_, h2.cons_cons a, h3.cons a, ?_, ?_⟩
      · rw [h1]; simp
      · intro x
        rw [List.mem_cons, List.mem_cons, h4]
        constructor
        · rintro (rfl | h)
          · exact ⟨Or.inl rfl, hP.1 rfl⟩
          · exact ⟨Or.inr h.1, h.2⟩
        · rintro ⟨rfl | h, hp⟩
          · exact Or.inl rfl
          · exact Or.inr ⟨h, hp⟩
      · intro x
        rw [List.mem_cons, h5]
        constructor
        · exact fun h => ⟨Or.inr h.1, h.2⟩
        · rintro ⟨rfl | h, hp⟩
          · exact absurd (hP.1 rfl) hp
          · exact ⟨h, hp⟩
    | false =>
      have hnP : ¬P a := fun h => by simpa using hP.2 h
      obtain ⟨l, r, h1, h2, h3, h4, h5⟩ := ih (acc.1, acc.2 ++ [a])
      refine ⟨l, a :: r, ?_, h2.cons a, h3.cons_cons a, ?_, ?_⟩
      · rw [h1]; simp
      · intro x
        rw [List.mem_cons, h4]
        constructor
        · exact fun h => ⟨Or.inr h.1, h.2⟩
        · rintro ⟨rfl | h, hp⟩
          · exact absurd hp hnP
          · exact ⟨h, hp⟩
      · intro x
        rw [List.mem_cons, List.mem_cons, h5]
        constructor
        · rintro (rfl | h)
          · exact ⟨Or.inl rfl, hnP⟩
          · exact ⟨Or.inr h.1, h.2⟩
        · rintro ⟨rfl | h, hp⟩
          · exact Or.inl rfl
          · exact Or.inr ⟨h, hp⟩

omit [DecidableEq V] in
theorem categoricalAndContinuous_ok {lib : Lib V} (hl : Faithful lib) {g : Net V} (h : Simple g) (hu : Uniform g)
    (hn : Numeric g) :
    ∃ l r, categoricalAndContinuous lib g = .ok (l, r) ∧ l.Nodup ∧ r.Nodup ∧
      (∀ a, a ∈ l ↔ HasInteger g a) ∧ ∀ a, a ∈ r ↔ Occurs g a ∧ ¬HasInteger g a := by
  obtain ⟨as, h1, h2, h3⟩ := findAll_ok hl h hu
  obtain ⟨l, r, h4, h5, h6, h7, h8⟩ := classify_ok (es := g.edges) (HasInteger g) (as := as)
    (fun a ha => isCategorical_ok h.attrs (hu a ((h3 a).1 ha)) fun e he => hn e he a) ([], [])
  refine ⟨l, r, ?_, h2.sublist h5, h2.sublist h6, fun a => ?_, fun a => ?_⟩
  · simp only [categoricalAndContinuous, h1, h4, List.nil_append]
  · rw [h7, h3]
    exact ⟨fun h => h.2, fun h => ⟨let ⟨e, he, z, hz⟩ := h; ⟨e, he, _, hz⟩, h⟩⟩
  · rw [h8, h3]

omit [DecidableEq V] in
theorem filter_key {d : PyDict String Val} (hw : PyDict.WF d) {a : String} {x : Val} (hx : (a, x) ∈ d) :
    (d.filter fun p => p.1 = a) = [(a, x)] := by
  induction d with
  | nil => cases hx
  | cons p d ih =>
    have hw' := List.nodup_cons.1 (show (p.1 :: d.map Prod.fst).Nodup from hw)
    rcases List.mem_cons.1 hx with rfl | hx
    · rw [List.filter_cons_of_pos (by simp)]
      congr 1
      rw [List.filter_eq_nil_iff]
      intro q hq hqa
      exact hw'.1 (List.mem_map.2 ⟨q, hq, by simpa using hqa⟩)
    · have : p.1 ≠ a := fun h => hw'.1 (by rw [h]; exact List.mem_map.2 ⟨_, hx, rfl⟩)
      rw [List.filter_cons_of_neg (by simpa using this)]
      exact ih hw'.2 hx

omit [DecidableEq V] in
theorem attributeData_ok {a : String} {es : List (Edge V)} (hw : ∀ e ∈ es, (e.attrs.map Prod.fst).Nodup)
    (hk : ∀ e ∈ es, ∃ x, (a, x) ∈ e.attrs) :
    attributeData a es = .ok (es.flatMap fun e => (e.attrs.filter fun p => p.1 = a).map Prod.snd) := by
  induction es with
  | nil => rfl
  | cons e es ih =>
    obtain ⟨x, hx⟩ := hk e List.mem_cons_self
    have hwe : PyDict.WF e.attrs := hw e List.mem_cons_self
    simp only [attributeData, PyDict.get?_of_mem hwe hx,
      ih (fun e he => hw e (List.mem_cons_of_mem _ he)) (fun e he => hk e (List.mem_cons_of_mem _ he)),
      List.flatMap_cons, filter_key hwe hx, List.map_cons, List.map_nil, List.singleton_append]

/-! ### The search for the best distribution -/

/-- What the loop over a list of candidates has found. -/
structure Found (lib : Lib V) (xs : List Val) (is : List ℕ) (d0 : Option ℕ) (s : Search) : Prop where
  le : ∀ i ∈ is, ∀ m, lib.nnlf i xs = some m → m ≤ 1000 → s.mle ≤ m
  top : s.mle ≤ 1000
  fit : ∀ i, s.fit = some i → s.distrib = some i ∧ i ∈ is ∧ lib.nnlf i xs = some s.mle
  none : s.fit = none → s.distrib = d0 ∧ ∀ i ∈ is, ∀ m, lib.nnlf i xs = some m → ¬m ≤ 1000

omit [DecidableEq V] in
theorem found_foldl (lib : Lib V) (xs : List Val) (d0 : Option ℕ) (is done : List ℕ) (s : Search)
    (h : Found lib xs done d0 s) (h0 : s.fit = none → s.mle = 1000) :
    Found lib xs (done ++ is) d0 (is.foldl (searchStep lib xs) s) := by
  induction is generalizing done s with
  | nil => simpa using h
  | cons i is ih =>
    rw [List.foldl_cons, List.append_cons]
    unfold searchStep
    cases hn : lib.nnlf i xs with
    | none =>
      refine ih _ _ ⟨?_, h.top, ?_, ?_⟩ h0
      · intro j hj m hm hle
        rcases List.mem_append.1 hj with hj | hj
        · exact h.le j hj m hm hle
        · rw [List.mem_singleton.1 hj, hn] at hm; cases hm
      · intro j hj
        have := h.fit j hj
        exact ⟨this.1, List.mem_append_left _ this.2.1, this.2.2⟩
      · intro hf
        refine ⟨(h.none hf).1, fun j hj m hm => ?_⟩
        rcases List.mem_append.1 hj with hj | hj
        · exact (h.none hf).2 j hj m hm
        · rw [List.mem_singleton.1 hj, hn] at hm; cases hm
    | some m =>
      dsimp only
      by_cases hle : m ≤ s.mle
      · rw [if_pos hle]
        refine ih _ _ ⟨?_, hle.trans h.top, ?_, ?_⟩ (fun h => nomatch h)
        · intro j hj m' hm hle'
          rcases List.mem_append.1 hj with hj | hj
          · exact hle.trans (h.le j hj m' hm hle')
          · rw [List.mem_singleton.1 hj, hn] at hm
            exact (Option.some.inj hm).le
        · intro j hj
          cases hj
          exact ⟨rfl, by simp, hn⟩
        · intro hf; cases hf
      · rw [if_neg hle]
        refine ih _ _ ⟨?_, h.top, ?_, ?_⟩ h0
        · intro j hj m' hm hle'
          rcases List.mem_append.1 hj with hj | hj
          · exact h.le j hj m' hm hle'
          · rw [List.mem_singleton.1 hj, hn] at hm
            rw [← Option.some.inj hm]
            exact (not_le.1 hle).le
        · intro j hj
          have := h.fit j hj
          exact ⟨this.1, List.mem_append_left _ this.2.1, this.2.2⟩
        · intro hf
          refine ⟨(h.none hf).1, fun j hj m' hm => ?_⟩
          rcases List.mem_append.1 hj with hj | hj
          · exact (h.none hf).2 j hj m' hm
          · rw [List.mem_singleton.1 hj, hn] at hm
            rw [← Option.some.inj hm, ← h0 hf]
            exact hle

omit [DecidableEq V] in
theorem search_found (lib : Lib V) (xs : List Val) (d0 : Option ℕ) :
    Found lib xs candidates d0 (search lib xs d0) := by
  have := found_foldl lib xs d0 candidates [] ⟨d0, none, 1000⟩
    ⟨(fun _ h => nomatch h), le_refl _, (fun _ h => nomatch h), fun _ => ⟨rfl, (fun _ h => nomatch h)⟩⟩ (fun _ => rfl)
  rwa [List.nil_append] at this

theorem mem_candidates (i : ℕ) : i ∈ candidates ↔ i < 6 := by
  simp only [candidates, List.mem_cons, List.not_mem_nil, or_false]; omega

/-- Insert a new key at the end. -/
theorem set_append {α : Type} {d : PyDict String α} {a : String} (h : a ∉ PyDict.keys d) (x : α) :
    PyDict.set d a x = d ++ [(a, x)] := by
  induction d with
  | nil => rfl
  | cons p d ih =>
    simp only [PyDict.keys, List.map_cons, List.mem_cons, not_or] at h
    simp only [PyDict.set, if_neg (fun h' => h.1 h'.symm : ¬p.1 = a), List.cons_append]
    rw [ih h.2]

omit [DecidableEq V] in
theorem continuousLoop_ok {lib : Lib V} {es : List (Edge V)} {cont : List String} (col : String → List Val)
    {as : List String} (hnd : as.Nodup) (hd : ∀ a ∈ as, attributeData a es = .ok (col a))
    (hf : ∀ a ∈ as, a ∈ cont → ∃ i < 6, ∃ m, lib.nnlf i (col a) = some m ∧ m ≤ 1000)
    (best : Option ℕ) (acc : PyDict String (Option (ℕ × ℚ))) (hacc : ∀ a ∈ as, a ∉ PyDict.keys acc) :
    ∃ d, continuousLoop lib es cont as best acc = .ok (acc ++ d) ∧ d.map Prod.fst = as ∧
      (∀ a, (a, none) ∈ d ↔ a ∈ as ∧ a ∉ cont) ∧
      ∀ a i m, (a, some (i, m)) ∈ d → i < 6 ∧ lib.nnlf i (col a) = some m ∧
        ∀ j < 6, ∀ m', lib.nnlf j (col a) = some m' → m ≤ m' := by
  induction as generalizing best acc with
  | nil => exact ⟨[], by simp [continuousLoop], rfl, by simp, by simp⟩
  | cons a as ih =>
    rw [List.nodup_cons] at hnd
    have hk := hacc a List.mem_cons_self
    have hacc' : ∀ (x : Option (ℕ × ℚ)), ∀ b ∈ as, b ∉ PyDict.keys (acc ++ [(a, x)]) := by
      intro x b hb
      simp only [PyDict.keys, List.map_append, List.map_cons, List.map_nil, List.mem_append, List.mem_singleton, not_or]
      exact ⟨hacc b (List.mem_cons_of_mem _ hb), fun h => hnd.1 (h ▸ hb)⟩
    have ih := fun best x => ih hnd.2 (fun a ha => hd a (List.mem_cons_of_mem _ ha))
      (fun a ha => hf a (List.mem_cons_of_mem _ ha)) best _ (hacc' x)
    simp only [continuousLoop]
    by_cases hc : a ∈ cont
    · rw [if_pos hc, hd a List.mem_cons_self]
      dsimp only
      obtain ⟨i0, hi0, m0, hm0, hle0⟩ := hf a List.mem_cons_self hc
      have hF := search_found lib (col a) best
      revert hF
      generalize search lib (col a) best = s
      intro hF
      cases hfit : s.fit with
      | none => exact absurd hle0 ((hF.none hfit).2 i0 ((mem_candidates _).2 hi0) m0 hm0)
      | some i =>
        obtain ⟨h1, h2, h3⟩ := hF.fit i hfit
        rw [h1]
        dsimp only
        rw [set_append hk]
        obtain ⟨d, e1, e2, e3, e4⟩ := ih (some i) (some (i, s.mle))
        refine ⟨(a, some (i, s.mle)) :: d, by rw [e1]; simp, by simp [e2], ?_, ?_⟩
        · intro b
          rw [List.mem_cons, e3, List.mem_cons]
          constructor
          · rintro (h | h)
            · simp at h
            · exact ⟨Or.inr h.1, h.2⟩
          · rintro ⟨rfl | h, hn⟩
            · exact absurd hc hn
            · exact Or.inr ⟨h, hn⟩
        · intro b j m hm
          rcases List.mem_cons.1 hm with h | h
          · simp only [Prod.mk.injEq, Option.some.injEq] at h
            obtain ⟨rfl, rfl, rfl⟩ := h
            refine ⟨(mem_candidates _).1 h2, h3, fun k hk m' hm' => ?_⟩
            by_cases hle : m' ≤ 1000
            · exact hF.le k ((mem_candidates _).2 hk) m' hm' hle
            · exact hF.top.trans (not_le.1 hle).le
          · exact e4 b j m h
    · rw [if_neg hc, set_append hk]
      obtain ⟨d, e1, e2, e3, e4⟩ := ih best none
      refine ⟨(a, none) :: d, by rw [e1]; simp, by simp [e2], ?_, ?_⟩
      · intro b
        rw [List.mem_cons, e3, List.mem_cons]
        constructor
        · rintro (h | h)
          · rw [Prod.mk.injEq] at h; rw [h.1]; exact ⟨Or.inl rfl, hc⟩
          · exact ⟨Or.inr h.1, h.2⟩
        · rintro ⟨rfl | h, hn⟩
          · exact Or.inl rfl
          · exact Or.inr ⟨h, hn⟩
      · intro b j m hm
        rcases List.mem_cons.1 hm with h | h
        · simp at h
        · exact e4 b j m h

omit [DecidableEq V] in
theorem categoricalLoop_ok {lib : Lib V} {es : List (Edge V)} {cat : List String} (col : String → List Val)
    {as : List String} (hnd : as.Nodup) (hd : ∀ a ∈ as, attributeData a es = .ok (col a))
    (hf : ∀ a ∈ as, a ∈ cat → ∃ h, lib.histogram (col a) = .ok h)
    (acc : PyDict String (Option (List ℕ × List ℚ))) (hacc : ∀ a ∈ as, a ∉ PyDict.keys acc) :
    ∃ d, categoricalLoop lib es cat as acc = .ok (acc ++ d) ∧ d.map Prod.fst = as ∧
      (∀ a, (a, none) ∈ d ↔ a ∈ as ∧ a ∉ cat) ∧
      ∀ a h, (a, some h) ∈ d → lib.histogram (col a) = .ok h := by
  induction as generalizing acc with
  | nil => exact ⟨[], by simp [categoricalLoop], rfl, by simp, by simp⟩
  | cons a as ih =>
    rw [List.nodup_cons] at hnd
    have hk := hacc a List.mem_cons_self
    have hacc' : ∀ (x : Option (List ℕ × List ℚ)), ∀ b ∈ as, b ∉ PyDict.keys (acc ++ [(a, x)]) := by
      intro x b hb
      simp only [PyDict.keys, List.map_append, List.map_cons, List.map_nil, List.mem_append, List.mem_singleton, not_or]
      exact ⟨hacc b (List.mem_cons_of_mem _ hb), fun h => hnd.1 (h ▸ hb)⟩
    have ih := fun x => ih hnd.2 (fun a ha => hd a (List.mem_cons_of_mem _ ha))
      (fun a ha => hf a (List.mem_cons_of_mem _ ha)) _ (hacc' x)
    simp only [categoricalLoop]
    by_cases hc : a ∈ cat
    · rw [if_pos hc, hd a List.mem_cons_self]
      dsimp only
      obtain ⟨h0, hh0⟩ := hf a List.mem_cons_self hc
      rw [hh0]
      dsimp only
      rw [set_append hk]
      obtain ⟨d, e1, e2, e3, e4⟩ := ih (some h0)
      refine ⟨(a, some h0) :: d, by rw [e1]; simp, by simp [e2], ?_, ?_⟩
      · intro b
        rw [List.mem_cons, e3, List.mem_cons]
        constructor
        · rintro (h | h)
          · simp at h
          · exact ⟨Or.inr h.1, h.2⟩
        · rintro ⟨rfl | h, hn⟩
          · exact absurd hc hn
          · exact Or.inr ⟨h, hn⟩
      · intro b j hm
        rcases List.mem_cons.1 hm with h | h
        · simp only [Prod.mk.injEq, Option.some.injEq] at h
          obtain ⟨rfl, rfl⟩ := h
          exact hh0
        · exact e4 b j h
    · rw [if_neg hc, set_append hk]
      obtain ⟨d, e1, e2, e3, e4⟩ := ih none
      refine ⟨(a, none) :: d, by rw [e1]; simp, by simp [e2], ?_, ?_⟩
      · intro b
        rw [List.mem_cons, e3, List.mem_cons]
        constructor
        · rintro (h | h)
          · rw [Prod.mk.injEq] at h; rw [h.1]; exact ⟨Or.inl rfl, hc⟩
          · exact ⟨Or.inr h.1, h.2⟩
        · rintro ⟨rfl | h, hn⟩
          · exact Or.inl rfl
          · exact Or.inr ⟨h, hn⟩
      · intro b j hm
        rcases List.mem_cons.1 hm with h | h
        · simp at h
        · exact e4 b j h

theorem keys_occurs {α : Type} {d : List (String × α)} {as : List String} (h : d.map Prod.fst = as) (a : String) :
    (∃ x, (a, x) ∈ d) ↔ a ∈ as := by
  rw [← h]; simp

/-- One update with a graph meeting all the requirements. -/
theorem update_ok {lib : Lib V} (hl : Faithful lib) {g : Net V} (h : Simple g) (hne : g.nodes ≠ []) (hu : Uniform g)
    (hn : Numeric g) (hf : Fits lib g) (p : Prof) :
    (update lib p g).2 = none ∧ Describes lib g (update lib p g).1 ∧
      (update lib p g).1.sampleSize = p.sampleSize + g.edges.length := by
  obtain ⟨l, r, hcc, hl1, hr1, hl2, hr2⟩ := categoricalAndContinuous_ok hl h hu hn
  obtain ⟨k, hk1, hk2⟩ := maxComponent_eq hl h hne
  obtain ⟨as, ha1, ha2, ha3⟩ := findAll_ok hl h hu
  have hcol : ∀ a ∈ as, attributeData a g.edges = .ok (column g a) :=
    fun a ha => attributeData_ok h.attrs (hu a ((ha3 a).1 ha))
  obtain ⟨d1, hd1, hd2, hd3, hd4⟩ := continuousLoop_ok (lib := lib) (cont := r) (column g) ha2 hcol
    (fun a _ hr => hf.cont a ((hr2 a).1 hr).1 ((hr2 a).1 hr).2) none [] (fun _ _ h => nomatch h)
  obtain ⟨d2, he1, he2, he3, he4⟩ := categoricalLoop_ok (lib := lib) (cat := l) (column g) ha2 hcol
    (fun a _ hr => hf.cat a ((hl2 a).1 hr)) [] (fun _ _ h => nomatch h)
  have hg : ¬(size g = 0 ∧ g.nodes.length = 0) := fun hh => hne (List.length_eq_zero_iff.1 hh.2)
  rw [update]
  simp only [if_neg hg]
  have hrun : perform (calculations lib g) (p, {}) =
      ({ p with numNodes := some g.nodes.length, numEdges := some (size g), categorical := some l, continuous := some r,
                avgDegree := some ((2 * g.edges.length : ℕ) / (g.nodes.length : ℚ)), maxComponent := some k,
                contDist := some d1, catDist := some d2 }, none) := by
    simp only [calculations, perform, stepNumNodes, stepNumEdges, stepCategorical, stepContinuous, stepAvgDegree,
      stepMaxComponent, stepContDist, stepCatDist, hcc, hk1, Option.getD_some, avg_eq h hne,
      continuousDistribution, categoricalDistribution, ha1, hd1, he1, List.nil_append]
  rw [hrun]
  have occ : ∀ a, a ∈ as ∧ a ∉ r ↔ HasInteger g a := by
    intro a
    rw [ha3, hr2]
    constructor
    · rintro ⟨h1, h2⟩
      by_contra h3
      exact h2 ⟨h1, h3⟩
    · intro h1
      exact ⟨let ⟨e, he, z, hz⟩ := h1; ⟨e, he, _, hz⟩, fun h2 => h2.2 h1⟩
  refine ⟨rfl, ⟨rfl, by simp [size_eq h], rfl, ?_, ⟨l, rfl, hl1, hl2⟩, ⟨r, rfl, hr1, hr2⟩,
    ⟨d1, rfl, ?_, hd2 ▸ ha2, ?_, hd4⟩, ⟨d2, rfl, ?_, he2 ▸ ha2, ?_, he4⟩⟩, by simp [size_eq h]⟩
  · obtain ⟨c, h1, h2, es, h3, h4, h5⟩ := hk2
    exact ⟨c, h1, h2, es, h3, h4, by rw [h5]⟩
  · intro a; rw [keys_occurs hd2, ha3]
  · intro a; rw [hd3, occ]
  · intro a; rw [keys_occurs he2, ha3]
  · intro a; rw [he3, ha3, hl2]

theorem update_empty (lib : Lib V) (p : Prof) {g : Net V} (hn : g.nodes = []) : update lib p g = (p, none) := by
  unfold update
  rw [if_pos]
  refine ⟨?_, by rw [hn]; rfl⟩
  simp [size, hn]

/-! ### What a successful update implies -/

omit [DecidableEq V] in
theorem classify_mono {es : List (Edge V)} {as : List String} {acc res : List String × List String}
    (h : classify es as acc = .ok res) : (∀ a ∈ acc.1, a ∈ res.1) ∧ ∀ a ∈ acc.2, a ∈ res.2 := by
  induction as generalizing acc with
  | nil => simp only [classify, Except.ok.injEq] at h; subst h; exact ⟨fun _ h => h, fun _ h => h⟩
  | cons a as ih =>
    simp only [classify] at h
    split at h
    · cases h
    · have := ih h
      exact ⟨fun b hb => this.1 b (List.mem_append_left _ hb), this.2⟩
    · have := ih h
      exact ⟨this.1, fun b hb => this.2 b (List.mem_append_left _ hb)⟩

omit [DecidableEq V] in
theorem classify_inv {es : List (Edge V)} {as : List String} {acc res : List String × List String}
    (h : classify es as acc = .ok res) :
    ∀ a ∈ as, (isCategorical a es = .ok true ∧ a ∈ res.1) ∨ (isCategorical a es = .ok false ∧ a ∈ res.2) := by
  induction as generalizing acc with
  | nil => exact fun _ h => nomatch h
  | cons a as ih =>
    simp only [classify] at h
    split at h
    · cases h
    · rename_i hc
      intro b hb
      rcases List.mem_cons.1 hb with rfl | hb
      · exact Or.inl ⟨hc, (classify_mono h).1 _ (by simp)⟩
      · exact ih h b hb
    · rename_i hc
      intro b hb
      rcases List.mem_cons.1 hb with rfl | hb
      · exact Or.inr ⟨hc, (classify_mono h).2 _ (by simp)⟩
      · exact ih h b hb

omit [DecidableEq V] in
theorem isCategorical_false {a : String} {es : List (Edge V)} (h : isCategorical a es = .ok false) :
    ∀ e ∈ es, ∃ x, (a, x) ∈ e.attrs := by
  induction es with
  | nil => exact fun _ h => nomatch h
  | cons e es ih =>
    simp only [isCategorical] at h
    cases hg : PyDict.get? e.attrs a with
    | none => rw [hg] at h; cases h
    | some x =>
      rw [hg] at h
      intro f hf
      rcases List.mem_cons.1 hf with rfl | hf
      · exact ⟨x, PyDict.mem_of_get? hg⟩
      · dsimp only at h
        split at h
        · cases h
        · cases h
        · exact ih h f hf

omit [DecidableEq V] in
theorem attributeData_inv {a : String} {es : List (Edge V)} {xs : List Val} (h : attributeData a es = .ok xs) :
    ∀ e ∈ es, ∃ x, (a, x) ∈ e.attrs := by
  induction es generalizing xs with
  | nil => exact fun _ h => nomatch h
  | cons e es ih =>
    simp only [attributeData] at h
    cases hg : PyDict.get? e.attrs a with
    | none => rw [hg] at h; cases h
    | some x =>
      rw [hg] at h
      cases hd : attributeData a es with
      | error err => rw [hd] at h; cases h
      | ok ys =>
        intro f hf
        rcases List.mem_cons.1 hf with rfl | hf
        · exact ⟨x, PyDict.mem_of_get? hg⟩
        · exact ih hd f hf

omit [DecidableEq V] in
theorem categoricalLoop_inv {lib : Lib V} {es : List (Edge V)} {cat : List String} {as : List String}
    {acc res : PyDict String (Option (List ℕ × List ℚ))} (h : categoricalLoop lib es cat as acc = .ok res) :
    ∀ a ∈ as, a ∈ cat → ∃ xs, attributeData a es = .ok xs ∧ ∃ k, lib.histogram xs = .ok k := by
  induction as generalizing acc with
  | nil => exact fun _ h => nomatch h
  | cons a as ih =>
    simp only [categoricalLoop] at h
    by_cases hc : a ∈ cat
    · rw [if_pos hc] at h
      cases hd : attributeData a es with
      | error err => rw [hd] at h; cases h
      | ok xs =>
        rw [hd] at h
        dsimp only at h
        cases hh : lib.histogram xs with
        | error err => rw [hh] at h; cases h
        | ok k =>
          rw [hh] at h
          intro b hb hbc
          rcases List.mem_cons.1 hb with rfl | hb
          · exact ⟨xs, hd, k, hh⟩
          · exact ih h b hb hbc
    · rw [if_neg hc] at h
      intro b hb hbc
      rcases List.mem_cons.1 hb with rfl | hb
      · exact absurd hbc hc
      · exact ih h b hb hbc

omit [DecidableEq V] in
theorem continuousLoop_inv {lib : Lib V} {es : List (Edge V)} {cont : List String} {as : List String} {best : Option ℕ}
    {acc res : PyDict String (Option (ℕ × ℚ))} (h : continuousLoop lib es cont as best acc = .ok res) :
    ∀ a ∈ as, a ∈ cont → ∃ xs, attributeData a es = .ok xs ∧ ∃ i < 6, ∃ m, lib.nnlf i xs = some m ∧ m ≤ 1000 := by
  induction as generalizing acc best with
  | nil => exact fun _ h => nomatch h
  | cons a as ih =>
    simp only [continuousLoop] at h
    by_cases hc : a ∈ cont
    · rw [if_pos hc] at h
      cases hd : attributeData a es with
      | error err => rw [hd] at h; cases h
      | ok xs =>
        rw [hd] at h
        dsimp only at h
        have hF := search_found lib xs best
        revert hF h
        generalize search lib xs best = s
        intro h hF
        cases hs : s.distrib with
        | none => rw [hs] at h; cases h
        | some j =>
          rw [hs] at h
          cases hfit : s.fit with
          | none => rw [hfit] at h; cases h
          | some i =>
            rw [hfit] at h
            intro b hb hbc
            rcases List.mem_cons.1 hb with rfl | hb
            · have := hF.fit i hfit
              exact ⟨xs, hd, i, (mem_candidates _).1 this.2.1, _, this.2.2, hF.top⟩
            · exact ih h b hb hbc
    · rw [if_neg hc] at h
      intro b hb hbc
      rcases List.mem_cons.1 hb with rfl | hb
      · exact absurd hbc hc
      · exact ih h b hb hbc

theorem perform_none {fs : List Step} {s : Prof × Subset} {f : Step} (h : (perform (f :: fs) s).2 = none) :
    ∃ s', f s = .ok s' ∧ (perform fs s').2 = none := by
  simp only [perform] at h
  cases hf : f s with
  | error err => rw [hf] at h; cases h
  | ok s' => rw [hf] at h; exact ⟨s', rfl, h⟩

theorem update_inv {lib : Lib V} {p : Prof} {g : Net V} (hne : g.nodes ≠ []) (h : (update lib p g).2 = none) :
    ∃ r, categoricalAndContinuous lib g = .ok r ∧ (∃ d, continuousDistribution lib g r.2 = .ok d) ∧
      ∃ d, categoricalDistribution lib g r.1 = .ok d := by
  have hg : ¬(size g = 0 ∧ g.nodes.length = 0) := fun hh => hne (List.length_eq_zero_iff.1 hh.2)
  rw [update] at h
  simp only [if_neg hg] at h
  have h : (perform (calculations lib g) (p, {})).2 = none := by
    revert h
    generalize perform (calculations lib g) (p, {}) = q
    obtain ⟨q1, q2⟩ := q
    cases q2 with
    | none => exact fun _ => rfl
    | some e => exact fun h => h
  unfold calculations at h
  obtain ⟨s1, e1, h⟩ := perform_none h
  obtain ⟨s2, e2, h⟩ := perform_none h
  obtain ⟨s3, e3, h⟩ := perform_none h
  obtain ⟨s4, e4, h⟩ := perform_none h
  obtain ⟨s5, e5, h⟩ := perform_none h
  obtain ⟨s6, e6, h⟩ := perform_none h
  obtain ⟨s7, e7, h⟩ := perform_none h
  obtain ⟨s8, e8, h⟩ := perform_none h
  unfold stepCategorical at e3
  unfold stepContinuous at e4
  cases hr : categoricalAndContinuous lib g with
  | error err => rw [hr] at e3; cases e3
  | ok r =>
    rw [hr] at e3 e4
    simp only [Except.ok.injEq] at e3 e4
    unfold stepAvgDegree at e5
    split at e5
    · cases e5
    simp only [Except.ok.injEq] at e5
    unfold stepMaxComponent at e6
    split at e6
    · cases e6
    simp only [Except.ok.injEq] at e6
    have hs4 : s4.2.continuous = some r.2 ∧ s4.2.categorical = some r.1 := by rw [← e4, ← e3]; exact ⟨rfl, rfl⟩
    have hs6 : s6.2 = s4.2 := by rw [← e6, ← e5]
    unfold stepContDist at e7
    rw [hs6, hs4.1] at e7
    split at e7
    · cases e7
    rename_i d hd
    simp only [Except.ok.injEq] at e7
    have hs7 : s7.2 = s4.2 := by rw [← e7]
    unfold stepCatDist at e8
    rw [hs7, hs4.2] at e8
    split at e8
    · cases e8
    rename_i d' hd'
    exact ⟨r, rfl, ⟨d, hd⟩, ⟨d', hd'⟩⟩

omit [DecidableEq V] in
theorem findAll_mem {lib : Lib V} (hl : Faithful lib) {g : Net V} {as : List String}
    (h : findAllAttributes lib g = .ok as) (a : String) : a ∈ as ↔ Occurs g a := by
  unfold findAllAttributes at h
  cases he : g.edges with
  | nil =>
    rw [he] at h
    simp only [List.map_nil, Except.ok.injEq] at h
    rw [← h, hl.unique_mem, occurs_iff, he]; simp
  | cons e es =>
    rw [he] at h
    simp only [List.map_cons] at h
    split_ifs at h
    simp only [Except.ok.injEq] at h
    rw [← h, hl.unique_mem, occurs_iff, he]; simp

theorem update_needs {lib : Lib V} (hl : Faithful lib) {p : Prof} {g : Net V} (hs : Simple g) (hne : g.nodes ≠ [])
    (hnum : Numeric g) (h : (update lib p g).2 = none) : Uniform g ∧ Fits lib g := by
  obtain ⟨r, hr, ⟨d1, hd1⟩, ⟨d2, hd2⟩⟩ := update_inv hne h
  unfold categoricalAndContinuous at hr
  unfold continuousDistribution at hd1
  unfold categoricalDistribution at hd2
  cases ha : findAllAttributes lib g with
  | error err => rw [ha] at hr; cases hr
  | ok as =>
    rw [ha] at hr hd1 hd2
    dsimp only at hr hd1 hd2
    have hmem := findAll_mem hl ha
    have hcl := classify_inv hr
    have hcat := categoricalLoop_inv hd2
    have hcont := continuousLoop_inv hd1
    have hu : Uniform g := by
      intro a hoc
      rcases hcl a ((hmem a).2 hoc) with ⟨h1, h2⟩ | ⟨h1, h2⟩
      · obtain ⟨xs, hx, _⟩ := hcat a ((hmem a).2 hoc) h2
        exact attributeData_inv hx
      · exact isCategorical_false h1
    refine ⟨hu, ⟨fun a ho hni => ?_, fun a hi => ?_⟩⟩
    · obtain ⟨b, hb1, hb2⟩ := isCategorical_ok hs.attrs (hu a ho) fun e he => hnum e he a
      rcases hcl a ((hmem a).2 ho) with ⟨h1, h2⟩ | ⟨h1, h2⟩
      · rw [h1] at hb1; cases hb1; exact absurd (hb2.1 rfl) hni
      · obtain ⟨xs, hx, hfit⟩ := hcont a ((hmem a).2 ho) h2
        rw [attributeData_ok hs.attrs (hu a ho)] at hx
        cases hx; exact hfit
    · have ho : Occurs g a := let ⟨e, he, z, hz⟩ := hi; ⟨e, he, _, hz⟩
      obtain ⟨b, hb1, hb2⟩ := isCategorical_ok hs.attrs (hu a ho) fun e he => hnum e he a
      rcases hcl a ((hmem a).2 ho) with ⟨h1, h2⟩ | ⟨h1, h2⟩
      · obtain ⟨xs, hx, hfit⟩ := hcat a ((hmem a).2 ho) h2
        rw [attributeData_ok hs.attrs (hu a ho)] at hx
        cases hx; exact hfit
      · rw [h1] at hb1; cases hb1; exact absurd (hb2.2 hi) (by simp)

end Verif.Graph
