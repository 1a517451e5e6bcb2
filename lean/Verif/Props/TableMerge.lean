import Verif.Lemmas.TableInv

/-!
# C20 — merging table profiles pairs columns by name, and the result describes all the data
-/

namespace Verif.Table

open Verif Verif.Schema Verif.Nulls Verif.SchemaSpec Verif.NullsSpec

variable {σ η : Type}

/-! ## One merge -/

/-- **Pairing**: a successful merge keeps the first operand's columns, names and order; column `p` is merged with the
second operand's column of the same name, every one of which is used exactly once; rows and null rows are added. -/
theorem C20_pairs_by_name (env : Env σ η) (hl : Idem env.lower) (a b t : TableProf σ η) (an bn : List Key)
    (ha : a.schema = schemaOf env.lower an) (hb : b.schema = schemaOf env.lower bn) (la : a.cols.length = an.length)
    (lb : b.cols.length = bn.length) (h : (mergeTable env a b).1 = .ok t) :
    Compatible (names env.lower an) (names env.lower bn) ∧ a.opts = b.opts ∧
    t.cols.length = a.cols.length ∧ t.schema = a.schema ∧ t.opts = a.opts ∧ t.total = a.total + b.total ∧
    (a.opts.enabled = true → t.hasNull = a.hasNull + b.hasNull ∧ t.isNull = a.isNull + b.isNull) ∧
    (∀ p ca, a.cols[p]? = some ca → ∃ j cb c, b.cols[j]? = some cb ∧ t.cols[p]? = some c ∧ mergeCol env.ops ca cb = .ok c ∧
      j = sourceCol env.lower bn an p ∧ (names env.lower bn)[j]? = (names env.lower an)[p]? ∧ ca.name = cb.name ∧
      c.name = ca.name) ∧
    (∀ j < b.cols.length, ∃ p < a.cols.length, sourceCol env.lower bn an p = j ∧
      ∀ q < a.cols.length, sourceCol env.lower bn an q = j → q = p) := by
  obtain ⟨hchk, m, cs, hm, hcs, rfl⟩ := (mergeTable_iff env a b t).1 h
  obtain ⟨⟨m', hm'⟩, hopts⟩ := addChecks_ok hchk
  rw [ha, hb] at hm hm'
  have hne1 : an ≠ [] := by
    intro h0
    rw [h0, (C19_empty (lower := env.lower) bn).2.2] at hm'
    cases hm'
  have hne2 : bn ≠ [] := by
    intro h0
    rw [h0, (C19_empty (lower := env.lower) an).2.1] at hm'
    cases hm'
  obtain ⟨l1, l2⟩ := (mergeCols_spec env.ops m b.cols 0 a.cols cs).1 hcs
  have hbij := C19_bijection hl an bn false hne1 hne2 m hm
  refine ⟨(C19_ok_iff hl an bn false hne1 hne2).1 ⟨m, hm⟩, hopts, l1, rfl, rfl, rfl, ?_, ?_, ?_⟩
  · intro he
    simp only [he, if_true, and_self]
  · intro p ca hp
    obtain ⟨j, cb, c, g1, g2, g3, g4⟩ := l2 p ca hp
    have hpl : p < an.length := by rw [← la]; exact (List.getElem?_eq_some_iff.1 hp).1
    rw [Nat.zero_add, target_ok] at g1
    have hs := (merge_source hl an bn hne1 hne2 m hm p hpl).2
    rw [g1] at hs
    obtain ⟨k1, k2, _⟩ := mergeCol_ok g3
    exact ⟨j, cb, c, g2, g4, g3, Option.some.inj hs, (hbij.name p j g1).symm, k1, k2⟩
  · intro j hj
    rw [lb] at hj
    obtain ⟨p, hp, he⟩ := merge_source_surj hl an bn hne1 hne2 m hm j hj
    refine ⟨p, by rw [la]; exact hp, he, ?_⟩
    intro q hq hqe
    rw [la] at hq
    have hv : (PyDict.values m).Nodup := hbij.cod.nodup_iff.2 List.nodup_range
    have h1 := (merge_source hl an bn hne1 hne2 m hm p hp).2
    have h2 := (merge_source hl an bn hne1 hne2 m hm q hq).2
    rw [he] at h1
    rw [hqe] at h2
    exact congrArg Prod.fst (List.inj_on_of_nodup_map hv (PyDict.mem_of_get? h2) (PyDict.mem_of_get? h1) rfl)

/-- **When a merge succeeds**: exactly when the names can be matched, the row options agree, and every pair of columns
can be merged. -/
theorem C20_ok_iff (env : Env σ η) (hl : Idem env.lower) (a b : TableProf σ η) (an bn : List Key)
    (ha : a.schema = schemaOf env.lower an) (hb : b.schema = schemaOf env.lower bn) (la : a.cols.length = an.length)
    (lb : b.cols.length = bn.length) :
    (∃ t, (mergeTable env a b).1 = .ok t) ↔ an ≠ [] ∧ bn ≠ [] ∧ Compatible (names env.lower an) (names env.lower bn) ∧
      a.opts = b.opts ∧ ∀ p ca cb, a.cols[p]? = some ca → b.cols[sourceCol env.lower bn an p]? = some cb →
        ∃ c, mergeCol env.ops ca cb = .ok c := by
  constructor
  · rintro ⟨t, h⟩
    obtain ⟨g1, g2, _, _, _, _, _, g3, _⟩ := C20_pairs_by_name env hl a b t an bn ha hb la lb h
    obtain ⟨hchk, _⟩ := (mergeTable_iff env a b t).1 h
    obtain ⟨⟨m', hm'⟩, _⟩ := addChecks_ok hchk
    rw [ha, hb] at hm'
    refine ⟨?_, ?_, g1, g2, ?_⟩
    · intro h0
      rw [h0, (C19_empty (lower := env.lower) bn).2.2] at hm'
      cases hm'
    · intro h0
      rw [h0, (C19_empty (lower := env.lower) an).2.1] at hm'
      cases hm'
    · intro p ca cb hp hq
      obtain ⟨j, cb', c, k1, _, k3, k4, _⟩ := g3 p ca hp
      subst k4
      rw [hq] at k1
      cases k1
      exact ⟨c, k3⟩
  · rintro ⟨hne1, hne2, hcomp, hopts, hcols⟩
    obtain ⟨m1, hm1⟩ := (C19_ok_iff hl an bn true hne1 hne2).2 hcomp
    obtain ⟨m, hm⟩ := (C19_ok_iff hl an bn false hne1 hne2).2 hcomp
    have hchk : addChecks env a b = .ok () := by
      unfold addChecks
      rw [ha, hb, hm1, hopts]
      simp
    have hex : ∃ f : ℕ → Col σ, ∀ p ca, a.cols[p]? = some ca → ∃ cb,
        b.cols[sourceCol env.lower bn an p]? = some cb ∧ mergeCol env.ops ca cb = .ok (f p) := by
      have : ∀ p, ∃ c : Col σ, ∀ ca, a.cols[p]? = some ca → ∃ cb,
          b.cols[sourceCol env.lower bn an p]? = some cb ∧ mergeCol env.ops ca cb = .ok c := by
        intro p
        cases hp : a.cols[p]? with
        | none => exact ⟨Col.new, fun ca h => by cases h⟩
        | some ca =>
          have hpl : p < an.length := by rw [← la]; exact (List.getElem?_eq_some_iff.1 hp).1
          have hs := (merge_source hl an bn hne1 hne2 m hm p hpl).1
          obtain ⟨c, hc⟩ := hcols p ca _ hp (List.getElem?_eq_getElem (by rw [lb]; exact hs))
          refine ⟨c, fun ca' h => ?_⟩
          cases h
          exact ⟨_, List.getElem?_eq_getElem (by rw [lb]; exact hs), hc⟩
      exact ⟨fun p => (this p).choose, fun p => (this p).choose_spec⟩
    obtain ⟨f, hf⟩ := hex
    have hcs : mergeCols env.ops m b.cols 0 a.cols = .ok ((List.range a.cols.length).map f) := by
      rw [mergeCols_spec]
      refine ⟨by simp, ?_⟩
      intro p ca hp
      have hpl : p < a.cols.length := (List.getElem?_eq_some_iff.1 hp).1
      obtain ⟨cb, h1, h2⟩ := hf p ca hp
      refine ⟨_, cb, f p, ?_, h1, h2, ?_⟩
      · rw [Nat.zero_add, target_ok]
        exact (merge_source hl an bn hne1 hne2 m hm p (by rw [← la]; exact hpl)).2
      · rw [List.getElem?_map, List.getElem?_range hpl]
        rfl
    exact ⟨_, (mergeTable_iff env a b _).2 ⟨hchk, m, _, by rw [ha, hb]; exact hm, hcs, rfl⟩⟩

theorem mergeDict_ok_iff {α : Type} (f : String → α → α → Except Err α) (d2 d1 : PyDict String α) :
    (∃ r, mergeDict f d2 d1 = .ok r) ↔ ∀ ka ∈ d1, ∃ b, PyDict.get? d2 ka.1 = some b ∧ ∃ r, f ka.1 ka.2 b = .ok r := by
  induction d1 with
  | nil => simp [mergeDict]
  | cons ka d1 ih =>
    obtain ⟨t, a⟩ := ka
    simp only [List.forall_mem_cons, ← ih]
    simp only [mergeDict]
    cases hb : PyDict.get? d2 t with
    | none => simp
    | some b =>
      simp only [Option.some.injEq, exists_eq_left']
      cases hf : f t a b with
      | error e => simp
      | ok r =>
        cases hm : mergeDict f d2 d1 with
        | error e => simp
        | ok rs => simp

theorem sameKeys_iff {α β : Type} (d1 : PyDict String α) (d2 : PyDict String β) :
    sameKeys d1 d2 = true ↔ ∀ k, k ∈ PyDict.keys d1 ↔ k ∈ PyDict.keys d2 := by
  unfold sameKeys
  simp only [Bool.and_eq_true, List.all_eq_true, PyDict.has_iff]
  constructor
  · rintro ⟨h1, h2⟩ k
    exact ⟨h1 k, h2 k⟩
  · intro h
    exact ⟨fun k => (h k).1, fun k => (h k).2⟩

theorem mergeCompiler_ok_iff (ops : Ops σ) (a b : Compiler σ) :
    (∃ c, mergeCompiler ops a b = .ok c) ↔ a.kind = b.kind ∧ a.name = b.name ∧
      (∀ t, t ∈ PyDict.keys a.profs ↔ t ∈ PyDict.keys b.profs) ∧
      ∀ tp ∈ a.profs, ∃ q, PyDict.get? b.profs tp.1 = some q ∧ ∃ s, ops.merge tp.1 tp.2.state q.state = .ok s := by
  have hd := mergeDict_ok_iff (mergeProf ops) b.profs a.profs
  have hp : ∀ t (p q : Prof σ), (∃ r, mergeProf ops t p q = .ok r) ↔ ∃ s, ops.merge t p.state q.state = .ok s := by
    intro t p q
    unfold mergeProf
    cases ops.merge t p.state q.state <;> simp
  simp only [hp] at hd
  rw [← hd]
  unfold mergeCompiler
  by_cases h1 : a.kind = b.kind
  · by_cases h2 : a.name = b.name
    · by_cases h3 : sameKeys a.profs b.profs = true
      · rw [if_neg (by simp [h1]), if_neg (by simp [h2]), if_neg (by simp [h3])]
        have h3' := (sameKeys_iff _ _).1 h3
        cases hm : mergeDict (mergeProf ops) b.profs a.profs with
        | error e => simp
        | ok r => simp [h1, h2, h3']
      · have h3' : ¬ ∀ t, t ∈ PyDict.keys a.profs ↔ t ∈ PyDict.keys b.profs := fun h => h3 ((sameKeys_iff _ _).2 h)
        simp [h1, h2, h3, h3']
    · simp [h1, h2]
  · simp [h1]

/-- **When two columns can be merged**: the same name, samples on both sides, the same sets of compilers and of
profiles, and every two profiles can be merged. -/
theorem C20_column_ok_iff (ops : Ops σ) (a b : Col σ) :
    (∃ c, mergeCol ops a b = .ok c) ↔ a.name = b.name ∧ 0 < a.base.sampleSize ∧ 0 < b.base.sampleSize ∧
      (∀ k, k ∈ PyDict.keys a.compilers ↔ k ∈ PyDict.keys b.compilers) ∧
      ∀ kc ∈ a.compilers, ∃ d, PyDict.get? b.compilers kc.1 = some d ∧ kc.2.kind = d.kind ∧ kc.2.name = d.name ∧
        (∀ t, t ∈ PyDict.keys kc.2.profs ↔ t ∈ PyDict.keys d.profs) ∧
        ∀ tp ∈ kc.2.profs, ∃ q, PyDict.get? d.profs tp.1 = some q ∧ ∃ s, ops.merge tp.1 tp.2.state q.state = .ok s := by
  have hd := mergeDict_ok_iff (fun _ => mergeCompiler ops) b.compilers a.compilers
  simp only [mergeCompiler_ok_iff] at hd
  rw [← hd]
  have hs : (∃ s, mergeState a.base b.base = .ok s) ↔ 0 < a.base.sampleSize ∧ 0 < b.base.sampleSize := by
    unfold mergeState updateBase ColState.asBase
    by_cases h1 : a.base.sampleSize = 0
    · simp [h1]
    · by_cases h2 : b.base.sampleSize = 0
      · simp [h1, h2]
      · simp [h1, h2]
        omega
  unfold mergeCol
  by_cases h1 : a.name = b.name
  · by_cases h2 : sameKeys a.compilers b.compilers = true
    · rw [if_neg (by simp [h1]), if_neg (by simp [h2])]
      have h2' := (sameKeys_iff _ _).1 h2
      cases hm : mergeState a.base b.base with
      | error e =>
        have : ¬ (0 < a.base.sampleSize ∧ 0 < b.base.sampleSize) := by
          rw [← hs, hm]
          simp
        simp only [reduceCtorEq, exists_false, false_iff]
        tauto
      | ok s =>
        have := hs.1 ⟨s, hm⟩
        cases hm : mergeDict (fun _ => mergeCompiler ops) b.compilers a.compilers with
        | error e => simp
        | ok r => simp [h1, h2', this]
    · have h2' : ¬ ∀ k, k ∈ PyDict.keys a.compilers ↔ k ∈ PyDict.keys b.compilers := fun h => h2 ((sameKeys_iff _ _).2 h)
      simp [h1, h2, h2']
  · simp [h1]

/-- **Refusals**: unmatched names, or row options that differ, raise ValueError and change nothing. -/
theorem C20_refused (env : Env σ η) (hl : Idem env.lower) (a b : TableProf σ η) (an bn : List Key)
    (ha : a.schema = schemaOf env.lower an) (hb : b.schema = schemaOf env.lower bn)
    (h : an = [] ∨ bn = [] ∨ ¬ Compatible (names env.lower an) (names env.lower bn) ∨ a.opts ≠ b.opts) :
    mergeTable env a b = (.error .valueError, a) := by
  have hchk : addChecks env a b = .error .valueError := by
    unfold addChecks
    rw [ha, hb]
    cases hm : getMapping env.lower (schemaOf env.lower an) (schemaOf env.lower bn) true with
    | error e => simp only; rw [C19_only_value_error hl an bn true e hm]
    | ok m =>
      simp only
      have hne1 : an ≠ [] := by
        intro h0
        rw [h0, (C19_empty (lower := env.lower) bn).2.2] at hm
        cases hm
      have hne2 : bn ≠ [] := by
        intro h0
        rw [h0, (C19_empty (lower := env.lower) an).2.1] at hm
        cases hm
      have hc := (C19_ok_iff hl an bn true hne1 hne2).1 ⟨m, hm⟩
      have ho : a.opts ≠ b.opts := by tauto
      split_ifs with h1 h2 h3 h4
      · rfl
      · rfl
      · rfl
      · rfl
      · exfalso
        apply ho
        cases ha : a.opts
        cases hb : b.opts
        rw [ha, hb] at h1 h2 h3 h4
        simp only [ne_eq, not_not] at h1 h2 h3 h4
        rw [h1, h2, h3, h4]
  unfold mergeTable
  rw [hchk]

/-- With full row hashing a merge never changes its first operand, whether it succeeds or not. -/
theorem C20_operand_unchanged (env : Env σ η) (a b : TableProf σ η)
    (hr : ∃ hs, a.rows = .full hs) : (mergeTable env a b).2 = a := by
  obtain ⟨hs, hr⟩ := hr
  have hq : (mergeRows env.hll a.opts a.rows b.rows).2 = a.rows := by
    unfold mergeRows
    rw [hr]
    split_ifs
    · cases b.rows <;> rfl
    · rfl
  unfold mergeTable
  cases addChecks env a b with
  | error e => rfl
  | ok _ =>
    dsimp only
    rw [hq]
    cases getMapping env.lower a.schema b.schema false with
    | error e => rfl
    | ok m =>
      dsimp only
      cases mergeCols env.ops m b.cols 0 a.cols <;> rfl

/-! ## All histories -/

/-- The sampled rows of every column, as columns. -/
def column (rows : List (List String)) (p : ℕ) : List String := rows.map fun row => row.getD p ""

/-- **All the data**: after any history of updates (in any batches, with any worker pools, columns in any order) and
merges, every column of the profile carries its own name and describes exactly the sampled cells of the columns of that
name: sample size, null count, null rows per null text, and every statistic obeying its law describes the non-null
cells. -/
theorem C20_describes (env : Env σ η) (hl : Idem env.lower) (hset : ∀ l, (env.setOrder l).Perm l) (isn : String → Bool)
    (hisn : ∀ p j, env.isNull p j = isn) (P : String → σ → List String → Prop) (hP : Law env.ops P) (h : Hist)
    (hf : h.Fair) (hs : h.Sensible) (t : TableProf σ η) (ht : run env h = .ok t) :
    t.cols.length = h.names.length ∧ t.total = h.rows.length ∧
    ∃ rows, Sampled env.lower h rows ∧ ∀ p c, t.cols[p]? = some c →
      c.name = h.names[p]? ∧ ColDescribes isn P c (column rows p) := by
  obtain ⟨V, r, hi⟩ := tinv_run env hl hset isn hisn P hP h hf hs t ht
  refine ⟨hi.len, hi.total, V.map Prod.snd, hi.sampled, ?_⟩
  intro p c hc
  refine ⟨hi.name p c hc, ?_⟩
  obtain ⟨f, _⟩ := hi.base p c hc
  have htexts : (cellsOf V p).map Prod.snd = column (V.map Prod.snd) p := by
    unfold cellsOf column
    rw [List.map_map, List.map_map]
    rfl
  have hnull : (nullCells isn (cellsOf V p)).map Prod.snd = (column (V.map Prod.snd) p).filter isn := by
    rw [← htexts]
    unfold nullCells
    rw [List.filter_map]
    rfl
  constructor
  · have := f.inv.sampleSize
    rw [← htexts, List.length_map]
    exact this
  · have := f.inv.nullCount
    rw [List.countP_eq_length_filter, ← hnull, List.length_map]
    exact this
  · intro t'
    have := f.inv.keys t'
    rw [hnull, List.mem_filter] at this
    exact this
  · intro t' hn
    have := (f.inv.rows t').2
    refine this.trans ?_
    have e : (nullCells isn (cellsOf V p)).countP (fun c => c.2 = t') =
        ((nullCells isn (cellsOf V p)).map Prod.snd).countP (fun s => s = t') := by
      rw [List.countP_map]; rfl
    rw [e, hnull, List.countP_filter, List.count]
    apply List.countP_congr
    intro x _
    simp only [Bool.and_eq_true, decide_eq_true_eq, beq_iff_eq]
    constructor
    · exact fun h => h.1
    · rintro rfl; exact ⟨rfl, hn⟩
  · have := hi.profs p c hc
    have e : valuesOf isn V p = (column (V.map Prod.snd) p).filter fun t => !isn t := by
      unfold valuesOf column
      rw [List.map_map]
      rfl
    rw [e] at this
    exact this

/-- All rows given to a profile, rearranged for its columns. -/
def Hist.table (lower : String → String) : Hist → List (List String)
  | .new _ => []
  | .update h pool u => h.table lower ++ u.data.rows.map fun r => align lower u.data.names (Hist.update h pool u).names r.2
  | .merge h1 h2 => h1.table lower ++ (h2.table lower).map (align lower h2.names h1.names)

/-- Every batch is profiled completely. -/
def Hist.Whole : Hist → Prop
  | .new _ => True
  | .update h _ u => h.Whole ∧ u.data.rows.length ≤ u.sampleSize
  | .merge h1 h2 => h1.Whole ∧ h2.Whole

theorem rowsAt_range (d : Data) : rowsAt d (List.range d.rows.length) = d.rows := by
  unfold rowsAt
  apply List.ext_getElem?
  intro i
  have : (List.range d.rows.length).filterMap (d.rows[·]?) = d.rows := by
    have h : (List.range d.rows.length).map (d.rows[·]?) = d.rows.map some := by
      apply List.ext_getElem
      · simp
      · intro i h1 h2
        simp at h1
        simp [h1]
    calc (List.range d.rows.length).filterMap (d.rows[·]?)
        = ((List.range d.rows.length).map (d.rows[·]?)).filterMap id := by rw [List.filterMap_map]; rfl
      _ = (d.rows.map some).filterMap id := by rw [h]
      _ = d.rows := by rw [List.filterMap_map]; exact List.filterMap_some
  rw [this]

/-- Complete samples: what is described is the whole table. -/
theorem C20_whole_table (lower : String → String) (h : Hist) (hw : h.Whole) (rows : List (List String))
    (hs : Sampled lower h rows) : rows = h.table lower := by
  induction hs with
  | new o => rfl
  | nothing he hs ih =>
    rw [Hist.table, he, List.map_nil, List.append_nil]
    exact ih hw.1
  | @update h rs pool u ids he hs hi ih =>
    have hids : ids = List.range u.data.rows.length := by
      have hlen : ids.length = u.data.rows.length := by rw [hi.length]; exact Nat.min_eq_right hw.2
      have hperm : ids.Perm (List.range u.data.rows.length) := by
        apply (List.subperm_of_subset (hi.sorted.imp fun h => Nat.ne_of_lt h) fun i hm => ?_).perm_of_length_le
        · rw [List.length_range, hlen]
        · exact List.mem_range.2 (hi.bound i hm)
      exact hperm.eq_of_pairwise (le := (· < ·)) (fun a b _ _ h1 h2 => by omega) hi.sorted List.pairwise_lt_range
    rw [Hist.table, hids, rowsAt_range, ih hw.1]
  | merge s1 s2 ih1 ih2 => rw [Hist.table, ih1 hw.1, ih2 hw.2]

/-! ## A concrete case, and what does not hold -/

theorem toy_law : Law toyOps (fun _ s vs => s = vs) := by
  constructor
  · intro t name s h
    cases h
    rfl
  · rintro t s vs ws s' rfl h
    simp only [toyOps] at h
    split_ifs at h
    cases h
    rfl
  · rintro t s1 s2 vs ws s' rfl rfl h
    cases h
    rfl

example : Idem toyEnv.lower := fun _ => rfl

/-- Two profiles, the second with permuted columns. -/
def toyHist : Hist :=
  .merge (.update (.new ⟨true, true, true, .full⟩) none (toyUpd [.str "a", .str "b"] [(0, ["x", "1"]), (1, ["y", ""])]))
    (.update (.new ⟨true, true, true, .full⟩) (some toySched) (toyUpd [.str "b", .str "a"] [(0, ["2", "z"]), (1, ["", ""])]))

example : (run toyEnv toyHist).map (fun t => (t.total, t.hasNull, t.isNull, t.cols.map view)) =
    .ok (4, 2, 1, [⟨some (.str "a"), 4, 1, [("int", ["x", "y", "z"]), ("text", ["x", "y", "z"])]⟩,
      ⟨some (.str "b"), 4, 2, [("int", ["1", "2"]), ("text", ["1", "2"])]⟩]) := by decide +kernel

example : toyHist.Sensible ∧ toyHist.Whole := by
  refine ⟨⟨⟨trivial, fun _ => ⟨by decide, by decide, by decide, by decide, rfl, ?_⟩⟩,
    ⟨trivial, fun _ => ⟨by decide, by decide, by decide, by decide, rfl, ?_⟩⟩⟩, ⟨trivial, by decide⟩, ⟨trivial, by decide⟩⟩
  all_goals
    intro j hj
    exact ⟨Nat.le_refl _, hj⟩

example : toyHist.table toyEnv.lower = [["x", "1"], ["y", ""], ["z", "2"], ["", ""]] := by decide +kernel

/-- Toy profiles whose merge of type "int" always raises. -/
def brokenEnv : Env (List String) ℕ :=
  { toyEnv with ops := { toyOps with merge := fun t a b => if t = "int" then .error .typeError else .ok (a ++ b) } }

/-- **Counterexample**: with HyperLogLog row counting, a merge that raises has already changed the first operand's row
sketch. -/
theorem C20_raises_and_changes_fails : ∃ (a b : TableProf (List String) ℕ),
    run brokenEnv (.update (.new ⟨true, true, true, .hll 15 0⟩) none (toyUpd [.str "a"] [(0, ["x"])])) = .ok a ∧
    run brokenEnv (.update (.new ⟨true, true, true, .hll 15 0⟩) none (toyUpd [.str "a"] [(0, ["y"]), (1, ["z"])])) = .ok b ∧
    (mergeTable brokenEnv a b).1.isOk = false ∧
    duplicates brokenEnv.hll a = some 0 ∧ uniqueRatio brokenEnv.hll a = some 1 ∧
    uniqueRatio brokenEnv.hll (mergeTable brokenEnv a b).2 = some 3 :=
  ⟨_, _, rfl, rfl, by decide +kernel, by decide +kernel, by decide +kernel, by decide +kernel⟩

/-- Toy environment in which "A" and "a" are the same name. -/
def caseEnv : Env (List String) ℕ := { toyEnv with lower := toyLower }

/-- **Counterexample**: names that differ only in case are matched, yet the merge raises. -/
theorem C20_case_fails : Compatible (names toyLower [.str "a"]) (names toyLower [.str "A"]) ∧
    ∃ (a b : TableProf (List String) ℕ),
    run caseEnv (.update (.new ⟨true, true, true, .full⟩) none (toyUpd [.str "a"] [(0, ["x"])])) = .ok a ∧
    run caseEnv (.update (.new ⟨true, true, true, .full⟩) none (toyUpd [.str "A"] [(0, ["y"])])) = .ok b ∧
    (mergeTable caseEnv a b).1.isOk = false := by
  refine ⟨?_, _, _, rfl, rfl, by decide +kernel⟩
  have : names toyLower [.str "a"] = names toyLower [.str "A"] := by decide
  rw [this]
  exact fun k => ⟨rfl, fun _ => rfl⟩

end Verif.Table
