import Verif.Lemmas.TableMerge

/-!
# C21 — profiling with a worker pool gives the serial result

A table is profiled column by column, with up to two worker pools: one detects the nulls of all columns, one updates the
profiles of each column.  Submissions may be refused, results may be lost, workers may finish in any order; whatever
failed is run again in the main process, in any order.  The resulting profile is the serial one, up to the flags that
remember which profiles could not be sent to a worker.
-/

namespace Verif.Table

open Verif Verif.Schema Verif.Nulls Verif.SchemaSpec

variable {σ η : Type}

theorem cols_nil_of_norm {as bs : List (Col σ)} (h : as.map Col.norm = bs.map Col.norm) : as = [] ↔ bs = [] := by
  have := congrArg List.length h
  simp only [List.length_map] at this
  rw [← List.length_eq_zero_iff, ← List.length_eq_zero_iff, this]

theorem norm_fields {t t' : TableProf σ η} (h : t.norm = t'.norm) :
    t.cols.map Col.norm = t'.cols.map Col.norm ∧ t.opts = t'.opts ∧ t.rows = t'.rows ∧ t.total = t'.total ∧
      t.schema = t'.schema ∧ t.hasNull = t'.hasNull ∧ t.isNull = t'.isNull := by
  have h' := h
  simp only [TableProf.norm, TableProf.mk.injEq] at h'
  tauto

theorem rowStats_norm (env : Env σ η) (u : Upd) (t t' : TableProf σ η) (h : t.norm = t'.norm) :
    (rowStats env u t).norm = (rowStats env u t').norm := by
  obtain ⟨hc, hopts, hrows, htot, hsch, hhn, hin⟩ := norm_fields h
  have hlab : sampledLabels u t.cols = sampledLabels u t'.cols := by
    have e : ∀ cols : List (Col σ), sampledLabels u cols = sampledLabels u (cols.map Col.norm) := by
      intro cols
      unfold sampledLabels minSampledFromBatch
      rw [List.filterMap_map]
      rfl
    rw [e t.cols, e t'.cols, hc]
  have hcn : ∀ ls, t.cols.map (countedNulls ls) = t'.cols.map (countedNulls ls) := by
    intro ls
    have e : ∀ cols : List (Col σ), cols.map (countedNulls ls) = (cols.map Col.norm).map (countedNulls ls) := by
      intro cols
      rw [List.map_map]
      rfl
    rw [e t.cols, e t'.cols, hc]
  unfold rowStats
  dsimp only
  simp only [hlab, hcn, hopts, hrows, hhn, hin]
  split_ifs <;> simp [TableProf.norm, hc, htot, hsch]

theorem updateTable_iff (env : Env σ η) (pool : Option TableSched) (u : Upd) (t t' : TableProf σ η)
    (hne : u.data.rows ≠ []) :
    updateTable env pool u t = .ok t' ↔ ∃ m st cols',
      getMapping env.lower (schemaOf env.lower u.data.names) t.schema false = .ok m ∧
      phase1 env pool u m (if t.cols = [] then u.data.names.map fun _ => Col.new else t.cols) = .ok st ∧
      phase2 env (pool.map (·.profs)) (sourceName u.data m) st.cleaned st.cols (PyDict.keys st.cleaned) = .ok cols' ∧
      t' = (if t.opts.enabled then
        rowStats env u { t with cols := cols', schema := if t.cols = [] then schemaOf env.lower u.data.names else t.schema, total := t.total + u.data.rows.length }
        else { t with cols := cols', schema := if t.cols = [] then schemaOf env.lower u.data.names else t.schema, total := t.total + u.data.rows.length }) := by
  unfold updateTable
  rw [if_neg hne]
  cases h1 : getMapping env.lower (schemaOf env.lower u.data.names) t.schema false with
  | error e => simp
  | ok m =>
    dsimp only
    cases h2 : phase1 env pool u m (if t.cols = [] then u.data.names.map fun _ => Col.new else t.cols) with
    | error e =>
      simp only [reduceCtorEq, Except.ok.injEq, false_iff, not_exists, not_and]
      rintro m' st cols' rfl hst
      rw [h2] at hst
      cases hst
    | ok st =>
      dsimp only
      cases h3 : phase2 env (pool.map (·.profs)) (sourceName u.data m) st.cleaned st.cols (PyDict.keys st.cleaned) with
      | error e =>
        simp only [reduceCtorEq, Except.ok.injEq, false_iff, not_exists, not_and]
        rintro m' st' cols' rfl hst
        rw [h2] at hst
        cases hst
        simp [h3]
      | ok cols =>
        simp only [Except.ok.injEq]
        constructor
        · rintro rfl
          exact ⟨m, st, cols, rfl, h2, h3, rfl⟩
        · rintro ⟨m', st', cols', rfl, hst, hc, rfl⟩
          rw [h2] at hst
          cases hst
          rw [h3] at hc
          cases hc
          rfl

theorem map_new_norm (l : List Key) : (l.map fun _ => (Col.new : Col σ)).map Col.norm = l.map fun _ => Col.new := by
  rw [List.map_map]
  rfl

theorem start_norm (names : List Key) (t t' : TableProf σ η) (h : t.norm = t'.norm) :
    (if t.cols = [] then names.map fun _ => Col.new else t.cols).map Col.norm =
      (if t'.cols = [] then names.map fun _ => Col.new else t'.cols).map Col.norm := by
  obtain ⟨hc, hopts, hrows, htot, hsch, hhn, hin⟩ := norm_fields h
  simp only [cols_nil_of_norm hc]
  split_ifs
  · rfl
  · exact hc

theorem start_wf (names : List Key) (cols : List (Col σ)) (h : ColsWF cols) :
    ColsWF (if cols = [] then names.map fun _ => Col.new else cols) := by
  split_ifs
  · intro c hc
    obtain ⟨_, _, rfl⟩ := List.mem_map.1 hc
    intro kc hkc
    simp [Col.new] at hkc
  · exact h

theorem fair_profs {pool : Option TableSched} (hp : ∀ s ∈ pool, s.Fair) : ∀ s ∈ pool.map (·.profs), s.Fair := by
  intro s hs
  cases pool with
  | none => simp at hs
  | some x =>
    simp only [Option.map_some, Option.mem_def, Option.some.injEq] at hs
    subst hs
    exact (hp x rfl).profs

/-- One update: the pool and earlier flags do not matter. -/
theorem update_same (env : Env σ η) (hl : Idem env.lower) (pool pool' : Option TableSched) (hp : ∀ s ∈ pool, s.Fair)
    (hp' : ∀ s ∈ pool', s.Fair) (u : Upd) (t t' r : TableProf σ η) (ht : Shaped env.lower t) (ht' : Shaped env.lower t')
    (hn : t.norm = t'.norm) (h : updateTable env pool u t = .ok r) :
    ∃ r', updateTable env pool' u t' = .ok r' ∧ r'.norm = r.norm := by
  by_cases hne : u.data.rows = []
  · unfold updateTable at h ⊢
    rw [if_pos hne] at h ⊢
    cases h
    exact ⟨t', rfl, hn.symm⟩
  rw [updateTable_iff env pool u t r hne] at h
  obtain ⟨m, st, cols', h1, h2, h3, h4⟩ := h
  obtain ⟨hc, hopts, hrows, htot, hsch, hhn, hin⟩ := norm_fields hn
  have hi := inj_of_mapping hl t ht _ m h1
  obtain ⟨st', g2, g3, g4, w, w'⟩ := phase1_same_aux env pool pool' hp hp' u m _ _ hi (start_norm u.data.names t t' hn) st h2
  have hwf := phase1_wf env pool hp u m _ hi st h2 (start_wf _ _ ht.wf)
  have hwf' := phase1_wf env pool' hp' u m _ hi st' g2 (start_wf _ _ ht'.wf)
  obtain ⟨ds', k1, k2⟩ := phase2_same_aux env _ _ (fair_profs hp) (fair_profs hp') (sourceName u.data m) st.cleaned
    st'.cleaned (fun p => (g4 p).symm) st.cols st'.cols hwf hwf' g3.symm _ _ w w' (by
      intro p
      rw [PyDict.mem_keys_iff, PyDict.mem_keys_iff, g4]) cols' h3
  refine ⟨_, (updateTable_iff env pool' u t' _ hne).2 ⟨m, st', ds', hsch ▸ h1, g2, k1, rfl⟩, ?_⟩
  rw [h4, hopts, htot, hsch]
  simp only [cols_nil_of_norm hc]
  split_ifs
  all_goals first
    | (apply rowStats_norm; simp [TableProf.norm, k2, hhn, hin, hrows])
    | simp [TableProf.norm, k2, hhn, hin, hrows]

theorem rowStats_cols (env : Env σ η) (u : Upd) (t : TableProf σ η) :
    (rowStats env u t).cols = t.cols ∧ (rowStats env u t).schema = t.schema ∧ (rowStats env u t).opts = t.opts ∧
      (rowStats env u t).total = t.total := by
  unfold rowStats
  dsimp only
  split_ifs <;> exact ⟨rfl, rfl, rfl, rfl⟩

theorem update_shaped (env : Env σ η) (hl : Idem env.lower) (pool : Option TableSched) (hp : ∀ s ∈ pool, s.Fair)
    (u : Upd) (t r : TableProf σ η) (ht : Shaped env.lower t) (h : updateTable env pool u t = .ok r) :
    Shaped env.lower r := by
  by_cases hne : u.data.rows = []
  · unfold updateTable at h
    rw [if_pos hne] at h
    cases h
    exact ht
  rw [updateTable_iff env pool u t r hne] at h
  obtain ⟨m, st, cols', h1, h2, h3, h4⟩ := h
  have hi := inj_of_mapping hl t ht _ m h1
  obtain ⟨d, w⟩ := (phase1_spec env pool hp u m _ hi).2 st h2
  have hwf := phase1_wf env pool hp u m _ hi st h2 (start_wf _ _ ht.wf)
  have hwf2 := phase2_wf env _ (fair_profs hp) _ _ _ _ _ w hwf h3
  obtain ⟨l1, _⟩ := (phase2_iff env _ _ _ _ _ w cols').1 h3
  have hcols : r.cols = cols' := by
    rw [h4]; split_ifs <;> first | rfl | exact (rowStats_cols _ _ _).1
  have hschema : r.schema = if t.cols = [] then schemaOf env.lower u.data.names else t.schema := by
    rw [h4]; split_ifs <;> first | rfl | exact (rowStats_cols _ _ _).2.1
  have hlen : cols'.length = (if t.cols = [] then u.data.names.map fun _ => Col.new else t.cols).length := by
    rw [l1, d.len]
  constructor
  · rw [hcols, hschema]
    by_cases hc : t.cols = []
    · rw [if_pos hc] at hlen ⊢
      rw [List.length_map] at hlen
      by_cases hnm : u.data.names = []
      · left
        rw [hnm] at hlen ⊢
        exact ⟨List.length_eq_zero_iff.1 (by simpa using hlen), rfl⟩
      · exact .inr ⟨u.data.names, hnm, rfl, hlen.symm⟩
    · rw [if_neg hc] at hlen ⊢
      rcases ht.schema with ⟨h, _⟩ | ⟨ns, k1, k2, k3⟩
      · exact absurd h hc
      · exact .inr ⟨ns, k1, k2, by rw [k3, hlen]⟩
  · rw [hcols]
    exact hwf2

theorem merge_shaped (env : Env σ η) (a b r : TableProf σ η) (ha : Shaped env.lower a)
    (h : (mergeTable env a b).1 = .ok r) : Shaped env.lower r := by
  obtain ⟨_, m, cs, _, h2, rfl⟩ := (mergeTable_iff env a b r).1 h
  obtain ⟨l1, l2⟩ := (mergeCols_spec env.ops m b.cols 0 a.cols cs).1 h2
  constructor
  · dsimp only
    rcases ha.schema with ⟨k1, k2⟩ | ⟨ns, k1, k2, k3⟩
    · left
      rw [k1] at l1
      exact ⟨List.length_eq_zero_iff.1 (by simpa using l1), k2⟩
    · exact .inr ⟨ns, k1, k2, by rw [k3, l1]⟩
  · intro c hc
    dsimp only at hc
    obtain ⟨k, hk⟩ := List.mem_iff_getElem?.1 hc
    have hlt : k < a.cols.length := by rw [← l1]; exact (List.getElem?_eq_some_iff.1 hk).1
    obtain ⟨j, b', r', _, _, g3, g4⟩ := l2 k a.cols[k] (List.getElem?_eq_getElem hlt)
    rw [hk] at g4
    cases g4
    exact mergeCol_wf _ _ _ _ g3 (ha.wf _ (List.getElem_mem hlt))

theorem run_shaped (env : Env σ η) (hl : Idem env.lower) (h : Hist) (hf : h.Fair) (t : TableProf σ η)
    (ht : run env h = .ok t) : Shaped env.lower t := by
  induction h generalizing t with
  | new o =>
    cases ht
    exact ⟨.inl ⟨rfl, rfl⟩, fun c hc => by simp [TableProf.new] at hc⟩
  | update h pool u ih =>
    rw [run] at ht
    cases h1 : run env h with
    | error e => simp [h1] at ht
    | ok t0 =>
      simp only [h1] at ht
      exact update_shaped env hl pool hf.2 u t0 t (ih hf.1 t0 h1) ht
  | merge h1 h2 ih1 ih2 =>
    rw [run] at ht
    cases g1 : run env h1 with
    | error e => simp [g1] at ht
    | ok a =>
      cases g2 : run env h2 with
      | error e => simp [g1, g2] at ht
      | ok b =>
        simp only [g1, g2] at ht
        exact merge_shaped env a b t (ih1 hf.1 a g1) ht

/-- Histories that differ only in their pools. -/
inductive Alike : Hist → Hist → Prop where
  | new (o : RowOpts) : Alike (.new o) (.new o)
  | update {h h' : Hist} (p p' : Option TableSched) (u : Upd) (a : Alike h h') : Alike (.update h p u) (.update h' p' u)
  | merge {h1 h1' h2 h2' : Hist} (a1 : Alike h1 h1') (a2 : Alike h2 h2') : Alike (.merge h1 h2) (.merge h1' h2')

theorem alike_serial (h : Hist) : Alike h h.serial ∧ Alike h.serial h := by
  induction h with
  | new o => exact ⟨.new o, .new o⟩
  | update h p u ih => exact ⟨.update _ _ _ ih.1, .update _ _ _ ih.2⟩
  | merge h1 h2 ih1 ih2 => exact ⟨.merge ih1.1 ih2.1, .merge ih1.2 ih2.2⟩

theorem serial_fair (h : Hist) : h.serial.Fair := by
  induction h with
  | new o => trivial
  | update h p u ih => exact ⟨ih, by simp⟩
  | merge h1 h2 ih1 ih2 => exact ⟨ih1, ih2⟩

theorem run_alike (env : Env σ η) (hl : Idem env.lower) {h h' : Hist} (ha : Alike h h') (hf : h.Fair) (hf' : h'.Fair)
    (t : TableProf σ η) (ht : run env h = .ok t) : ∃ t', run env h' = .ok t' ∧ t'.norm = t.norm := by
  induction ha generalizing t with
  | new o => exact ⟨t, ht, rfl⟩
  | @update h h' p p' u a ih =>
    rw [run] at ht ⊢
    cases h1 : run env h with
    | error e => simp [h1] at ht
    | ok t0 =>
      simp only [h1] at ht
      obtain ⟨t0', g1, g2⟩ := ih hf.1 hf'.1 t0 h1
      rw [g1]
      exact update_same env hl p p' hf.2 hf'.2 u t0 t0' t (run_shaped env hl h hf.1 t0 h1)
        (run_shaped env hl h' hf'.1 t0' g1) g2.symm ht
  | @merge h1 h1' h2 h2' a1 a2 ih1 ih2 =>
    rw [run] at ht ⊢
    cases g1 : run env h1 with
    | error e => simp [g1] at ht
    | ok a =>
      cases g2 : run env h2 with
      | error e => simp [g1, g2] at ht
      | ok b =>
        simp only [g1, g2] at ht
        obtain ⟨a', k1, k2⟩ := ih1 hf.1 hf'.1 a g1
        obtain ⟨b', k3, k4⟩ := ih2 hf.2 hf'.2 b g2
        rw [k1, k3]
        refine ⟨t, ?_, rfl⟩
        change (mergeTable env a' b').1 = _
        rw [← mergeTable_norm, k2, k4, mergeTable_norm]
        exact ht

/-- **Pooled equals serial**: for every history of updates and merges, whatever the pools do, the profile is the serial
one up to scheduling flags; and one exists exactly when the serial one does. -/
theorem C21_pool_equals_serial (env : Env σ η) (hl : Idem env.lower) (h : Hist) (hf : h.Fair) :
    (∀ t, run env h = .ok t → ∃ t', run env h.serial = .ok t' ∧ t'.norm = t.norm) ∧
    (∀ t', run env h.serial = .ok t' → ∃ t, run env h = .ok t ∧ t.norm = t'.norm) :=
  ⟨fun t ht => run_alike env hl (alike_serial h).1 hf (serial_fair h) t ht,
   fun t ht => run_alike env hl (alike_serial h).2 (serial_fair h) hf t ht⟩

/-- **Each column once**: after one update with any pool, each data column has been accounted for exactly once: the base
statistics of its profile column were updated with its own cleaning result, each of its profiles was updated exactly
once with its cleaned values, and profile columns without data are untouched. -/
theorem C21_each_column_once (env : Env σ η) (hl : Idem env.lower) (pool : Option TableSched) (hp : ∀ s ∈ pool, s.Fair)
    (u : Upd) (t t' : TableProf σ η) (ht : Shaped env.lower t) (hne : u.data.rows ≠ [])
    (h : updateTable env pool u t = .ok t') :
    ∃ m, getMapping env.lower (schemaOf env.lower u.data.names) t.schema false = .ok m ∧
      (∀ j < u.data.names.length, ∃ p c c' vals b name s,
        PyDict.get? m j = some p ∧
        (if t.cols = [] then u.data.names.map fun _ => Col.new else t.cols)[p]? = some c ∧ t'.cols[p]? = some c' ∧
        cleanCol env u p j = .ok (vals, b) ∧ updateBase c.base b = .ok s ∧ c'.base = s ∧
        u.data.names[j]? = some name ∧ (c.name = none ∨ c.name = some name) ∧ c'.name = some name ∧
        List.Forall₂ (fun x y => y.1 = x.1 ∧ y.2.kind = x.2.kind ∧ y.2.name = x.2.name ∧
          List.Forall₂ (Updated env.ops vals) x.2.profs y.2.profs)
          (startComps env.ops env.kinds name c.compilers) c'.norm.compilers) ∧
      (∀ p : ℕ, (∀ j < u.data.names.length, PyDict.get? m j ≠ some p) →
        t'.cols[p]? = (if t.cols = [] then u.data.names.map fun _ => Col.new else t.cols)[p]?) := by
  obtain ⟨m, st, cols', h1, h2, h3, h4⟩ := (updateTable_iff env pool u t t' hne).1 h
  have hi := inj_of_mapping hl t ht _ m h1
  obtain ⟨d, w⟩ := (phase1_spec env pool hp u m _ hi).2 st h2
  obtain ⟨l1, l2, l3⟩ := (phase2_iff env _ _ _ _ _ w cols').1 h3
  have hwf := phase1_wf env pool hp u m _ hi st h2 (start_wf _ _ ht.wf)
  have hcols : t'.cols = cols' := by
    rw [h4]; split_ifs <;> first | rfl | exact (rowStats_cols _ _ _).1
  refine ⟨m, h1, ?_, ?_⟩
  · intro j hj
    obtain ⟨p, c1, vals, hs, g1, g2⟩ := d.each j (List.mem_range.2 hj)
    obtain ⟨r, c, s, k1, k2, k3, k4, rfl, rfl⟩ := hs
    have hpk : p ∈ PyDict.keys st.cleaned := (PyDict.mem_keys_iff _ _).2 ⟨_, g2⟩
    obtain ⟨c', ⟨c2, vals2, name, e1, e2, e3, e4⟩, e5⟩ := l3 p hpk
    rw [g1] at e1; cases e1
    rw [g2] at e2; cases e2
    obtain ⟨f1, f2, f3, f4, f5, f6⟩ := (updateCol_norm_iff env.ops env.kinds _ (fair_profs hp) name r.1 _ c'.norm
      (hwf _ (List.mem_of_getElem? g1))).1 ⟨c', e4, rfl⟩
    have hv := mapping_values hl t ht u.data.names (by intro he; rw [he] at hj; simp at hj) m h1
    rw [sourceName_eq u.data hv (target_ok.1 k1)] at e3
    exact ⟨p, c, c', r.1, r.2, name, s, target_ok.1 k1, k3, by rw [hcols]; exact e5, k2, k4, f3, e3, f1, f2, f6⟩
  · intro p hp'
    have hno : ∀ j ∈ List.range u.data.names.length, target m j ≠ .ok p := fun j hj e =>
      hp' j (List.mem_range.1 hj) (target_ok.1 e)
    have hk : p ∉ PyDict.keys st.cleaned := by
      rw [PyDict.mem_keys_iff]
      rintro ⟨v, hv⟩
      rw [d.otherC p hno] at hv
      simp [PyDict.get?] at hv
    rw [hcols, l2 p hk, d.other p hno]

/-! ## A concrete case -/

/-- Toy profiles: the concatenation of all values; texts `"!"` cannot be processed. -/
def toyOps : Ops (List String) :=
  ⟨fun _ _ => .ok [], fun _ s v => if "!" ∈ v then .error .typeError else .ok (s ++ v), fun _ a b => .ok (a ++ b), fun t => t == "int"⟩

/-- Toy environment: empty texts are null. -/
def toyEnv : Env (List String) ℕ :=
  ⟨toyOps, ⟨fun _ _ => 0, fun n _ => n + 1, fun a b => a + b, id⟩, id, fun _ _ s => s == "", id,
    fun r => (r.map fun s => (s.length : ℤ)).sum, [("stats", ["int", "text"])]⟩

/-- A pool that refuses column 1, loses the result of column 0 and of profile "int", and finishes backwards. -/
def toySched : TableSched :=
  ⟨⟨fun j => j == 1, fun j => j == 0, List.reverse⟩, List.reverse, ⟨fun _ => false, fun t => t == "int", List.reverse⟩⟩

/-- A batch. -/
def toyUpd (ns : List Key) (rows : List (ℤ × List String)) : Upd := ⟨⟨ns, rows⟩, rows.length, 0, id⟩

example : toySched.Fair :=
  ⟨fun l => l.reverse_perm, fun l => l.reverse_perm, fun l => l.reverse_perm⟩

/-- What can be seen of a toy column. -/
structure View where
  name : Option Key
  size : ℕ
  nulls : ℕ
  profs : List (String × List String)
  deriving DecidableEq

/-- What can be seen of a toy column. -/
def view (c : Col (List String)) : View :=
  ⟨c.name, c.base.sampleSize, c.base.nullCount, c.compilers.flatMap fun kc => kc.2.profs.map fun tp => (tp.1, tp.2.state)⟩

-- two batches, the second with permuted columns, through a hostile pool
example : (run toyEnv (.update (.update (.new ⟨true, true, true, .full⟩) (some toySched)
      (toyUpd [.str "a", .str "b"] [(0, ["x", "1"]), (1, ["y", ""])])) (some toySched)
      (toyUpd [.str "b", .str "a"] [(0, ["2", "z"]), (1, ["", ""])]))).map
      (fun t => (t.total, t.hasNull, t.isNull, t.cols.map view)) =
    .ok (4, 2, 1, [⟨some (.str "a"), 4, 1, [("int", ["x", "y", "z"]), ("text", ["x", "y", "z"])]⟩,
      ⟨some (.str "b"), 4, 2, [("int", ["1", "2"]), ("text", ["1", "2"])]⟩]) := by decide +kernel

end Verif.Table
