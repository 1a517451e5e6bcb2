import Verif.Lemmas.Table
import Verif.Props.Schema

namespace Verif.Table

open Verif Verif.Schema Verif.Nulls Verif.SchemaSpec

variable {σ η : Type}

/-! ## Merging does not look at flags -/

theorem get?_mapval {α β : Type} (g : α → β) (d : PyDict String α) (k : String) :
    PyDict.get? (d.map fun kv => (kv.1, g kv.2)) k = (PyDict.get? d k).map g := by
  induction d with
  | nil => rfl
  | cons x d ih =>
    obtain ⟨k', v⟩ := x
    rw [List.map_cons, PyDict.get?_cons, PyDict.get?_cons, ih]
    split_ifs <;> rfl

theorem keys_mapval {α β : Type} (g : α → β) (d : PyDict String α) :
    PyDict.keys (d.map fun kv => (kv.1, g kv.2)) = PyDict.keys d := by
  simp [PyDict.keys, Function.comp_def]

theorem has_mapval {α β : Type} (g : α → β) (d : PyDict String α) (k : String) :
    PyDict.has (d.map fun kv => (kv.1, g kv.2)) k = PyDict.has d k := by
  rw [Bool.eq_iff_iff, PyDict.has_iff, PyDict.has_iff, keys_mapval]

theorem sameKeys_mapval {α β : Type} (g : α → β) (d e : PyDict String α) :
    sameKeys (d.map fun kv => (kv.1, g kv.2)) (e.map fun kv => (kv.1, g kv.2)) = sameKeys d e := by
  unfold sameKeys
  simp only [keys_mapval, has_mapval]

theorem mergeDict_mapval {α : Type} (f : String → α → α → Except Err α) (g : α → α)
    (hf : ∀ t a b, f t (g a) (g b) = f t a b) (d2 d1 : PyDict String α) :
    mergeDict f (d2.map fun kv => (kv.1, g kv.2)) (d1.map fun kv => (kv.1, g kv.2)) = mergeDict f d2 d1 := by
  induction d1 with
  | nil => rfl
  | cons x d ih =>
    obtain ⟨t, a⟩ := x
    rw [List.map_cons, mergeDict, mergeDict, get?_mapval, ih]
    cases PyDict.get? d2 t with
    | none => rfl
    | some b => simp only [Option.map_some, hf]

theorem mergeCompiler_norm (ops : Ops σ) (a b : Compiler σ) : mergeCompiler ops a.norm b.norm = mergeCompiler ops a b := by
  unfold mergeCompiler
  have h : mergeDict (mergeProf ops) b.norm.profs a.norm.profs = mergeDict (mergeProf ops) b.profs a.profs :=
    mergeDict_mapval _ Prof.norm (fun _ _ _ => rfl) _ _
  have h2 : sameKeys a.norm.profs b.norm.profs = sameKeys a.profs b.profs := sameKeys_mapval Prof.norm _ _
  rw [h, h2]
  rfl

theorem mergeCol_norm (ops : Ops σ) (a b : Col σ) : mergeCol ops a.norm b.norm = mergeCol ops a b := by
  unfold mergeCol
  have h : mergeDict (fun _ => mergeCompiler ops) b.norm.compilers a.norm.compilers =
      mergeDict (fun _ => mergeCompiler ops) b.compilers a.compilers :=
    mergeDict_mapval _ Compiler.norm (fun _ a b => mergeCompiler_norm ops a b) _ _
  have h2 : sameKeys a.norm.compilers b.norm.compilers = sameKeys a.compilers b.compilers :=
    sameKeys_mapval Compiler.norm _ _
  rw [h, h2]
  rfl

theorem mergeCols_norm (ops : Ops σ) (m : PyDict ℕ ℕ) (bs : List (Col σ)) (i : ℕ) (as : List (Col σ)) :
    mergeCols ops m (bs.map Col.norm) i (as.map Col.norm) = mergeCols ops m bs i as := by
  induction as generalizing i with
  | nil => rfl
  | cons a as ih =>
    rw [List.map_cons, mergeCols, mergeCols]
    cases target m i with
    | error e => rfl
    | ok j =>
      simp only [List.getElem?_map, ih]
      cases bs[j]? with
      | none => rfl
      | some d => simp only [Option.map_some, mergeCol_norm]

theorem mergeTable_norm (env : Env σ η) (a b : TableProf σ η) :
    (mergeTable env a.norm b.norm).1 = (mergeTable env a b).1 := by
  unfold mergeTable
  have h : addChecks env a.norm b.norm = addChecks env a b := rfl
  rw [h]
  cases addChecks env a b with
  | error e => rfl
  | ok _ =>
    dsimp only
    change (match getMapping env.lower a.schema b.schema false with
      | .error e => (_, _)
      | .ok m => _).1 = _
    cases getMapping env.lower a.schema b.schema false with
    | error e => rfl
    | ok m =>
      dsimp only
      have := mergeCols_norm env.ops m b.cols 0 a.cols
      change (match mergeCols env.ops m (b.cols.map Col.norm) 0 (a.cols.map Col.norm) with
        | .error e => (_, _)
        | .ok cs => _).1 = _
      rw [this]
      cases mergeCols env.ops m b.cols 0 a.cols with
      | error e => rfl
      | ok cs => rfl

/-! ## Merging preserves well-formedness -/

theorem mergeDict_iff {α : Type} (f : String → α → α → Except Err α) (d2 d1 r : PyDict String α) :
    mergeDict f d2 d1 = .ok r ↔ List.Forall₂ (fun x y => y.1 = x.1 ∧ ∃ b, PyDict.get? d2 x.1 = some b ∧
      f x.1 x.2 b = .ok y.2) d1 r := by
  induction d1 generalizing r with
  | nil =>
    rw [mergeDict, List.forall₂_nil_left_iff]
    constructor
    · intro h; cases h; rfl
    · rintro rfl; rfl
  | cons x d ih =>
    obtain ⟨t, a⟩ := x
    rw [mergeDict, List.forall₂_cons_left_iff]
    cases hg : PyDict.get? d2 t with
    | none => simp
    | some b =>
      simp only
      cases hf : f t a b with
      | error e => simp [hf]
      | ok s =>
        simp only
        cases hr : mergeDict f d2 d with
        | error e =>
          simp only [reduceCtorEq, false_iff, not_exists, not_and]
          intro _ u _ h
          rw [← ih, hr] at h
          cases h
        | ok rest =>
          simp only [← ih, hr, Except.ok.injEq, Option.some.injEq, exists_eq_left', hf]
          constructor
          · rintro rfl
            exact ⟨(t, s), rest, ⟨rfl, rfl⟩, rfl, rfl⟩
          · rintro ⟨⟨k', c''⟩, u, ⟨h1, h2⟩, h3, rfl⟩
            simp only at h1 h2
            subst h1 h2 h3
            rfl

theorem mergeCompiler_keys (ops : Ops σ) (a b c : Compiler σ) (h : mergeCompiler ops a b = .ok c) :
    PyDict.keys c.profs = PyDict.keys a.profs := by
  unfold mergeCompiler at h
  split_ifs at h
  cases hm : mergeDict (mergeProf ops) b.profs a.profs with
  | error e => simp [hm] at h
  | ok ps =>
    simp only [hm, Except.ok.injEq] at h
    subst h
    exact forall₂_keys (fun _ _ h => h.1) ((mergeDict_iff _ _ _ _).1 hm)

theorem mergeCol_wf (ops : Ops σ) (a b c : Col σ) (h : mergeCol ops a b = .ok c) (ha : CompsWF a.compilers) :
    CompsWF c.compilers := by
  unfold mergeCol at h
  split_ifs at h
  cases hs : mergeState a.base b.base with
  | error e => simp [hs] at h
  | ok s =>
    simp only [hs] at h
    cases hm : mergeDict (fun _ => mergeCompiler ops) b.compilers a.compilers with
    | error e => simp [hm] at h
    | ok cs =>
      simp only [hm, Except.ok.injEq] at h
      subst h
      intro kc hkc
      obtain ⟨x, hx, h1, b', _, h2⟩ := forall₂_mem_right ((mergeDict_iff _ _ _ _).1 hm) hkc
      unfold PyDict.WF
      rw [mergeCompiler_keys ops _ _ _ h2]
      exact ha x hx

/-- What merging the columns achieves. -/
theorem mergeCols_spec (ops : Ops σ) (m : PyDict ℕ ℕ) (bs : List (Col σ)) (i : ℕ) (as rs : List (Col σ)) :
    mergeCols ops m bs i as = .ok rs ↔ rs.length = as.length ∧ ∀ k a, as[k]? = some a →
      ∃ j b r, target m (i + k) = .ok j ∧ bs[j]? = some b ∧ mergeCol ops a b = .ok r ∧ rs[k]? = some r := by
  induction as generalizing i rs with
  | nil =>
    simp only [mergeCols, Except.ok.injEq, List.length_nil, List.length_eq_zero_iff, List.getElem?_nil, reduceCtorEq,
      false_implies, implies_true, and_true]
    exact eq_comm
  | cons a as ih =>
    rw [mergeCols]
    constructor
    · intro h
      cases h1 : target m i with
      | error e => simp [h1] at h
      | ok j =>
        simp only [h1] at h
        cases h2 : bs[j]? with
        | none => simp [h2] at h
        | some b =>
          simp only [h2] at h
          cases h3 : mergeCol ops a b with
          | error e => simp [h3] at h
          | ok r =>
            simp only [h3] at h
            cases h4 : mergeCols ops m bs (i + 1) as with
            | error e => simp [h4] at h
            | ok rs' =>
              simp only [h4, Except.ok.injEq] at h
              subst h
              obtain ⟨l1, l2⟩ := (ih (i + 1) rs').1 h4
              refine ⟨by simp [l1], ?_⟩
              intro k x hk
              cases k with
              | zero =>
                simp only [List.getElem?_cons_zero, Option.some.injEq] at hk
                subst hk
                exact ⟨j, b, r, h1, h2, h3, rfl⟩
              | succ k =>
                rw [List.getElem?_cons_succ] at hk
                obtain ⟨j', b', r', g1, g2, g3, g4⟩ := l2 k x hk
                exact ⟨j', b', r', by rw [← g1]; congr 1; omega, g2, g3, by rw [List.getElem?_cons_succ, g4]⟩
    · rintro ⟨l1, l2⟩
      obtain ⟨j, b, r, h1, h2, h3, h4⟩ := l2 0 a rfl
      rw [Nat.add_zero] at h1
      cases rs with
      | nil => simp at l1
      | cons r0 rs =>
        simp only [List.getElem?_cons_zero, Option.some.injEq] at h4
        subst h4
        have := (ih (i + 1) rs).2 ⟨by simpa using l1, by
          intro k x hk
          obtain ⟨j', b', r', g1, g2, g3, g4⟩ := l2 (k + 1) x (by rw [List.getElem?_cons_succ, hk])
          exact ⟨j', b', r', by rw [← g1]; congr 1; omega, g2, g3, by rw [List.getElem?_cons_succ] at g4; exact g4⟩⟩
        simp only [h1, h2, h3, this]

theorem mergeTable_iff (env : Env σ η) (a b t : TableProf σ η) :
    (mergeTable env a b).1 = .ok t ↔ addChecks env a b = .ok () ∧
      ∃ m cs, getMapping env.lower a.schema b.schema false = .ok m ∧ mergeCols env.ops m b.cols 0 a.cols = .ok cs ∧
        t = ⟨a.opts, a.total + b.total, if a.opts.enabled then a.hasNull + b.hasNull else 0,
          if a.opts.enabled then a.isNull + b.isNull else 0, (mergeRows env.hll a.opts a.rows b.rows).1, cs, a.schema⟩ := by
  unfold mergeTable
  cases h1 : addChecks env a b with
  | error e => simp
  | ok x =>
    cases x
    dsimp only
    cases h2 : getMapping env.lower a.schema b.schema false with
    | error e => simp
    | ok m =>
      dsimp only
      cases h3 : mergeCols env.ops m b.cols 0 a.cols with
      | error e =>
        simp only [reduceCtorEq, true_and, Except.ok.injEq, false_iff, not_exists, not_and]
        rintro m' cs rfl
        simp [h3]
      | ok cs =>
        simp only [Except.ok.injEq, true_and]
        constructor
        · rintro rfl
          exact ⟨m, cs, rfl, h3, rfl⟩
        · rintro ⟨m', cs', rfl, h4, rfl⟩
          rw [h3] at h4
          cases h4
          rfl

/-! ## Shape of a table profile -/

/-- The schema describes the columns, and dictionaries have distinct keys. -/
structure Shaped (lower : String → String) (t : TableProf σ η) : Prop where
  schema : (t.cols = [] ∧ t.schema = []) ∨ ∃ ns, ns ≠ [] ∧ t.schema = schemaOf lower ns ∧ ns.length = t.cols.length
  wf : ColsWF t.cols

theorem target_ok {m : PyDict ℕ ℕ} {i p : ℕ} : target m i = .ok p ↔ PyDict.get? m i = some p := by
  unfold target
  cases PyDict.get? m i <;> simp

/-- The mapping used for an update pairs every data column with its own profile column. -/
theorem mapping_values {lower : String → String} (hl : Idem lower) (t : TableProf σ η) (ht : Shaped lower t) (names : List Key)
    (hn : names ≠ []) (m : PyDict ℕ ℕ) (h : getMapping lower (schemaOf lower names) t.schema false = .ok m) :
    (PyDict.values m).Nodup := by
  rcases ht.schema with ⟨_, hs⟩ | ⟨ns, hns, hs, _⟩
  · obtain ⟨⟨m', h1, h2, h3⟩, _⟩ := C19_empty (lower := lower) names
    rw [hs] at h
    have : schemaOf lower [] = [] := rfl
    rw [this, h] at h1
    cases h1
    have hk : (PyDict.keys m).Nodup := h2.nodup_iff.2 List.nodup_range
    have : PyDict.values m = PyDict.keys m := by
      unfold PyDict.values PyDict.keys
      apply List.map_congr_left
      rintro ⟨i, j⟩ hij
      exact (h3 i j ((PyDict.mem_iff_get? hk i j).1 hij)).symm
    rw [this]
    exact hk
  · rw [hs] at h
    exact (C19_bijection hl names ns false hn hns m h).cod.nodup_iff.2 List.nodup_range

theorem sourceName_eq (d : Data) {m : PyDict ℕ ℕ} (hv : (PyDict.values m).Nodup) {j p : ℕ} (h : PyDict.get? m j = some p) :
    sourceName d m p = d.names[j]? := by
  have hm := PyDict.mem_of_get? h
  unfold sourceName
  cases hf : m.find? fun jp => jp.2 = p with
  | none =>
    have := List.find?_eq_none.1 hf _ hm
    simp at this
  | some jp =>
    have h1 := List.mem_of_find?_eq_some hf
    have h2 := List.find?_some hf
    simp only [decide_eq_true_eq] at h2
    have := List.inj_on_of_nodup_map hv h1 hm h2
    rw [this]
    rfl

theorem inj_of_mapping {lower : String → String} (hl : Idem lower) (t : TableProf σ η) (ht : Shaped lower t) (names : List Key)
    (m : PyDict ℕ ℕ) (h : getMapping lower (schemaOf lower names) t.schema false = .ok m) :
    Inj m (List.range names.length) := by
  intro i hi k hk p hip hkp
  rw [target_ok] at hip hkp
  have hn : names ≠ [] := by rintro rfl; simp at hi
  have hv := mapping_values hl t ht names hn m h
  exact congrArg Prod.fst (List.inj_on_of_nodup_map hv (PyDict.mem_of_get? hip) (PyDict.mem_of_get? hkp) rfl)

end Verif.Table
