import Verif.Spec.TableStats
import Verif.Props.TableMerge

/-! # When a table profile succeeds, and which profiles its columns have -/

namespace Verif.Table

open Verif Verif.Schema Verif.SchemaSpec Verif.Nulls Verif.NullsSpec Verif.Spec.TableStats

variable {σ η : Type}

/-- Operations that never fail on states that are about something. -/
structure Total (ops : Ops σ) (P : String → σ → List String → Prop) : Prop where
  init : ∀ t n n', (∃ s, ops.init t n = .ok s) → ∃ s, ops.init t n' = .ok s
  update : ∀ t s vs ws, P t s vs → ∃ s', ops.update t s ws = .ok s'
  merge : ∀ t s1 s2 vs ws, P t s1 vs → P t s2 ws → ∃ s', ops.merge t s1 s2 = .ok s'

theorem createProfs_keys (ops : Ops σ) (name : Key) (types : List String) (t : String) :
    t ∈ PyDict.keys (createProfs ops name types) ↔ t ∈ types ∧ ∃ s, ops.init t name = .ok s := by
  unfold createProfs
  have key : ∀ (l : List String) (d : PyDict String (Prof σ)),
      t ∈ PyDict.keys (l.foldl (fun d t => match ops.init t name with
        | .ok s => PyDict.set d t ⟨s, ops.safe t⟩
        | .error _ => d) d) ↔ t ∈ PyDict.keys d ∨ (t ∈ l ∧ ∃ s, ops.init t name = .ok s) := by
    intro l
    induction l with
    | nil => simp
    | cons x l ih =>
      intro d
      rw [List.foldl_cons, ih]
      cases hx : ops.init x name with
      | error e =>
        simp only [List.mem_cons]
        constructor
        · rintro (h | ⟨h, g⟩)
          · exact .inl h
          · exact .inr ⟨.inr h, g⟩
        · rintro (h | ⟨rfl | h, g⟩)
          · exact .inl h
          · rw [hx] at g; obtain ⟨_, g⟩ := g; cases g
          · exact .inr ⟨h, g⟩
      | ok s =>
        simp only [List.mem_cons]
        have hk : t ∈ PyDict.keys (PyDict.set d x ⟨s, ops.safe x⟩) ↔ t ∈ PyDict.keys d ∨ t = x := by
          rw [PyDict.keys_set]
          split_ifs with he
          · constructor
            · exact .inl
            · rintro (h | rfl)
              · exact h
              · exact he
          · simp
        rw [hk]
        constructor
        · rintro ((h | rfl) | ⟨h, g⟩)
          · exact .inl h
          · exact .inr ⟨.inl rfl, s, hx⟩
          · exact .inr ⟨.inr h, g⟩
        · rintro (h | ⟨rfl | h, g⟩)
          · exact .inl (.inl h)
          · exact .inl (.inr rfl)
          · exact .inr ⟨h, g⟩
  exact (key types []).trans (by simp [PyDict.keys])

/-- The profiles of a compiler whose types are all different, in order. -/
theorem createProfs_list (ops : Ops σ) (name : Key) (types : List String) (hn : types.Nodup) (q : String → Bool)
    (hq : ∀ t, q t = true ↔ ∃ s, ops.init t name = .ok s) :
    PyDict.keys (createProfs ops name types) = types.filter q := by
  unfold createProfs
  have key : ∀ (l : List String) (d : PyDict String (Prof σ)), l.Nodup → (∀ x ∈ l, x ∉ PyDict.keys d) →
      PyDict.keys (l.foldl (fun d t => match ops.init t name with
        | .ok s => PyDict.set d t ⟨s, ops.safe t⟩
        | .error _ => d) d) = PyDict.keys d ++ l.filter q := by
    intro l
    induction l with
    | nil => simp
    | cons x l ih =>
      intro d hl hd
      rw [List.foldl_cons]
      cases hx : ops.init x name with
      | error e =>
        have : q x = false := by
          rw [Bool.eq_false_iff, ne_eq, hq, hx]
          rintro ⟨_, h⟩; cases h
        simp only
        rw [ih d (List.nodup_cons.1 hl).2 (fun y hy => hd y (by simp [hy])), List.filter_cons, this]
        rfl
      | ok s =>
        have : q x = true := by rw [hq, hx]; exact ⟨_, rfl⟩
        have hk : PyDict.keys (PyDict.set d x ⟨s, ops.safe x⟩) = PyDict.keys d ++ [x] := by
          rw [PyDict.keys_set, if_neg (hd x (by simp))]
        simp only
        rw [ih _ (List.nodup_cons.1 hl).2 (fun y hy => ?_), hk, List.filter_cons, this]
        · simp
        · rw [hk]
          simp only [List.mem_append, List.mem_singleton, not_or]
          exact ⟨hd y (by simp [hy]), fun e => (List.nodup_cons.1 hl).1 (e ▸ hy)⟩
  have := key types [] hn (by simp [PyDict.keys])
  rw [show PyDict.keys ([] : PyDict String (Prof σ)) = [] from rfl, List.nil_append] at this
  exact this

/-- Which compilers and profiles a column has. -/
def compKeys (c : Col σ) : List (String × String × Key × List String) :=
  c.compilers.map fun kc => (kc.1, kc.2.kind, kc.2.name, PyDict.keys kc.2.profs)

/-- Which compilers and profiles a column of a given name should have. -/
def keysFor (env : Env σ η) (name : Key) : List (String × String × Key × List String) :=
  env.kinds.map fun kt => (kt.1, kt.1, name, PyDict.keys (createProfs env.ops name kt.2))

theorem compKeys_norm (c : Col σ) : compKeys c.norm = compKeys c := by
  simp [compKeys, Col.norm, Compiler.norm, PyDict.keys, Function.comp_def]

theorem map_of_forall₂ {α β γ : Type} {R : α → β → Prop} {f : α → γ} {g : β → γ} {xs : List α} {ys : List β}
    (h : List.Forall₂ R xs ys) (hR : ∀ x y, R x y → g y = f x) : ys.map g = xs.map f := by
  induction h with
  | nil => rfl
  | cons h _ ih => rw [List.map_cons, List.map_cons, hR _ _ h, ih]

theorem keys_updated {ops : Ops σ} {vals : List String} {xs ys : PyDict String (Prof σ)}
    (h : List.Forall₂ (Updated ops vals) xs ys) : PyDict.keys ys = PyDict.keys xs :=
  map_of_forall₂ h fun _ _ h => h.1

theorem compKeys_update {ops : Ops σ} {kinds : Kinds} {name : Key} {vals : List String} {c c' : Col σ}
    (hf : List.Forall₂ (fun x y => y.1 = x.1 ∧ y.2.kind = x.2.kind ∧ y.2.name = x.2.name ∧
          List.Forall₂ (Updated ops vals) x.2.profs y.2.profs)
          (startComps ops kinds name c.compilers) c'.norm.compilers) :
    compKeys c' = (startComps ops kinds name c.compilers).map
      fun kc => (kc.1, kc.2.kind, kc.2.name, PyDict.keys kc.2.profs) := by
  rw [← compKeys_norm, compKeys]
  refine map_of_forall₂ hf ?_
  rintro x y ⟨h1, h2, h3, h4⟩
  rw [h1, h2, h3, keys_updated h4]

theorem compKeys_merge {ops : Ops σ} {a b c : Col σ} (h : mergeCol ops a b = .ok c) : compKeys c = compKeys a := by
  obtain ⟨_, _, _, h4⟩ := mergeCol_ok h
  refine map_of_forall₂ h4 ?_
  rintro x y ⟨g1, d, _, g3⟩
  have hk : PyDict.keys y.2.profs = PyDict.keys x.2.profs := map_of_forall₂ (mergeCompiler_ok g3) fun _ _ h => h.1
  unfold mergeCompiler at g3
  split_ifs at g3
  cases h4 : mergeDict (mergeProf ops) d.profs x.2.profs with
  | error e => simp [h4] at g3
  | ok ps =>
    simp only [h4, Except.ok.injEq] at g3
    rw [g1, hk, ← g3]

/-- Every column of a table profile has all its compilers and profiles. -/
theorem run_keys (env : Env σ η) (hl : Idem env.lower) (hset : ∀ l, (env.setOrder l).Perm l) (isn : String → Bool)
    (hisn : ∀ p j, env.isNull p j = isn) (P : String → σ → List String → Prop) (hP : Law env.ops P) (h : Hist)
    (hf : h.Fair) (hs : h.Sensible) (t : TableProf σ η) (ht : run env h = .ok t) :
    ∀ c ∈ t.cols, ∃ name, c.name = some name ∧ compKeys c = keysFor env name := by
  induction h generalizing t with
  | new o =>
    cases ht
    intro c hc
    simp [TableProf.new] at hc
  | update h pool u ih =>
    obtain ⟨V', r', hi'⟩ := tinv_run env hl hset isn hisn P hP _ hf hs t ht
    rw [run] at ht
    cases h1 : run env h with
    | error e => simp [h1] at ht
    | ok t0 =>
      simp only [h1] at ht
      have ih := ih hf.1 hs.1 t0 h1
      by_cases hr : u.data.rows = []
      · unfold updateTable at ht
        rw [if_pos hr] at ht
        cases ht
        exact ih
      · obtain ⟨m, hm, heach, hother⟩ := C21_each_column_once env hl pool hf.2 u t0 t (run_shaped env hl h hf.1 t0 h1) hr ht
        intro c' hc'
        obtain ⟨p, hp⟩ := List.mem_iff_getElem?.1 hc'
        have hlt : p < (Hist.update h pool u).names.length := by
          rw [← hi'.len]; exact (List.getElem?_eq_some_iff.1 hp).1
        by_cases hj : ∃ j < u.data.names.length, PyDict.get? m j = some p
        · obtain ⟨j, hj, hjp⟩ := hj
          obtain ⟨p', c, c'', vals, b, name, s, g1, g2, g3, _, _, _, _, g8, g9, g10⟩ := heach j hj
          rw [hjp] at g1
          cases g1
          rw [hp] at g3
          cases g3
          refine ⟨name, g9, ?_⟩
          rw [compKeys_update g10]
          by_cases hn : c.compilers = []
          · rw [startComps, if_pos hn, List.map_map]; rfl
          · rw [startComps, if_neg hn]
            split_ifs at g2 with h0
            · simp only [List.getElem?_map, Option.map_eq_some_iff] at g2
              obtain ⟨_, _, rfl⟩ := g2
              exact absurd rfl hn
            · obtain ⟨n, e1, e2⟩ := ih c (List.mem_of_getElem? g2)
              rcases g8 with g8 | g8
              · rw [e1] at g8; cases g8
              · rw [e1] at g8
                cases g8
                exact e2
        · have := hother p (fun j hj' e => hj ⟨j, hj', e⟩)
          rw [hp] at this
          have hname := hi'.name p c' hp
          rw [List.getElem?_eq_getElem hlt] at hname
          split_ifs at this with h0
          · simp only [List.getElem?_map] at this
            obtain ⟨_, _, e⟩ := Option.map_eq_some_iff.1 this.symm
            rw [← e] at hname
            cases hname
          · exact ih c' (List.mem_of_getElem? this.symm)
  | merge h1 h2 ih1 ih2 =>
    rw [run] at ht
    cases g1 : run env h1 with
    | error e => simp [g1] at ht
    | ok a =>
      cases g2 : run env h2 with
      | error e => simp [g1, g2] at ht
      | ok b =>
        simp only [g1, g2] at ht
        obtain ⟨_, m, cs, _, hcs, rfl⟩ := (mergeTable_iff env a b t).1 ht
        obtain ⟨l1, l2⟩ := (mergeCols_spec env.ops m b.cols 0 a.cols cs).1 hcs
        intro c hc
        obtain ⟨p, hp⟩ := List.mem_iff_getElem?.1 hc
        have hpa : p < a.cols.length := by rw [← l1]; exact (List.getElem?_eq_some_iff.1 hp).1
        obtain ⟨j, b', c', k1, k2, k3, k4⟩ := l2 p _ (List.getElem?_eq_getElem hpa)
        simp only at hp
        rw [k4] at hp
        cases hp
        obtain ⟨n, e1, e2⟩ := ih1 hf.1 hs.1 a g1 _ (List.getElem_mem hpa)
        exact ⟨n, by rw [(mergeCol_ok k3).2.1, e1], by rw [compKeys_merge k3, e2]⟩

theorem forall₂_ok {α β : Type} {R : α → β → Prop} {xs : List α} (h : ∀ x ∈ xs, ∃ y, R x y) : ∃ ys, List.Forall₂ R xs ys := by
  induction xs with
  | nil => exact ⟨[], .nil⟩
  | cons x xs ih =>
    obtain ⟨y, hy⟩ := h x (by simp)
    obtain ⟨ys, hys⟩ := ih fun z hz => h z (by simp [hz])
    exact ⟨y :: ys, .cons hy hys⟩

/-- A column can be updated when all its profiles can. -/
theorem updateCol_ok (ops : Ops σ) (kinds : Kinds) (pool : Option (Sched String)) (hp : ∀ s ∈ pool, s.Fair) (name : Key)
    (vals : List String) (c : Col σ) (hwf : CompsWF c.compilers) (hn : c.name = none ∨ c.name = some name)
    (h : ∀ kc ∈ startComps ops kinds name c.compilers, ∀ tp ∈ kc.2.profs, ∃ s, ops.update tp.1 tp.2.state vals = .ok s) :
    ∃ c', updateCol ops kinds pool name vals c = .ok c' := by
  have hex : ∃ cs : PyDict String (Compiler σ), List.Forall₂ (fun x y => y.1 = x.1 ∧ y.2.kind = x.2.kind ∧ y.2.name = x.2.name ∧
        List.Forall₂ (Updated ops vals) x.2.profs y.2.profs) (startComps ops kinds name c.compilers) cs := by
    apply forall₂_ok
    intro x hx
    obtain ⟨ps, hps⟩ := forall₂_ok (R := Updated ops vals) (xs := x.2.profs) (by
      intro tp htp
      obtain ⟨s, hs⟩ := h x hx tp htp
      exact ⟨(tp.1, ⟨s, true⟩), rfl, rfl, hs⟩)
    exact ⟨(x.1, ⟨x.2.kind, x.2.name, ps⟩), rfl, rfl, rfl, hps⟩
  obtain ⟨cs, hcs⟩ := hex
  obtain ⟨d, hd, _⟩ := (updateCol_norm_iff ops kinds pool hp name vals c ⟨some name, c.base, c.shift, c.lastBatch, cs⟩
    hwf).2 ⟨hn, rfl, rfl, rfl, rfl, hcs⟩
  exact ⟨d, hd⟩

theorem compatible_symm {ns ms : List Key} (h : Compatible ns ms) : Compatible ms ns :=
  fun k => ⟨(h k).1.symm, fun hk => ((h k).2 (by rw [(h k).1]; exact hk)).symm⟩

theorem opts_update {env : Env σ η} {pool : Option TableSched} {u : Upd} {t t' : TableProf σ η}
    (h : updateTable env pool u t = .ok t') : t'.opts = t.opts := by
  by_cases hr : u.data.rows = []
  · unfold updateTable at h
    rw [if_pos hr] at h
    cases h
    rfl
  · obtain ⟨_, _, _, _, _, _, h4⟩ := (updateTable_iff env pool u t t' hr).1 h
    rw [h4]
    split_ifs <;> first | rfl | exact (rowStats_cols _ _ _).2.2.1

theorem opts_run (env : Env σ η) (h : Hist) (t : TableProf σ η) (ht : run env h = .ok t) : t.opts = optsOf h := by
  induction h generalizing t with
  | new o => cases ht; rfl
  | update h pool u ih =>
    rw [run] at ht
    cases h1 : run env h with
    | error e => simp [h1] at ht
    | ok t0 =>
      simp only [h1] at ht
      rw [opts_update ht]
      exact ih t0 h1
  | merge h1 h2 ih1 ih2 =>
    rw [run] at ht
    cases g1 : run env h1 with
    | error e => simp [g1] at ht
    | ok a =>
      cases g2 : run env h2 with
      | error e => simp [g1, g2] at ht
      | ok b =>
        simp only [g1, g2] at ht
        obtain ⟨_, m, cs, _, hcs, rfl⟩ := (mergeTable_iff env a b t).1 ht
        exact ih1 a g1

/-- A batch can be added exactly when its columns are those of the profile. -/
theorem update_ok_iff (env : Env σ η) (hl : Idem env.lower) (hset : ∀ l, (env.setOrder l).Perm l) (isn : String → Bool)
    (hisn : ∀ p j, env.isNull p j = isn) (P : String → σ → List String → Prop) (hP : Law env.ops P) 
    (hU : ∀ t s vs ws, P t s vs → ∃ s', env.ops.update t s ws = .ok s')
    (h : Hist) (pool : Option TableSched) (hp : ∀ s ∈ pool, s.Fair) (u : Upd) (hu : u.Sensible) (hr : u.data.rows ≠ [])
    (t : TableProf σ η) (ht : Shaped env.lower t) (V : List (ℤ × List String)) (r : Option (ℤ × ℤ))
    (hi : TInv env isn P h t V r) :
    (∃ t', updateTable env pool u t = .ok t') ↔ (h.names ≠ [] → SameCols env.lower u.data.names h.names) := by
  have hcn : t.cols = [] ↔ h.names = [] := by
    rw [← List.length_eq_zero_iff, ← List.length_eq_zero_iff, hi.len]
  constructor
  · rintro ⟨t', hrun⟩ hne
    obtain ⟨m, hm, heach, _⟩ := C21_each_column_once env hl pool hp u t t' ht hr hrun
    rw [hi.schema] at hm
    refine ⟨(C19_ok_iff hl _ _ false hu.names hne).1 ⟨m, hm⟩, ?_⟩
    intro p k hk
    have hlt := (List.getElem?_eq_some_iff.1 hk).1
    obtain ⟨s1, s2⟩ := update_source hl _ _ hu.names hne m hm p hlt
    obtain ⟨p', c, c', vals, b, name, s, g1, g2, g3, _, _, _, g7, g8, g9, _⟩ := heach _ s1
    rw [s2] at g1
    cases g1
    rw [if_neg (fun e => hne (hcn.1 e))] at g2
    have := hi.name p c g2
    rw [hk] at this
    rw [this] at g8
    rcases g8 with g8 | g8
    · cases g8
    · rw [g7, ← g8]
  · intro hsame
    obtain ⟨m, hm⟩ : ∃ m, getMapping env.lower (schemaOf env.lower u.data.names) t.schema false = .ok m := by
      rw [hi.schema]
      by_cases hne : h.names = []
      · rw [hne]
        obtain ⟨⟨m, h1, _⟩, _⟩ := C19_empty (lower := env.lower) u.data.names
        exact ⟨m, h1⟩
      · exact (C19_ok_iff hl _ _ false hu.names hne).2 (hsame hne).1
    have hinj := inj_of_mapping hl t ht _ m hm
    have hv := mapping_values hl t ht u.data.names hu.names m hm
    obtain ⟨ids, hids, hclean⟩ := clean_table env hset isn hisn u hu hr
    obtain ⟨start, hstart⟩ : ∃ start, start = (if t.cols = [] then u.data.names.map fun _ => Col.new else t.cols) := ⟨_, rfl⟩
    have htgt : ∀ j < u.data.names.length, ∃ p, PyDict.get? m j = some p ∧ p < start.length := by
      intro j hj
      rw [hi.schema] at hm
      by_cases hne : h.names = []
      · rw [hne] at hm
        obtain ⟨⟨m', h1, h2, h3⟩, _⟩ := C19_empty (lower := env.lower) u.data.names
        rw [hm] at h1
        cases h1
        obtain ⟨p, hp⟩ := (PyDict.mem_keys_iff _ _).1 (h2.mem_iff.2 (List.mem_range.2 hj))
        refine ⟨p, hp, ?_⟩
        rw [← h3 j p hp, hstart, if_pos (hcn.2 hne), List.length_map]
        exact hj
      · have hb := C19_bijection hl _ _ false hu.names hne m hm
        obtain ⟨p, hp⟩ := (PyDict.mem_keys_iff _ _).1 (hb.dom.mem_iff.2 (by rw [names_length]; exact List.mem_range.2 hj))
        refine ⟨p, hp, ?_⟩
        have : p ∈ PyDict.values m := List.mem_map.2 ⟨_, PyDict.mem_of_get? hp, rfl⟩
        rw [hb.cod.mem_iff, names_length, List.mem_range] at this
        rw [hstart, if_neg (fun e => hne (hcn.1 e)), hi.len]
        exact this
    have hstep : ∀ j < u.data.names.length, ∃ p c vals, Step1 env u m start j p c vals := by
      intro j hj
      obtain ⟨p, hp1, hp2⟩ := htgt j hj
      obtain ⟨vals, b, c1, _, c3, _⟩ := hclean p j
      have hb : b.sampleSize ≠ 0 := by
        rw [c3.inv.sampleSize, List.length_map]
        rw [rowsAt_length u.data ids hids.bound, hids.length]
        have := hu.sample
        have := List.length_pos_iff.2 hr
        omega
      obtain ⟨b', hb'⟩ : ∃ b', updateBase start[p].base b = .ok b' := by
        unfold updateBase
        rw [if_neg hb]
        exact ⟨_, rfl⟩
      exact ⟨p, _, vals, (vals, b), start[p], b', target_ok.2 hp1, c1, List.getElem?_eq_getElem hp2, hb', rfl, rfl⟩
    obtain ⟨st, hst⟩ := (phase1_spec env pool hp u m start hinj).1 hstep
    obtain ⟨d, w⟩ := (phase1_spec env pool hp u m start hinj).2 st hst
    have hwf := phase1_wf env pool hp u m _ hinj st hst (by rw [hstart]; exact start_wf _ _ ht.wf)
    obtain ⟨cols', hc'⟩ := phase2_ok env (pool.map (·.profs)) (sourceName u.data m) st.cleaned st.cols
      (PyDict.keys st.cleaned) w (by
      intro p hpk
      have hj : ∃ j < u.data.names.length, target m j = .ok p := by
        by_contra hno
        have : ∀ j ∈ List.range u.data.names.length, target m j ≠ .ok p :=
          fun j hj e => hno ⟨j, List.mem_range.1 hj, e⟩
        rw [PyDict.mem_keys_iff] at hpk
        obtain ⟨v, hv⟩ := hpk
        rw [d.otherC p this] at hv
        simp [PyDict.get?] at hv
      obtain ⟨j, hj, hjp⟩ := hj
      obtain ⟨p', c1, vals, hs, g1, g2⟩ := d.each j (List.mem_range.2 hj)
      obtain ⟨r, c, s, k1, k2, k3, k4, rfl, rfl⟩ := hs
      rw [hjp] at k1
      cases k1
      have hname : c.name = none ∨ c.name = some u.data.names[j] := by
        rw [hstart] at k3
        split_ifs at k3 with h0
        · simp only [List.getElem?_map, Option.map_eq_some_iff] at k3
          obtain ⟨_, _, rfl⟩ := k3
          exact .inl rfl
        · right
          have hne := fun e => h0 (hcn.2 e)
          have e1 := hi.name p c k3
          have hlt : p < h.names.length := by rw [← hi.len]; exact (List.getElem?_eq_some_iff.1 k3).1
          rw [List.getElem?_eq_getElem hlt] at e1
          have hm' := hm
          rw [hi.schema] at hm'
          obtain ⟨s1, s2⟩ := update_source hl _ _ hu.names hne m hm' p hlt
          have hjs : j = sourceCol env.lower u.data.names h.names p :=
            hinj j (List.mem_range.2 hj) _ (List.mem_range.2 s1) p hjp (target_ok.2 s2)
          have := (hsame hne).2 p _ (List.getElem?_eq_getElem hlt)
          rw [← hjs, List.getElem?_eq_getElem hj] at this
          rw [e1, this]
      obtain ⟨c', hc'⟩ := updateCol_ok env.ops env.kinds (pool.map (·.profs)) (fair_profs hp) u.data.names[j] r.1
        (c.withBase s r.2) (hwf _ (List.mem_of_getElem? g1)) hname (by
        intro kc hkc tp htp
        have : ∃ vs, P tp.1 tp.2.state vs := by
          unfold startComps at hkc
          split_ifs at hkc with he
          · obtain ⟨kt, _, rfl⟩ := List.mem_map.1 hkc
            exact ⟨_, hP.init _ _ _ (createProfs_mem _ _ _ _ htp)⟩
          · rw [hstart] at k3
            split_ifs at k3 with h0
            · simp only [List.getElem?_map, Option.map_eq_some_iff] at k3
              obtain ⟨_, _, rfl⟩ := k3
              exact absurd rfl he
            · obtain ⟨vs, _, hvs⟩ := hi.profs p c k3 kc hkc tp htp
              exact ⟨vs, hvs⟩
        obtain ⟨vs, hvs⟩ := this
        exact hU _ _ _ _ hvs)
      refine ⟨c', _, _, u.data.names[j], g1, g2, ?_, hc'⟩
      rw [sourceName_eq u.data hv (target_ok.1 hjp), List.getElem?_eq_getElem hj])
    exact ⟨_, (updateTable_iff env pool u t _ hr).2 ⟨m, st, cols', hm, by rw [← hstart]; exact hst, hc', rfl⟩⟩

/-- The profiles of two columns can be merged one by one. -/
def Pairs (ops : Ops σ) (a b : Col σ) : Prop :=
  ∀ kc ∈ a.compilers, ∀ d, PyDict.get? b.compilers kc.1 = some d → ∀ tp ∈ kc.2.profs, ∀ q, PyDict.get? d.profs tp.1 = some q →
    ∃ s, ops.merge tp.1 tp.2.state q.state = .ok s

/-- Two profiles can be merged exactly when both have data, the same options and the same columns, and the profiles of these columns can
be merged. -/
theorem merge_pairs (env : Env σ η) (hl : Idem env.lower) (hset : ∀ l, (env.setOrder l).Perm l) (isn : String → Bool)
    (hisn : ∀ p j, env.isNull p j = isn) (P : String → σ → List String → Prop) (hP : Law env.ops P)
    (hk : (env.kinds.map Prod.fst).Nodup) (h1 h2 : Hist) (f1 : h1.Fair) (f2 : h2.Fair) (s1 : h1.Sensible)
    (s2 : h2.Sensible) (a b : TableProf σ η) (ha : run env h1 = .ok a) (hb : run env h2 = .ok b) :
    (∃ t, (mergeTable env a b).1 = .ok t) ↔
      h1.names ≠ [] ∧ h2.names ≠ [] ∧ optsOf h1 = optsOf h2 ∧ SameCols env.lower h2.names h1.names ∧
        ∀ p ca cb, a.cols[p]? = some ca → b.cols[sourceCol env.lower h2.names h1.names p]? = some cb → Pairs env.ops ca cb := by
  obtain ⟨V, r, hi⟩ := tinv_run env hl hset isn hisn P hP h1 f1 s1 a ha
  obtain ⟨W, s, hj⟩ := tinv_run env hl hset isn hisn P hP h2 f2 s2 b hb
  have ka := run_keys env hl hset isn hisn P hP h1 f1 s1 a ha
  have kb := run_keys env hl hset isn hisn P hP h2 f2 s2 b hb
  have wb := (run_shaped env hl h2 f2 b hb).wf
  rw [C20_ok_iff env hl a b h1.names h2.names hi.schema hj.schema hi.len hj.len, opts_run env h1 a ha, opts_run env h2 b hb]
  constructor
  · rintro ⟨n1, n2, hc, ho, hcol⟩
    refine ⟨n1, n2, ho, ⟨compatible_symm hc, ?_⟩, ?_⟩
    rotate_left
    · intro p ca cb hca hcb kc hkc d hd tp htp q hq
      obtain ⟨-, -, -, -, hall⟩ := (C20_column_ok_iff _ _ _).1 (hcol p ca cb hca hcb)
      obtain ⟨d', e1, -, -, -, e2⟩ := hall kc hkc
      rw [hd] at e1
      cases e1
      obtain ⟨q', e3, e4⟩ := e2 tp htp
      rw [hq] at e3
      cases e3
      exact e4
    intro p k hpk
    have hlt := (List.getElem?_eq_some_iff.1 hpk).1
    obtain ⟨m, hm⟩ := (C19_ok_iff hl _ _ false n1 n2).2 hc
    have hs := (merge_source hl _ _ n1 n2 m hm p hlt).1
    have hla : p < a.cols.length := by rw [hi.len]; exact hlt
    have hlb : sourceCol env.lower h2.names h1.names p < b.cols.length := by rw [hj.len]; exact hs
    obtain ⟨c, hmc⟩ := hcol p _ _ (List.getElem?_eq_getElem hla) (List.getElem?_eq_getElem hlb)
    have e1 := hi.name p _ (List.getElem?_eq_getElem hla)
    have e2 := hj.name _ _ (List.getElem?_eq_getElem hlb)
    rw [← e2, ← (mergeCol_ok hmc).1, e1, hpk]
  · rintro ⟨n1, n2, ho, ⟨hc, hname⟩, hpairs⟩
    refine ⟨n1, n2, compatible_symm hc, ho, ?_⟩
    intro p ca cb hca hcb
    have hlt : p < h1.names.length := by rw [← hi.len]; exact (List.getElem?_eq_some_iff.1 hca).1
    rw [C20_column_ok_iff]
    obtain ⟨na, a1, a2⟩ := ka ca (List.mem_of_getElem? hca)
    obtain ⟨nb, b1, b2⟩ := kb cb (List.mem_of_getElem? hcb)
    have hnn : ca.name = cb.name := by
      rw [hi.name p ca hca, hj.name _ cb hcb, List.getElem?_eq_getElem hlt,
        hname p _ (List.getElem?_eq_getElem hlt)]
    have hab : na = nb := by
      rw [a1, b1] at hnn
      exact Option.some.inj hnn
    subst hab
    have heq : compKeys ca = compKeys cb := by rw [a2, b2]
    have hkeys : PyDict.keys ca.compilers = PyDict.keys cb.compilers := by
      have := congrArg (List.map Prod.fst) heq
      simpa [compKeys, PyDict.keys, Function.comp_def] using this
    have hwfb : PyDict.WF cb.compilers := by
      have : PyDict.keys cb.compilers = env.kinds.map Prod.fst := hj.kinds _ cb hcb
      unfold PyDict.WF
      rw [this]
      exact hk
    have pos : ∀ {h : Hist} {t : TableProf σ η} {U : List (ℤ × List String)} {q : Option (ℤ × ℤ)} {i : ℕ} {c : Col σ},
        TInv env isn P h t U q → h.names ≠ [] → t.cols[i]? = some c → 0 < c.base.sampleSize := by
      intro h t U q i c hh hn hc
      obtain ⟨f, _⟩ := hh.base i c hc
      have e : c.base.sampleSize = _ := f.inv.sampleSize
      rw [e, cellsOf, List.length_map]
      exact List.length_pos_iff.2 (hh.fed hn)
    refine ⟨hnn, pos hi n1 hca, pos hj n2 hcb, fun k => by rw [hkeys], ?_⟩
    intro kc hkc
    have hmem : (kc.1, kc.2.kind, kc.2.name, PyDict.keys kc.2.profs) ∈ compKeys cb := by
      rw [← heq]
      exact List.mem_map.2 ⟨kc, hkc, rfl⟩
    obtain ⟨kd, hkd, e⟩ := List.mem_map.1 hmem
    simp only [Prod.mk.injEq] at e
    have hget : PyDict.get? cb.compilers kc.1 = some kd.2 := by
      rw [← e.1]
      exact (PyDict.mem_iff_get? hwfb _ _).1 hkd
    refine ⟨kd.2, hget, e.2.1.symm, e.2.2.1.symm, fun t => by rw [e.2.2.2], ?_⟩
    · intro tp htp
      have : tp.1 ∈ PyDict.keys kd.2.profs := by rw [e.2.2.2]; exact List.mem_map.2 ⟨tp, htp, rfl⟩
      obtain ⟨q, hq⟩ := (PyDict.mem_keys_iff _ _).1 this
      exact ⟨q, hq, hpairs p ca cb hca hcb kc hkc kd.2 hget tp htp q hq⟩

/-- Two profiles can be merged exactly when both have data, the same options and the same columns. -/
theorem merge_ok_iff (env : Env σ η) (hl : Idem env.lower) (hset : ∀ l, (env.setOrder l).Perm l) (isn : String → Bool)
    (hisn : ∀ p j, env.isNull p j = isn) (P : String → σ → List String → Prop) (hP : Law env.ops P) (hT : Total env.ops P)
    (hk : (env.kinds.map Prod.fst).Nodup) (h1 h2 : Hist) (f1 : h1.Fair) (f2 : h2.Fair) (s1 : h1.Sensible)
    (s2 : h2.Sensible) (a b : TableProf σ η) (ha : run env h1 = .ok a) (hb : run env h2 = .ok b) :
    (∃ t, (mergeTable env a b).1 = .ok t) ↔
      h1.names ≠ [] ∧ h2.names ≠ [] ∧ optsOf h1 = optsOf h2 ∧ SameCols env.lower h2.names h1.names := by
  rw [merge_pairs env hl hset isn hisn P hP hk h1 h2 f1 f2 s1 s2 a b ha hb]
  refine and_congr_right fun _ => and_congr_right fun _ => and_congr_right fun _ => and_iff_left ?_
  intro p ca cb hca hcb kc hkc d hd tp htp q hq
  obtain ⟨V, r, hi⟩ := tinv_run env hl hset isn hisn P hP h1 f1 s1 a ha
  obtain ⟨W, s, hj⟩ := tinv_run env hl hset isn hisn P hP h2 f2 s2 b hb
  obtain ⟨vs, _, p1⟩ := hi.profs p ca hca kc hkc tp htp
  obtain ⟨ws, _, p2⟩ := hj.profs _ cb hcb _ (PyDict.mem_of_get? hd) _ (PyDict.mem_of_get? hq)
  exact hT.merge _ _ _ _ _ p1 p2

/-- A table profile succeeds exactly when all its data have the columns of the profile. -/
theorem run_ok_iff (env : Env σ η) (hl : Idem env.lower) (hset : ∀ l, (env.setOrder l).Perm l) (isn : String → Bool)
    (hisn : ∀ p j, env.isNull p j = isn) (P : String → σ → List String → Prop) (hP : Law env.ops P) (hT : Total env.ops P)
    (hk : (env.kinds.map Prod.fst).Nodup) (h : Hist) (hf : h.Fair) (hs : h.Sensible) :
    (∃ t, run env h = .ok t) ↔ Agrees env.lower h := by
  induction h with
  | new o => exact ⟨fun _ => trivial, fun _ => ⟨_, rfl⟩⟩
  | update h pool u ih =>
    have ih := ih hf.1 hs.1
    rw [run, Agrees, ← ih]
    cases h1 : run env h with
    | error e => simp
    | ok t0 =>
      simp only
      obtain ⟨V, r, hi⟩ := tinv_run env hl hset isn hisn P hP h hf.1 hs.1 t0 h1
      by_cases hr : u.data.rows = []
      · unfold updateTable
        simp [hr]
      · rw [update_ok_iff env hl hset isn hisn P hP hT.update h pool hf.2 u (hs.2 hr) hr t0 (run_shaped env hl h hf.1 t0 h1) V r hi]
        simp [hr]
  | merge h1 h2 ih1 ih2 =>
    have ih1 := ih1 hf.1 hs.1
    have ih2 := ih2 hf.2 hs.2
    rw [run, Agrees, ← ih1, ← ih2]
    cases g1 : run env h1 with
    | error e => simp
    | ok a =>
      cases g2 : run env h2 with
      | error e => simp
      | ok b =>
        simp only
        rw [merge_ok_iff env hl hset isn hisn P hP hT hk h1 h2 hf.1 hf.2 hs.1 hs.2 a b g1 g2]
        simp

end Verif.Table
