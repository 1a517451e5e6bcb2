import Verif.Lemmas.TableData

namespace Verif.Table

open Verif Verif.Schema Verif.Nulls Verif.SchemaSpec Verif.NullsSpec

variable {σ η : Type}

/-! ## Rows and columns of the sampled table -/

/-- Column `p` of the rows `V`, with ids. -/
def cellsOf (V : List (ℤ × List String)) (p : ℕ) : List Cell := V.map fun v => (v.1, v.2.getD p "")

/-- Non-null texts of column `p`. -/
def valuesOf (isn : String → Bool) (V : List (ℤ × List String)) (p : ℕ) : List String :=
  (V.map fun v => v.2.getD p "").filter fun t => !isn t

theorem any_iff (isn : String → Bool) (row : List String) :
    row.any isn = true ↔ ∃ p < row.length, isn (row.getD p "") = true := by
  rw [List.any_eq_true]
  constructor
  · rintro ⟨x, hx, h⟩
    obtain ⟨p, hp, rfl⟩ := List.mem_iff_getElem.1 hx
    exact ⟨p, hp, by rwa [List.getD_eq_getElem?_getD, List.getElem?_eq_getElem hp]⟩
  · rintro ⟨p, hp, h⟩
    rw [List.getD_eq_getElem?_getD, List.getElem?_eq_getElem hp] at h
    exact ⟨row[p], List.getElem_mem hp, h⟩

theorem all_iff (isn : String → Bool) (row : List String) :
    row.all isn = true ↔ ∀ p < row.length, isn (row.getD p "") = true := by
  rw [List.all_eq_true]
  constructor
  · intro h p hp
    rw [List.getD_eq_getElem?_getD, List.getElem?_eq_getElem hp]
    exact h _ (List.getElem_mem hp)
  · intro h x hx
    obtain ⟨p, hp, rfl⟩ := List.mem_iff_getElem.1 hx
    have := h p hp
    rwa [List.getD_eq_getElem?_getD, List.getElem?_eq_getElem hp] at this

/-- Everything known about a table profile after a history, with the ids of the sampled rows. -/
structure TInv (env : Env σ η) (isn : String → Bool) (P : String → σ → List String → Prop) (h : Hist) (t : TableProf σ η)
    (V : List (ℤ × List String)) (r : Option (ℤ × ℤ)) : Prop where
  len : t.cols.length = h.names.length
  schema : t.schema = schemaOf env.lower h.names
  total : t.total = h.rows.length
  ids : (V.map Prod.fst).Nodup
  rowlen : ∀ v ∈ V, v.2.length = h.names.length
  sampled : Sampled env.lower h (V.map Prod.snd)
  fed : h.names ≠ [] → V ≠ []
  unfed : h.names = [] → V = [] ∧ r = none
  range : ∀ v ∈ V, ∃ lo hi, r = some (lo, hi) ∧ lo ≤ v.1 ∧ v.1 ≤ hi
  base : ∀ (p : ℕ) (c : Col σ), t.cols[p]? = some c → FitsB isn c.base.asBase (cellsOf V p) ∧ c.base.ids = r
  name : ∀ (p : ℕ) (c : Col σ), t.cols[p]? = some c → c.name = h.names[p]?
  kinds : ∀ (p : ℕ) (c : Col σ), t.cols[p]? = some c → PyDict.keys c.compilers = env.kinds.map Prod.fst
  profs : ∀ (p : ℕ) (c : Col σ), t.cols[p]? = some c → ∀ kc ∈ c.compilers, ∀ tp ∈ kc.2.profs,
    ∃ vs, vs.Perm (valuesOf isn V p) ∧ P tp.1 tp.2.state vs
  nulls : t.opts.enabled = true → t.opts.nulls = true →
    t.hasNull = V.countP (fun v => v.2.any isn) ∧ t.isNull = V.countP (fun v => v.2.all isn)
  rows : t.opts.hashing = .full → ∃ hs, t.rows = .full hs ∧ (t.opts.enabled = true → t.opts.unique = true →
    hs.Nodup ∧ ∀ x, x ∈ hs ↔ ∃ r ∈ h.rows, env.hash r = x)

theorem TInv.new (env : Env σ η) (isn : String → Bool) (P : String → σ → List String → Prop) (o : RowOpts) :
    TInv env isn P (.new o) (.new env.hll o) [] none := by
  constructor <;> simp [TableProf.new, Hist.names, Hist.rows, schemaOf, schemaFrom]
  · exact .new o
  · intro h
    rw [h]
    exact ⟨[], rfl, fun _ _ => ⟨List.nodup_nil, by simp⟩⟩

theorem count_nulls {isn : String → Bool} {V : List (ℤ × List String)} {n : ℕ} (cols : List (Col σ)) (hn : 0 < n)
    (hlen : cols.length = n) (hids : (V.map Prod.fst).Nodup) (hrow : ∀ v ∈ V, v.2.length = n)
    (hfit : ∀ p c, cols[p]? = some c → FitsB isn c.base.asBase (cellsOf V p)) :
    (nullRows (cols.map fun c => nullIds c.base)).2.length = V.countP (fun v => v.2.any isn) ∧
    (nullRows (cols.map fun c => nullIds c.base)).1.length = V.countP (fun v => v.2.all isn) := by
  have hcell : ∀ p x, (∃ t, isn t = true ∧ (x, t) ∈ cellsOf V p) ↔ ∃ v ∈ V, v.1 = x ∧ isn (v.2.getD p "") = true := by
    intro p x
    constructor
    · rintro ⟨t, h1, h2⟩
      obtain ⟨v, hv, he⟩ := List.mem_map.1 h2
      cases he
      exact ⟨v, hv, rfl, h1⟩
    · rintro ⟨v, hv, rfl, h1⟩
      exact ⟨_, h1, List.mem_map.2 ⟨v, hv, rfl⟩⟩
  have hl : ∀ l, l ∈ (cols.map fun c => nullIds c.base) ↔ ∃ p c, p < n ∧ cols[p]? = some c ∧ l = nullIds c.base := by
    intro l
    rw [List.mem_map]
    constructor
    · rintro ⟨c, hc, rfl⟩
      obtain ⟨p, hp⟩ := List.mem_iff_getElem?.1 hc
      exact ⟨p, c, by rw [← hlen]; exact (List.getElem?_eq_some_iff.1 hp).1, hp, rfl⟩
    · rintro ⟨p, c, _, hp, rfl⟩
      exact ⟨c, List.mem_of_getElem? hp, rfl⟩
  have hcol : ∀ p < n, ∃ c, cols[p]? = some c := fun p hp => ⟨_, List.getElem?_eq_getElem (by omega)⟩
  obtain ⟨a, b, c, d⟩ := nullRows_spec (cols.map fun c => nullIds c.base) (by
    intro h
    have := congrArg List.length h
    rw [List.length_map, List.length_nil] at this
    omega) (by
    intro l hl'
    obtain ⟨p, c, _, h2, rfl⟩ := (hl l).1 hl'
    exact (nullIds_spec (hfit p c h2)).1)
  constructor
  · apply nodup_length_eq hids (fun row => row.any isn) b
    intro x
    rw [d]
    constructor
    · rintro ⟨l, h1, h2⟩
      obtain ⟨p, c, h3, h4, rfl⟩ := (hl l).1 h1
      rw [(nullIds_spec (hfit p c h4)).2, hcell] at h2
      obtain ⟨v, hv, h5, h6⟩ := h2
      exact ⟨v, hv, h5, (any_iff _ _).2 ⟨p, by rw [hrow v hv]; exact h3, h6⟩⟩
    · rintro ⟨v, hv, h1, h2⟩
      obtain ⟨p, h3, h4⟩ := (any_iff _ _).1 h2
      rw [hrow v hv] at h3
      obtain ⟨c, hc⟩ := hcol p h3
      refine ⟨_, (hl _).2 ⟨p, c, h3, hc, rfl⟩, ?_⟩
      rw [(nullIds_spec (hfit p c hc)).2, hcell]
      exact ⟨v, hv, h1, h4⟩
  · apply nodup_length_eq hids (fun row => row.all isn) a
    intro x
    rw [c]
    constructor
    · intro h
      have key : ∀ p < n, ∃ v ∈ V, v.1 = x ∧ isn (v.2.getD p "") = true := by
        intro p hp
        obtain ⟨c, hc⟩ := hcol p hp
        have := h _ ((hl _).2 ⟨p, c, hp, hc, rfl⟩)
        rwa [(nullIds_spec (hfit p c hc)).2, hcell] at this
      obtain ⟨v, hv, h1, _⟩ := key 0 hn
      refine ⟨v, hv, h1, (all_iff _ _).2 ?_⟩
      intro p hp
      rw [hrow v hv] at hp
      obtain ⟨w, hw, h2, h3⟩ := key p hp
      have : w = v := List.inj_on_of_nodup_map hids hw hv (by rw [h1, h2])
      rw [← this]
      exact h3
    · rintro ⟨v, hv, h1, h2⟩ l hl'
      obtain ⟨p, c, h3, h4, rfl⟩ := (hl l).1 hl'
      rw [(nullIds_spec (hfit p c h4)).2, hcell]
      exact ⟨v, hv, h1, (all_iff _ _).1 h2 p (by rw [hrow v hv]; exact h3)⟩

theorem createProfs_mem (ops : Ops σ) (name : Key) (types : List String) (tp : String × Prof σ)
    (h : tp ∈ createProfs ops name types) : ops.init tp.1 name = .ok tp.2.state := by
  unfold createProfs at h
  have key : ∀ (l : List String) (d : PyDict String (Prof σ)), PyDict.WF d →
      (∀ tp ∈ d, ops.init tp.1 name = .ok tp.2.state) → ∀ tp ∈ l.foldl (fun d t =>
      match ops.init t name with
      | .ok s => PyDict.set d t ⟨s, ops.safe t⟩
      | .error _ => d) d, ops.init tp.1 name = .ok tp.2.state := by
    intro l
    induction l with
    | nil => exact fun d _ h => h
    | cons t l ih =>
      intro d hw hd
      rw [List.foldl_cons]
      cases hi : ops.init t name with
      | error e => exact ih d hw hd
      | ok s =>
        apply ih _ (PyDict.WF_set hw _ _)
        rintro ⟨t', p⟩ hm
        rw [PyDict.mem_iff_get? (PyDict.WF_set hw _ _), PyDict.get?_set] at hm
        split_ifs at hm with he
        · cases hm
          subst he
          exact hi
        · exact hd _ (PyDict.mem_of_get? hm)
  exact key types [] PyDict.WF_nil (by simp) tp h

theorem mem_norm {cs : PyDict String (Compiler σ)} {kc : String × Compiler σ} (hk : kc ∈ cs) {tp : String × Prof σ}
    (ht : tp ∈ kc.2.profs) : ∃ kc' ∈ cs.map (fun kc => (kc.1, kc.2.norm)), (tp.1, tp.2.norm) ∈ kc'.2.profs :=
  ⟨_, List.mem_map.2 ⟨kc, hk, rfl⟩, List.mem_map.2 ⟨tp, ht, rfl⟩⟩

/-- The profiles of a column after an update. -/
theorem profs_update {ops : Ops σ} {P : String → σ → List String → Prop} (hP : Law ops P) {kinds : Kinds} {name : Key}
    {c c' : Col σ} {vals vs ws : List String}
    (hc : ∀ kc ∈ c.compilers, ∀ tp ∈ kc.2.profs, ∃ l, l.Perm vs ∧ P tp.1 tp.2.state l)
    (hfresh : c.compilers = [] → kinds ≠ [] → vs = []) (hvals : vals.Perm ws)
    (hf : List.Forall₂ (fun x y => y.1 = x.1 ∧ y.2.kind = x.2.kind ∧ y.2.name = x.2.name ∧
          List.Forall₂ (Updated ops vals) x.2.profs y.2.profs)
          (startComps ops kinds name c.compilers) c'.norm.compilers) :
    ∀ kc ∈ c'.compilers, ∀ tp ∈ kc.2.profs, ∃ l, l.Perm (vs ++ ws) ∧ P tp.1 tp.2.state l := by
  intro kc hkc tp htp
  obtain ⟨kc', h1, h2⟩ := mem_norm hkc htp
  obtain ⟨x, hx, _, _, _, h3⟩ := forall₂_mem_right hf h1
  obtain ⟨y, hy, h4, _, h5⟩ := forall₂_mem_right h3 h2
  simp only at h4
  have hy' : ∃ l, l.Perm vs ∧ P y.1 y.2.state l := by
    unfold startComps at hx
    split_ifs at hx with he
    · obtain ⟨kt, hkt, rfl⟩ := List.mem_map.1 hx
      refine ⟨[], ?_, hP.init _ _ _ (createProfs_mem _ _ _ _ hy)⟩
      rw [hfresh he (by intro h; rw [h] at hkt; simp at hkt)]
    · exact hc x hx y hy
  obtain ⟨l, hl, hp⟩ := hy'
  exact ⟨l ++ vals, hl.append hvals, by rw [h4]; exact hP.update _ _ _ _ _ hp h5⟩

theorem keys_norm (c : Col σ) : PyDict.keys c.norm.compilers = PyDict.keys c.compilers := by
  simp [PyDict.keys, Col.norm, Function.comp_def]

theorem startComps_keys (ops : Ops σ) (kinds : Kinds) (name : Key) (cs : PyDict String (Compiler σ))
    (h : cs = [] ∨ PyDict.keys cs = kinds.map Prod.fst) :
    PyDict.keys (startComps ops kinds name cs) = kinds.map Prod.fst := by
  unfold startComps
  split_ifs with he
  · simp [PyDict.keys, Function.comp_def]
  · exact h.resolve_left he

theorem valuesOf_append (isn : String → Bool) (V W : List (ℤ × List String)) (p : ℕ) :
    valuesOf isn (V ++ W) p = valuesOf isn V p ++ valuesOf isn W p := by
  simp [valuesOf]

theorem cellsOf_append (V W : List (ℤ × List String)) (p : ℕ) : cellsOf (V ++ W) p = cellsOf V p ++ cellsOf W p := by
  simp [cellsOf]

theorem shift_nodup {V W : List (ℤ × List String)} {r s : Option (ℤ × ℤ)} (hV : (V.map Prod.fst).Nodup)
    (hW : (W.map Prod.fst).Nodup) (hr : ∀ v ∈ V, ∃ lo hi, r = some (lo, hi) ∧ lo ≤ v.1 ∧ v.1 ≤ hi)
    (hs : ∀ v ∈ W, ∃ lo hi, s = some (lo, hi) ∧ lo ≤ v.1 ∧ v.1 ≤ hi)
    (hn : ∀ lo hi, s = some (lo, hi) → 0 ≤ lo ∧ lo ≤ hi) (f : List String → List String) :
    ((V ++ W.map fun v => (v.1 + shiftOf r s, f v.2)).map Prod.fst).Nodup := by
  rw [List.map_append, List.map_map]
  refine List.nodup_append.2 ⟨hV, ?_, ?_⟩
  · have : (Prod.fst ∘ fun v : ℤ × List String => (v.1 + shiftOf r s, f v.2)) = (· + shiftOf r s) ∘ Prod.fst := rfl
    rw [this, ← List.map_map]
    exact hW.map (fun a b h => by simpa using h)
  · rintro a ha b hb rfl
    obtain ⟨v, hv, rfl⟩ := List.mem_map.1 ha
    obtain ⟨w, hw, he⟩ := List.mem_map.1 hb
    exact shift_disjoint (hr v hv) (hs w hw) hn he.symm

theorem shift_range {V W : List (ℤ × List String)} {r s : Option (ℤ × ℤ)}
    (hr : ∀ v ∈ V, ∃ lo hi, r = some (lo, hi) ∧ lo ≤ v.1 ∧ v.1 ≤ hi)
    (hs : ∀ v ∈ W, ∃ lo hi, s = some (lo, hi) ∧ lo ≤ v.1 ∧ v.1 ≤ hi) (sh : ℤ) (f : List String → List String) :
    ∀ v ∈ V ++ W.map (fun v => (v.1 + sh, f v.2)),
      ∃ lo hi, mergeIds r (s.map fun x => (x.1 + sh, x.2 + sh)) = some (lo, hi) ∧ lo ≤ v.1 ∧ v.1 ≤ hi := by
  intro v hv
  rcases List.mem_append.1 hv with hv | hv
  · obtain ⟨lo, hi, rfl, h1, h2⟩ := hr v hv
    cases s with
    | none => exact ⟨lo, hi, rfl, h1, h2⟩
    | some x =>
      refine ⟨_, _, rfl, ?_, ?_⟩
      · exact (min_le_left _ _).trans h1
      · exact h2.trans (le_max_left _ _)
  · obtain ⟨w, hw, rfl⟩ := List.mem_map.1 hv
    obtain ⟨lo, hi, rfl, h1, h2⟩ := hs w hw
    cases r with
    | none => exact ⟨lo + sh, hi + sh, rfl, by simpa using h1, by simpa using h2⟩
    | some x =>
      refine ⟨_, _, rfl, ?_, ?_⟩
      · exact (min_le_right _ _).trans (by simpa using h1)
      · exact le_trans (by simpa using h2) (le_max_right _ _)

theorem batchIds_range (d : Data) : ∀ r ∈ d.rows, ∃ lo hi, batchIds d = some (lo, hi) ∧ lo ≤ r.1 ∧ r.1 ≤ hi := by
  intro r hr
  have hm : (r.1, r.2.getD 0 "") ∈ d.column 0 := List.mem_map.2 ⟨r, hr, rfl⟩
  cases h : batchIds d with
  | none =>
    unfold batchIds at h
    cases hc : d.column 0 with
    | nil => rw [hc] at hm; simp at hm
    | cons c cs => rw [hc] at h; simp [idRange] at h
  | some x =>
    obtain ⟨lo, hi⟩ := x
    have := (idRange_bounds h).1 _ hm
    exact ⟨lo, hi, rfl, this.1, this.2⟩

theorem batchIds_nonneg (d : Data) (hn : ∀ r ∈ d.rows, 0 ≤ r.1) (lo hi : ℤ) (h : batchIds d = some (lo, hi)) :
    0 ≤ lo ∧ lo ≤ hi := by
  obtain ⟨h1, c, hc, h2⟩ := idRange_bounds h
  have h3 := h1 c hc
  obtain ⟨r, hr, rfl⟩ := List.mem_map.1 hc
  have := hn r hr
  simp only at h2 h3
  omega

theorem rowsAt_mem {d : Data} {ids : List ℕ} {r : ℤ × List String} (h : r ∈ rowsAt d ids) : r ∈ d.rows := by
  obtain ⟨i, _, hi⟩ := List.mem_filterMap.1 h
  exact List.mem_of_getElem? hi

theorem rowsAt_nodup {d : Data} {ids : List ℕ} (hl : (d.rows.map Prod.fst).Nodup) (hi : ids.Nodup) :
    ((rowsAt d ids).map Prod.fst).Nodup := by
  have he : (d.column 0).map Prod.fst = d.rows.map Prod.fst := by
    unfold Data.column
    rw [List.map_map]
    rfl
  have := cellsAt_nodup (col := d.column 0) (ps := ids) (by rw [he]; exact hl) hi
  rw [cellsAt_column, List.map_map] at this
  exact this

theorem updateBase_nonzero {s s' : ColState} {b : Base} (h : updateBase s b = .ok s') : b.sampleSize ≠ 0 := by
  intro h0
  unfold updateBase at h
  rw [if_pos h0] at h
  cases h

/-- The facts needed about one column of an update. -/
structure ColStep (env : Env σ η) (isn : String → Bool) (P : String → σ → List String → Prop) (c' : Col σ) (key : Option Key)
    (V : List (ℤ × List String)) (r : Option (ℤ × ℤ)) (p : ℕ) : Prop where
  base : FitsB isn c'.base.asBase (cellsOf V p)
  ids : c'.base.ids = r
  name : c'.name = key
  kinds : PyDict.keys c'.compilers = env.kinds.map Prod.fst
  profs : ∀ kc ∈ c'.compilers, ∀ tp ∈ kc.2.profs, ∃ vs, vs.Perm (valuesOf isn V p) ∧ P tp.1 tp.2.state vs

theorem tinv_update (env : Env σ η) (hl : Idem env.lower) (hset : ∀ l, (env.setOrder l).Perm l) (isn : String → Bool)
    (hisn : ∀ p j, env.isNull p j = isn) (P : String → σ → List String → Prop) (hP : Law env.ops P) (h : Hist)
    (pool : Option TableSched) (hp : ∀ s ∈ pool, s.Fair) (u : Upd) (hu : u.Sensible) (hr : u.data.rows ≠ [])
    (t t' : TableProf σ η) (ht : Shaped env.lower t) (V : List (ℤ × List String)) (r : Option (ℤ × ℤ))
    (hi : TInv env isn P h t V r) (hrun : updateTable env pool u t = .ok t') :
    ∃ V' r', TInv env isn P (.update h pool u) t' V' r' := by
  obtain ⟨m, hm, heach, hother⟩ := C21_each_column_once env hl pool hp u t t' ht hr hrun
  obtain ⟨_, _, cols', _, _, _, hfin⟩ := (updateTable_iff env pool u t t' hr).1 hrun
  obtain ⟨ids, hids, hclean⟩ := clean_table env hset isn hisn u hu hr
  have hcn : t.cols = [] ↔ h.names = [] := by
    rw [← List.length_eq_zero_iff, ← List.length_eq_zero_iff, hi.len]
  -- names of the profile afterwards
  obtain ⟨N, hN⟩ : ∃ N, N = (Hist.update h pool u).names := ⟨_, rfl⟩
  have hN1 : h.names = [] → N = u.data.names := by
    intro h0
    rw [hN, Hist.names, if_neg (by simp [hr, h0])]
  have hN2 : h.names ≠ [] → N = h.names := by
    intro h0
    rw [hN, Hist.names, if_pos (.inr h0)]
  have hNne : N ≠ [] := by
    by_cases h0 : h.names = []
    · rw [hN1 h0]; exact hu.names
    · rw [hN2 h0]; exact h0
  obtain ⟨start, hstart⟩ : ∃ start, start = (if t.cols = [] then u.data.names.map fun _ => Col.new else t.cols) := ⟨_, rfl⟩
  rw [← hstart] at heach hother
  have hslen : start.length = N.length := by
    rw [hstart]
    split_ifs with h0
    · rw [hN1 (hcn.1 h0), List.length_map]
    · rw [hN2 (fun h1 => h0 (hcn.2 h1)), hi.len]
  -- sources
  have hsrc : ∀ p < N.length, sourceCol env.lower u.data.names N p < u.data.names.length ∧
      PyDict.get? m (sourceCol env.lower u.data.names N p) = some p := by
    intro p hpl
    by_cases h0 : h.names = []
    · have hs : t.schema = [] := by rw [hi.schema, h0]; rfl
      obtain ⟨⟨m', h1, h2, h3⟩, _⟩ := C19_empty (lower := env.lower) u.data.names
      rw [hs] at hm
      have he : schemaOf env.lower [] = [] := rfl
      rw [he, hm] at h1
      cases h1
      rw [hN1 h0] at hpl ⊢
      rw [sourceCol_self _ _ _ hpl]
      refine ⟨hpl, ?_⟩
      have hk : p ∈ PyDict.keys m := h2.mem_iff.2 (List.mem_range.2 hpl)
      obtain ⟨q, hq⟩ := (PyDict.mem_keys_iff _ _).1 hk
      rw [hq, ← h3 p q hq]
    · rw [hN2 h0] at hpl ⊢
      rw [hi.schema] at hm
      exact update_source hl u.data.names h.names hu.names h0 m hm p hpl
  obtain ⟨sh, hsh⟩ : ∃ sh, sh = shiftOf r (batchIds u.data) := ⟨_, rfl⟩
  obtain ⟨W, hW⟩ : ∃ W, W = (rowsAt u.data ids).map fun x => (x.1 + sh, align env.lower u.data.names N x.2) := ⟨_, rfl⟩
  obtain ⟨r', hr'⟩ : ∃ r', r' = mergeIds r ((batchIds u.data).map fun x => (x.1 + sh, x.2 + sh)) := ⟨_, rfl⟩
  have hcellW : ∀ p < N.length, cellsOf W p =
      ((rowsAt u.data ids).map fun x => (x.1, x.2.getD (sourceCol env.lower u.data.names N p) "")).map
        fun c => (c.1 + sh, c.2) := by
    intro p hpl
    rw [hW]
    unfold cellsOf
    rw [List.map_map, List.map_map]
    apply List.map_congr_left
    intro x _
    simp only [Function.comp_apply]
    rw [align_getD _ _ _ _ _ hpl]
  have hvalW : ∀ p < N.length, valuesOf isn W p =
      ((rowsAt u.data ids).map (fun x => x.2.getD (sourceCol env.lower u.data.names N p) "") |>.filter fun t => !isn t) := by
    intro p hpl
    rw [hW]
    unfold valuesOf
    rw [List.map_map]
    congr 1
    apply List.map_congr_left
    intro x _
    simp only [Function.comp_apply]
    rw [align_getD _ _ _ _ _ hpl]
  have hWne : rowsAt u.data ids ≠ [] := by
    intro h0
    have := rowsAt_length u.data ids hids.bound
    rw [h0, hids.length] at this
    have h1 := List.length_pos_iff.2 hr
    have h2 := hu.sample
    simp only [List.length_nil] at this
    omega
  -- one column
  have hcol : ∀ p < N.length, ∃ c', t'.cols[p]? = some c' ∧ ColStep env isn P c' N[p]? (V ++ W) r' p := by
    intro p hpl
    obtain ⟨h1, h2⟩ := hsrc p hpl
    obtain ⟨p', c, c', vals, b, name, s, e1, e2, e3, e4, e5, e6, e7, e8, e9, e10⟩ := heach _ h1
    rw [h2] at e1
    cases e1
    obtain ⟨vals', b', g1, g2, g3, g4⟩ := hclean p (sourceCol env.lower u.data.names N p)
    rw [g1] at e4
    cases e4
    have hc : FitsB isn c.base.asBase (cellsOf V p) ∧ c.base.ids = r ∧ (c.name = none ∨ c.name = N[p]?) ∧
        (c.compilers = [] ∨ PyDict.keys c.compilers = env.kinds.map Prod.fst) ∧
        (c.compilers = [] → env.kinds ≠ [] → valuesOf isn V p = []) ∧
        (∀ kc ∈ c.compilers, ∀ tp ∈ kc.2.profs, ∃ vs, vs.Perm (valuesOf isn V p) ∧ P tp.1 tp.2.state vs) ∧
        (c.name = none → h.names = []) := by
      by_cases h0 : h.names = []
      · obtain ⟨hv, hr0⟩ := hi.unfed h0
        rw [hstart, if_pos (hcn.2 h0), List.getElem?_map] at e2
        obtain ⟨_, _, rfl⟩ := Option.map_eq_some_iff.1 e2
        subst hv hr0
        exact ⟨fits_new isn, rfl, .inl rfl, .inl rfl, fun _ _ => rfl, by simp [Col.new], fun _ => h0⟩
      · rw [hstart, if_neg (fun h1 => h0 (hcn.1 h1))] at e2
        obtain ⟨f1, f2⟩ := hi.base p c e2
        refine ⟨f1, f2, .inr (by rw [hN2 h0]; exact hi.name p c e2), .inr (hi.kinds p c e2), ?_, hi.profs p c e2, ?_⟩
        · intro h1 h2
          have := hi.kinds p c e2
          rw [h1] at this
          exact absurd (List.map_eq_nil_iff.1 this.symm) h2
        · intro h1
          have := hi.name p c e2
          rw [h1, List.getElem?_eq_getElem (by rw [← hN2 h0]; exact hpl)] at this
          cases this
    obtain ⟨c1, c2, c3, c4, c5, c6, c7⟩ := hc
    refine ⟨c', e3, ?_⟩
    obtain ⟨f1, f2⟩ := fits_update c1 g3 (by
      intro h0
      exact hWne (List.map_eq_nil_iff.1 h0)) e5
    rw [c2, g4, ← hsh] at f1 f2
    constructor
    · rw [e6, cellsOf_append, hcellW p hpl]
      exact f1
    · rw [e6, f2, hr']
    · rw [e9]
      rcases e8 with e8 | e8
      · have h0 := c7 e8
        rw [hN1 h0] at hpl ⊢
        rw [hN1 h0, sourceCol_self _ _ _ hpl] at e7
        exact e7.symm
      · rcases c3 with c3 | c3
        · rw [c3] at e8; cases e8
        · rw [← c3, e8]
    · rw [← keys_norm]
      exact (forall₂_keys (fun _ _ h => h.1) e10).trans (startComps_keys _ _ _ _ c4)
    · rw [valuesOf_append, hvalW p hpl]
      exact profs_update hP c6 c5 g2 e10
  have hlen : t'.cols.length = N.length := by
    apply Nat.le_antisymm
    · by_contra h0
      have hlt : N.length < t'.cols.length := by omega
      have h1 := hother N.length (by
        intro j hj he
        obtain ⟨p', c, _, _, _, _, _, e1, e2, _⟩ := heach j hj
        rw [he] at e1
        cases e1
        have := (List.getElem?_eq_some_iff.1 e2).1
        omega)
      rw [List.getElem?_eq_getElem hlt, List.getElem?_eq_none (by omega)] at h1
      cases h1
    · by_contra h0
      obtain ⟨c', h1, _⟩ := hcol t'.cols.length (by omega)
      rw [List.getElem?_eq_none (Nat.le_refl _)] at h1
      cases h1
  have hcol' : ∀ (p : ℕ) (c : Col σ), t'.cols[p]? = some c → ColStep env isn P c N[p]? (V ++ W) r' p := by
    intro p c hc
    have hpl : p < N.length := by rw [← hlen]; exact (List.getElem?_eq_some_iff.1 hc).1
    obtain ⟨c', h1, h2⟩ := hcol p hpl
    rw [hc] at h1
    cases h1
    exact h2
  have hrange := batchIds_range u.data
  have hids' : ((V ++ W).map Prod.fst).Nodup := by
    rw [hW, hsh]
    exact shift_nodup hi.ids (rowsAt_nodup hu.labels (hids.sorted.imp (fun h => Nat.ne_of_lt h))) hi.range
      (fun v hv => hrange v (rowsAt_mem hv)) (batchIds_nonneg u.data hu.nonneg) _
  have hrowlen : ∀ v ∈ V ++ W, v.2.length = N.length := by
    intro v hv
    rcases List.mem_append.1 hv with hv | hv
    · by_cases h0 : h.names = []
      · rw [(hi.unfed h0).1] at hv; simp at hv
      · rw [hN2 h0]; exact hi.rowlen v hv
    · rw [hW] at hv
      obtain ⟨x, _, rfl⟩ := List.mem_map.1 hv
      exact align_length _ _ _ _
  obtain ⟨n2, n1⟩ := count_nulls (isn := isn) (V := V ++ W) (n := N.length) t'.cols (List.length_pos_iff.2 hNne) hlen hids' hrowlen
    (fun p c hc => (hcol' p c hc).base)
  have hlab : ∀ cols : List (Col σ), sampledLabels u cols = none := by
    intro cols
    unfold sampledLabels
    rw [if_pos hu.minTrue]
  obtain ⟨t1, ht1⟩ : ∃ t1 : TableProf σ η, t1 = { t with cols := cols', schema := if t.cols = [] then schemaOf env.lower u.data.names else t.schema, total := t.total + u.data.rows.length } := ⟨_, rfl⟩
  rw [← ht1] at hfin
  have hopts : t'.opts = t.opts := by
    rw [hfin]; split_ifs
    · rw [(rowStats_cols _ _ _).2.2.1, ht1]
    · rw [ht1]
  have hsch : t'.schema = schemaOf env.lower N := by
    have : t'.schema = t1.schema := by
      rw [hfin]; split_ifs
      · rw [(rowStats_cols _ _ _).2.1]
      · rfl
    rw [this, ht1]
    simp only
    split_ifs with h0
    · rw [hN1 (hcn.1 h0)]
    · rw [hi.schema, hN2 (fun h1 => h0 (hcn.2 h1))]
  have htot : t'.total = t.total + u.data.rows.length := by
    have : t'.total = t1.total := by
      rw [hfin]; split_ifs
      · rw [(rowStats_cols _ _ _).2.2.2]
      · rfl
    rw [this, ht1]
  have hcols' : t'.cols = cols' := by
    have : t'.cols = t1.cols := by
      rw [hfin]; split_ifs
      · rw [(rowStats_cols _ _ _).1]
      · rfl
    rw [this, ht1]
  refine ⟨V ++ W, r', ?_⟩
  constructor
  · rw [hlen, hN]
  · rw [hsch, hN]
  · rw [htot, hi.total, Hist.rows, List.length_append, List.length_map]
  · exact hids'
  · rw [← hN]; exact hrowlen
  · rw [List.map_append, hW, List.map_map]
    have := Sampled.update (pool := pool) hr hi.sampled hids
    rw [← hN] at this
    exact this
  · intro _ h0
    apply hWne
    have := (List.append_eq_nil_iff.1 h0).2
    rw [hW] at this
    exact List.map_eq_nil_iff.1 this
  · intro h0; exact absurd (hN.trans h0) hNne
  · rw [hW, hr']
    exact shift_range hi.range (fun v hv => hrange v (rowsAt_mem hv)) sh _
  · intro p c hc; exact ⟨(hcol' p c hc).base, (hcol' p c hc).ids⟩
  · intro p c hc; rw [← hN]; exact (hcol' p c hc).name
  · intro p c hc; exact (hcol' p c hc).kinds
  · intro p c hc; exact (hcol' p c hc).profs
  · intro he hnl
    rw [hopts] at he hnl
    rw [hfin, if_pos he]
    have hq : t1.cols.map (countedNulls none) = t'.cols.map fun c => nullIds c.base := by
      rw [hcols', ht1]
      rfl
    unfold rowStats
    dsimp only
    rw [hlab, hq]
    have h1 : t1.opts.nulls = true := by rw [ht1]; exact hnl
    rw [if_neg (by rw [h1]; simp), if_pos hu.minTrue]
    exact ⟨n2, n1⟩
  · intro hh
    rw [hopts] at hh
    obtain ⟨hs, h1, h2⟩ := hi.rows hh
    have h1' : t1.rows = .full hs := by rw [ht1]; exact h1
    by_cases he : t.opts.enabled = true
    · rw [hfin, if_pos he]
      have hro : (rowStats env u t1).rows = if t1.opts.unique then addHashes env u t1.rows else t1.rows := by
        unfold rowStats
        dsimp only
        split_ifs <;> rfl
      rw [hro, h1']
      by_cases hun : t1.opts.unique = true
      · rw [if_pos hun]
        refine ⟨_, rfl, fun _ _ => ?_⟩
        obtain ⟨k1, k2⟩ := h2 he (by rw [ht1] at hun; exact hun)
        refine ⟨unionSet_nodup _ k1, fun x => ?_⟩
        rw [mem_unionSet, k2, Hist.rows]
        simp only [List.mem_append, List.mem_map]
        constructor
        · rintro (⟨y, hy, rfl⟩ | ⟨y, hy, rfl⟩)
          · exact ⟨y, .inl hy, rfl⟩
          · exact ⟨y.2, .inr ⟨y, hy, rfl⟩, rfl⟩
        · rintro ⟨y, hy | ⟨z, hz, rfl⟩, rfl⟩
          · exact .inl ⟨y, hy, rfl⟩
          · exact .inr ⟨z, hz, rfl⟩
      · rw [if_neg hun]
        refine ⟨hs, rfl, fun _ hu' => absurd ?_ hun⟩
        rwa [(rowStats_cols _ _ _).2.2.1] at hu'
    · rw [hfin, if_neg he]
      refine ⟨hs, h1', fun he' => absurd ?_ he⟩
      rw [ht1] at he'
      exact he'

/-! ## Merging -/

theorem mergeCol_ok {ops : Ops σ} {a b c : Col σ} (h : mergeCol ops a b = .ok c) :
    a.name = b.name ∧ c.name = a.name ∧ mergeState a.base b.base = .ok c.base ∧
      List.Forall₂ (fun x y => y.1 = x.1 ∧ ∃ d, PyDict.get? b.compilers x.1 = some d ∧ mergeCompiler ops x.2 d = .ok y.2)
        a.compilers c.compilers := by
  unfold mergeCol at h
  split_ifs at h with h1 h2
  cases h3 : mergeState a.base b.base with
  | error e => simp [h3] at h
  | ok s =>
    simp only [h3] at h
    cases h4 : mergeDict (fun _ => mergeCompiler ops) b.compilers a.compilers with
    | error e => simp [h4] at h
    | ok cs =>
      simp only [h4, Except.ok.injEq] at h
      subst h
      exact ⟨by simpa using h1, rfl, rfl, (mergeDict_iff _ _ _ _).1 h4⟩

theorem mergeCompiler_ok {ops : Ops σ} {a b c : Compiler σ} (h : mergeCompiler ops a b = .ok c) :
    List.Forall₂ (fun x y => y.1 = x.1 ∧ ∃ d, PyDict.get? b.profs x.1 = some d ∧
      ops.merge x.1 x.2.state d.state = .ok y.2.state) a.profs c.profs := by
  unfold mergeCompiler at h
  split_ifs at h with h1 h2 h3
  cases h4 : mergeDict (mergeProf ops) b.profs a.profs with
  | error e => simp [h4] at h
  | ok ps =>
    simp only [h4, Except.ok.injEq] at h
    subst h
    refine ((mergeDict_iff _ _ _ _).1 h4).imp ?_
    rintro x y ⟨g1, d, g2, g3⟩
    refine ⟨g1, d, g2, ?_⟩
    unfold mergeProf at g3
    cases g4 : ops.merge x.1 x.2.state d.state with
    | error e => simp [g4] at g3
    | ok s =>
      simp only [g4, Except.ok.injEq] at g3
      rw [← g3]

theorem profs_merge {ops : Ops σ} {P : String → σ → List String → Prop} (hP : Law ops P) {a b c : Col σ} {vs ws : List String}
    (ha : ∀ kc ∈ a.compilers, ∀ tp ∈ kc.2.profs, ∃ l, l.Perm vs ∧ P tp.1 tp.2.state l)
    (hb : ∀ kc ∈ b.compilers, ∀ tp ∈ kc.2.profs, ∃ l, l.Perm ws ∧ P tp.1 tp.2.state l)
    (h : mergeCol ops a b = .ok c) :
    ∀ kc ∈ c.compilers, ∀ tp ∈ kc.2.profs, ∃ l, l.Perm (vs ++ ws) ∧ P tp.1 tp.2.state l := by
  intro kc hkc tp htp
  obtain ⟨_, _, _, h4⟩ := mergeCol_ok h
  obtain ⟨x, hx, h5, d, h6, h7⟩ := forall₂_mem_right h4 hkc
  obtain ⟨y, hy, h8, e, h9, h10⟩ := forall₂_mem_right (mergeCompiler_ok h7) htp
  obtain ⟨l1, p1, q1⟩ := ha x hx y hy
  obtain ⟨l2, p2, q2⟩ := hb _ (PyDict.mem_of_get? h6) _ (PyDict.mem_of_get? h9)
  exact ⟨l1 ++ l2, p1.append p2, by rw [h8]; exact hP.merge _ _ _ _ _ _ q1 q2 h10⟩

/-- Every column of the second operand is used. -/
theorem merge_source_surj {lower : String → String} (hl : Idem lower) (an bn : List Key) (ha : an ≠ []) (hb' : bn ≠ [])
    (m : PyDict ℕ ℕ) (h : getMapping lower (schemaOf lower an) (schemaOf lower bn) false = .ok m) (j : ℕ)
    (hlt : j < bn.length) : ∃ p < an.length, sourceCol lower bn an p = j := by
  have hb := C19_bijection hl an bn false ha hb' m h
  have hwf : PyDict.WF m := hb.dom.nodup_iff.2 List.nodup_range
  have hmem : j ∈ PyDict.values m := by
    rw [hb.cod.mem_iff, names_length]
    exact List.mem_range.2 hlt
  obtain ⟨⟨p, j'⟩, hpj, he⟩ := List.mem_map.1 hmem
  simp only at he
  subst he
  have hg := (PyDict.mem_iff_get? hwf p j').1 hpj
  have hp : p < an.length := by
    have : p ∈ PyDict.keys m := (PyDict.mem_keys_iff _ _).2 ⟨_, hg⟩
    rw [hb.dom.mem_iff, names_length] at this
    exact List.mem_range.1 this
  refine ⟨p, hp, ?_⟩
  have := (merge_source hl an bn ha hb' m h p hp).2
  rw [hg] at this
  exact (Option.some.inj this).symm

theorem align_any {lower : String → String} (hl : Idem lower) (an bn : List Key) (ha : an ≠ []) (hb' : bn ≠ [])
    (m : PyDict ℕ ℕ) (h : getMapping lower (schemaOf lower an) (schemaOf lower bn) false = .ok m) (isn : String → Bool)
    (row : List String) (hrow : row.length = bn.length) :
    (align lower bn an row).any isn = row.any isn ∧ (align lower bn an row).all isn = row.all isn := by
  constructor
  · rw [Bool.eq_iff_iff, any_iff, any_iff, align_length, hrow]
    constructor
    · rintro ⟨p, hp, hq⟩
      rw [align_getD _ _ _ _ _ hp] at hq
      exact ⟨_, (merge_source hl an bn ha hb' m h p hp).1, hq⟩
    · rintro ⟨j, hj, hq⟩
      obtain ⟨p, hp, rfl⟩ := merge_source_surj hl an bn ha hb' m h j hj
      exact ⟨p, hp, by rw [align_getD _ _ _ _ _ hp]; exact hq⟩
  · rw [Bool.eq_iff_iff, all_iff, all_iff, align_length, hrow]
    constructor
    · intro hq j hj
      obtain ⟨p, hp, rfl⟩ := merge_source_surj hl an bn ha hb' m h j hj
      have := hq p hp
      rwa [align_getD _ _ _ _ _ hp] at this
    · intro hq p hp
      rw [align_getD _ _ _ _ _ hp]
      exact hq _ (merge_source hl an bn ha hb' m h p hp).1

theorem addChecks_ok {env : Env σ η} {a b : TableProf σ η} (h : addChecks env a b = .ok ()) :
    (∃ m, getMapping env.lower a.schema b.schema true = .ok m) ∧ a.opts = b.opts := by
  unfold addChecks at h
  cases h1 : getMapping env.lower a.schema b.schema true with
  | error e => simp [h1] at h
  | ok m =>
    simp only [h1] at h
    split_ifs at h with h2 h3 h4 h5
    refine ⟨⟨m, rfl⟩, ?_⟩
    cases ha : a.opts
    cases hb : b.opts
    rw [ha, hb] at h2 h3 h4 h5
    simp only [ne_eq, not_not] at h2 h3 h4 h5
    rw [h2, h3, h4, h5]

theorem tinv_merge (env : Env σ η) (hl : Idem env.lower) (isn : String → Bool)
    (P : String → σ → List String → Prop) (hP : Law env.ops P) (h1 h2 : Hist) (a b t : TableProf σ η)
    (V W : List (ℤ × List String)) (r s : Option (ℤ × ℤ)) (hi : TInv env isn P h1 a V r) (hj : TInv env isn P h2 b W s)
    (hrun : (mergeTable env a b).1 = .ok t) : ∃ V' r', TInv env isn P (.merge h1 h2) t V' r' := by
  obtain ⟨hchk, m, cs, hm, hcs, ht⟩ := (mergeTable_iff env a b t).1 hrun
  obtain ⟨⟨m', hm'⟩, hopts⟩ := addChecks_ok hchk
  rw [hi.schema, hj.schema] at hm hm'
  have hne1 : h1.names ≠ [] := by
    intro h0
    rw [h0, (C19_empty (lower := env.lower) h2.names).2.2] at hm'
    cases hm'
  have hne2 : h2.names ≠ [] := by
    intro h0
    rw [h0, (C19_empty (lower := env.lower) h1.names).2.1] at hm'
    cases hm'
  obtain ⟨l1, l2⟩ := (mergeCols_spec env.ops m b.cols 0 a.cols cs).1 hcs
  have hlen : t.cols.length = h1.names.length := by rw [ht]; simp only; rw [l1, hi.len]
  have hs0 : ∀ lo hi, s = some (lo, hi) → 0 ≤ lo ∧ lo ≤ hi := by
    have hb0 : 0 < b.cols.length := by rw [hj.len]; exact List.length_pos_iff.2 hne2
    obtain ⟨f, e⟩ := hj.base 0 _ (List.getElem?_eq_getElem hb0)
    intro lo hi he
    exact f.inv.ids lo hi (e.trans he)
  obtain ⟨U, hU⟩ : ∃ U, U = W.map fun x => (x.1 + shiftOf r s, align env.lower h2.names h1.names x.2) := ⟨_, rfl⟩
  have hcell : ∀ p < h1.names.length, cellsOf U p = (cellsOf W (sourceCol env.lower h2.names h1.names p)).map
      fun c => (c.1 + shiftOf r s, c.2) := by
    intro p hp
    rw [hU]
    unfold cellsOf
    rw [List.map_map, List.map_map]
    apply List.map_congr_left
    intro x _
    simp only [Function.comp_apply]
    rw [align_getD _ _ _ _ _ hp]
  have hval : ∀ p < h1.names.length, valuesOf isn U p = valuesOf isn W (sourceCol env.lower h2.names h1.names p) := by
    intro p hp
    rw [hU]
    unfold valuesOf
    rw [List.map_map]
    congr 1
    apply List.map_congr_left
    intro x _
    simp only [Function.comp_apply]
    rw [align_getD _ _ _ _ _ hp]
  have hcol : ∀ (p : ℕ) (c : Col σ), t.cols[p]? = some c → ColStep env isn P c h1.names[p]? (V ++ U)
      (mergeIds r (s.map fun x => (x.1 + shiftOf r s, x.2 + shiftOf r s))) p := by
    intro p c hc
    have hp : p < h1.names.length := by rw [← hlen]; exact (List.getElem?_eq_some_iff.1 hc).1
    have hpa : p < a.cols.length := by rw [hi.len]; exact hp
    obtain ⟨j, b', c', g1, g2, g3, g4⟩ := l2 p _ (List.getElem?_eq_getElem hpa)
    rw [ht] at hc
    simp only at hc
    rw [g4] at hc
    cases hc
    rw [Nat.zero_add, target_ok, (merge_source hl _ _ hne1 hne2 m hm p hp).2] at g1
    cases g1
    obtain ⟨k1, k2, k3, k4⟩ := mergeCol_ok g3
    obtain ⟨fa, ea⟩ := hi.base p _ (List.getElem?_eq_getElem hpa)
    obtain ⟨fb, eb⟩ := hj.base _ _ g2
    obtain ⟨f1, f2⟩ := fits_merge fa fb (by
      intro h0
      exact hi.fed hne1 (List.map_eq_nil_iff.1 h0)) (by
      intro h0
      exact hj.fed hne2 (List.map_eq_nil_iff.1 h0)) k3
    rw [ea, eb] at f1 f2
    constructor
    · rw [cellsOf_append, hcell p hp]; exact f1
    · exact f2
    · rw [k2]; exact hi.name p _ (List.getElem?_eq_getElem hpa)
    · exact (forall₂_keys (fun _ _ h => h.1) k4).trans (hi.kinds p _ (List.getElem?_eq_getElem hpa))
    · rw [valuesOf_append, hval p hp]
      exact profs_merge hP (hi.profs p _ (List.getElem?_eq_getElem hpa)) (hj.profs _ _ g2) g3
  have hcount : ∀ f : List String → Bool, (∀ row, row.length = h2.names.length → f (align env.lower h2.names h1.names row) = f row) →
      (V ++ U).countP (fun v => f v.2) = V.countP (fun v => f v.2) + W.countP (fun v => f v.2) := by
    intro f hf
    rw [List.countP_append, hU, List.countP_map]
    congr 1
    apply List.countP_congr
    intro x hx
    simp only [Function.comp_apply]
    rw [hf x.2 (hj.rowlen x hx)]
  refine ⟨V ++ U, mergeIds r (s.map fun x => (x.1 + shiftOf r s, x.2 + shiftOf r s)), ?_⟩
  constructor
  · exact hlen
  · rw [ht]; exact hi.schema
  · rw [ht]; simp only [Hist.rows, List.length_append]; rw [hi.total, hj.total]
  · rw [hU]; exact shift_nodup hi.ids hj.ids hi.range hj.range hs0 _
  · intro v hv
    rcases List.mem_append.1 hv with hv | hv
    · exact hi.rowlen v hv
    · rw [hU] at hv
      obtain ⟨x, _, rfl⟩ := List.mem_map.1 hv
      exact align_length _ _ _ _
  · rw [List.map_append, hU, List.map_map]
    have := Sampled.merge hi.sampled hj.sampled
    rw [List.map_map] at this
    exact this
  · intro _ h0
    exact hi.fed hne1 (List.append_eq_nil_iff.1 h0).1
  · intro h0; exact absurd h0 hne1
  · rw [hU]
    exact shift_range hi.range hj.range _ _
  · intro p c hc; exact ⟨(hcol p c hc).base, (hcol p c hc).ids⟩
  · intro p c hc; exact (hcol p c hc).name
  · intro p c hc; exact (hcol p c hc).kinds
  · intro p c hc; exact (hcol p c hc).profs
  · intro he hn
    rw [ht] at he hn ⊢
    simp only at he hn ⊢
    obtain ⟨n1, n2⟩ := hi.nulls he hn
    obtain ⟨n3, n4⟩ := hj.nulls (by rw [← hopts]; exact he) (by rw [← hopts]; exact hn)
    rw [if_pos he, if_pos he, n1, n2, n3, n4]
    exact ⟨(hcount (fun row => row.any isn) fun row hr => (align_any hl _ _ hne1 hne2 m hm isn row hr).1).symm,
      (hcount (fun row => row.all isn) fun row hr => (align_any hl _ _ hne1 hne2 m hm isn row hr).2).symm⟩
  · intro hh
    rw [ht] at hh ⊢
    simp only at hh ⊢
    obtain ⟨hs1, r1, r2⟩ := hi.rows hh
    obtain ⟨hs2, r3, r4⟩ := hj.rows (by rw [← hopts]; exact hh)
    unfold mergeRows
    by_cases he : (a.opts.enabled && a.opts.unique) = true
    · rw [if_pos he, r1, r3]
      refine ⟨_, rfl, fun he1 he2 => ?_⟩
      obtain ⟨q1, q2⟩ := r2 he1 he2
      obtain ⟨q3, q4⟩ := r4 (by rw [← hopts]; exact he1) (by rw [← hopts]; exact he2)
      refine ⟨unionSet_nodup _ (unionSet_nodup _ List.nodup_nil), fun x => ?_⟩
      rw [mem_unionSet, mem_unionSet, q2, q4]
      simp only [List.not_mem_nil, false_or, Hist.rows, List.mem_append]
      constructor
      · rintro (⟨y, hy, rfl⟩ | ⟨y, hy, rfl⟩)
        · exact ⟨y, .inl hy, rfl⟩
        · exact ⟨y, .inr hy, rfl⟩
      · rintro ⟨y, hy | hy, rfl⟩
        · exact .inl ⟨y, hy, rfl⟩
        · exact .inr ⟨y, hy, rfl⟩
    · rw [if_neg he, hh]
      refine ⟨[], rfl, fun h1 h2 => absurd ?_ he⟩
      simp [h1, h2]

/-- The invariant holds after every history. -/
theorem tinv_run (env : Env σ η) (hl : Idem env.lower) (hset : ∀ l, (env.setOrder l).Perm l) (isn : String → Bool)
    (hisn : ∀ p j, env.isNull p j = isn) (P : String → σ → List String → Prop) (hP : Law env.ops P) (h : Hist)
    (hf : h.Fair) (hs : h.Sensible) (t : TableProf σ η) (ht : run env h = .ok t) :
    ∃ V r, TInv env isn P h t V r := by
  induction h generalizing t with
  | new o =>
    cases ht
    exact ⟨[], none, TInv.new env isn P o⟩
  | update h pool u ih =>
    rw [run] at ht
    cases h1 : run env h with
    | error e => simp [h1] at ht
    | ok t0 =>
      simp only [h1] at ht
      obtain ⟨V, r, hi⟩ := ih hf.1 hs.1 t0 h1
      by_cases hr : u.data.rows = []
      · unfold updateTable at ht
        rw [if_pos hr] at ht
        cases ht
        have hn : (Hist.update h pool u).names = h.names := by rw [Hist.names, if_pos (.inl hr)]
        have hrw : (Hist.update h pool u).rows = h.rows := by rw [Hist.rows, hr]; simp
        refine ⟨V, r, ?_⟩
        obtain ⟨i1, i2, i3, i4, i5, i6, i7, i8, i9, i10, i11, i12, i13, i14, i15⟩ := hi
        constructor
        · rw [hn]; exact i1
        · rw [hn]; exact i2
        · rw [hrw]; exact i3
        · exact i4
        · rw [hn]; exact i5
        · exact .nothing hr i6
        · rw [hn]; exact i7
        · rw [hn]; exact i8
        · exact i9
        · exact i10
        · rw [hn]; exact i11
        · exact i12
        · exact i13
        · exact i14
        · rw [hrw]; exact i15
      · exact tinv_update env hl hset isn hisn P hP h pool hf.2 u (hs.2 hr) hr t0 t
          (run_shaped env hl h hf.1 t0 h1) V r hi ht
  | merge h1 h2 ih1 ih2 =>
    rw [run] at ht
    cases g1 : run env h1 with
    | error e => simp [g1] at ht
    | ok a =>
      cases g2 : run env h2 with
      | error e => simp [g1, g2] at ht
      | ok b =>
        simp only [g1, g2] at ht
        obtain ⟨V, r, hi⟩ := ih1 hf.1 hs.1 a g1
        obtain ⟨W, s, hj⟩ := ih2 hf.2 hs.2 b g2
        exact tinv_merge env hl isn P hP h1 h2 a b t V W r s hi hj ht

end Verif.Table
