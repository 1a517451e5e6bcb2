import Verif.Spec.TableData
import Verif.Props.TablePool
import Verif.Props.Nulls

namespace Verif.Table

open Verif Verif.Schema Verif.Nulls Verif.SchemaSpec Verif.NullsSpec

variable {σ η : Type}

/-! ## Base statistics with explicit row ids -/

/-- `b` describes the cells `cs`, ids included. -/
structure FitsB (isn : String → Bool) (b : Base) (cs : List Cell) : Prop where
  inv : BInv isn b cs
  mem : ∀ t x, x ∈ PyDict.getD b.nullTypes t [] ↔ isn t = true ∧ (x, t) ∈ cs

theorem nullCells_texts {isn : String → Bool} {cs ds : List Cell} (h : cs.map Prod.snd = ds.map Prod.snd) :
    (nullCells isn cs).map Prod.snd = (nullCells isn ds).map Prod.snd := by
  have e : ∀ l : List Cell, (nullCells isn l).map Prod.snd = (l.map Prod.snd).filter isn := by
    intro l
    unfold nullCells
    rw [List.filter_map]
    rfl
  rw [e, e, h]

theorem countP_texts {cs ds : List Cell} (h : cs.map Prod.snd = ds.map Prod.snd) (t : String) :
    cs.countP (fun c => c.2 = t) = ds.countP (fun c => c.2 = t) := by
  have e : ∀ l : List Cell, l.countP (fun c => c.2 = t) = (l.map Prod.snd).countP (fun s => s = t) := by
    intro l
    rw [List.countP_map]
    rfl
  rw [e, e, h]

theorem bInv_congr {isn : String → Bool} {b : Base} {cs ds : List Cell} (h : BInv isn b cs)
    (he : cs.map Prod.snd = ds.map Prod.snd) : BInv isn b ds := by
  have hn := nullCells_texts (isn := isn) he
  have hl : cs.length = ds.length := by simpa using congrArg List.length he
  have hnl : (nullCells isn cs).length = (nullCells isn ds).length := by simpa using congrArg List.length hn
  exact ⟨by rw [h.sampleSize, hl], by rw [h.nullCount, hnl], h.wf, fun t => by rw [h.keys, hn],
    fun t => ⟨(h.rows t).1, by rw [(h.rows t).2, countP_texts hn]⟩, h.bound, h.ids⟩

theorem fits_new (isn : String → Bool) : FitsB isn ColState.new.asBase [] :=
  ⟨new_inv isn, by simp [ColState.new, ColState.asBase, PyDict.getD, PyDict.get?]⟩

theorem fits_update {isn : String → Bool} {s : ColState} {b : Base} {cs ds : List Cell} (hs : FitsB isn s.asBase cs)
    (hb : FitsB isn b ds) (hd : ds ≠ []) {s' : ColState} (hu : updateBase s b = .ok s') :
    FitsB isn s'.asBase (cs ++ ds.map fun c => (c.1 + shiftOf s.ids b.ids, c.2)) ∧
      s'.ids = mergeIds s.ids (b.ids.map fun r => (r.1 + shiftOf s.ids b.ids, r.2 + shiftOf s.ids b.ids)) := by
  obtain ⟨s2, h1, h2, _, _⟩ := updateBase_inv hs.inv hb.inv hd
  rw [hu] at h1
  cases h1
  have hne : b.sampleSize ≠ 0 := by
    rw [hb.inv.sampleSize]; exact fun h => hd (List.length_eq_zero_iff.1 h)
  unfold updateBase at hu
  rw [if_neg hne] at hu
  have hu := Except.ok.inj hu
  obtain ⟨k1, k2⟩ := shift_dict b.nullTypes (shiftOf s.ids b.ids)
  have hwf : PyDict.WF (b.nullTypes.map fun kv => (kv.1, kv.2.map (· + shiftOf s.ids b.ids))) := by
    unfold PyDict.WF; rw [k1]; exact hb.inv.wf
  obtain ⟨_, r2, _⟩ := foldl_addRows _ s.index hwf hs.inv.wf
  refine ⟨⟨bInv_congr h2 ?_, ?_⟩, by rw [← hu]⟩
  · rw [List.map_append, List.map_append, List.map_map]
    rfl
  · intro t x
    have e : PyDict.getD s'.asBase.nullTypes t [] = unionSet (PyDict.getD s.index t [])
        ((PyDict.getD b.nullTypes t []).map (· + shiftOf s.ids b.ids)) := by
      rw [← hu]
      simp only [ColState.asBase]
      rw [r2, k2]
    have hs' : x ∈ PyDict.getD s.index t [] ↔ isn t = true ∧ (x, t) ∈ cs := hs.mem t x
    rw [e, mem_unionSet, hs', List.mem_append, List.mem_map, List.mem_map]
    constructor
    · rintro (⟨h1, h2⟩ | ⟨y, hy, rfl⟩)
      · exact ⟨h1, .inl h2⟩
      · obtain ⟨h3, h4⟩ := (hb.mem t y).1 hy
        exact ⟨h3, .inr ⟨(y, t), h4, rfl⟩⟩
    · rintro ⟨h1, h2 | ⟨⟨y, t'⟩, hy, he⟩⟩
      · exact .inl ⟨h1, h2⟩
      · cases he
        exact .inr ⟨y, (hb.mem t' y).2 ⟨h1, hy⟩, rfl⟩

theorem fits_merge {isn : String → Bool} {a b s' : ColState} {cs ds : List Cell} (ha : FitsB isn a.asBase cs)
    (hb : FitsB isn b.asBase ds) (hc : cs ≠ []) (hd : ds ≠ []) (hu : mergeState a b = .ok s') :
    FitsB isn s'.asBase (cs ++ ds.map fun c => (c.1 + shiftOf a.ids b.ids, c.2)) ∧
      s'.ids = mergeIds a.ids (b.ids.map fun r => (r.1 + shiftOf a.ids b.ids, r.2 + shiftOf a.ids b.ids)) := by
  unfold mergeState at hu
  cases h1 : updateBase .new a.asBase with
  | error e => simp [h1] at hu
  | ok m =>
    simp only [h1] at hu
    obtain ⟨f1, f2⟩ := fits_update (fits_new isn) ha hc h1
    have hz : shiftOf ColState.new.ids a.asBase.ids = 0 := rfl
    simp only [hz, Int.add_zero, List.nil_append] at f1 f2
    have hm : m.ids = a.ids := by
      rw [f2]
      simp [ColState.new, ColState.asBase, mergeIds]
    have hcs : (cs.map fun c => (c.1, c.2)) = cs := by simp
    rw [hcs] at f1
    have := fits_update f1 hb hd hu
    rw [hm] at this
    exact this

/-! ## One batch -/

/-- The range of labels of a batch. -/
def batchIds (d : Data) : Option (ℤ × ℤ) := idRange (d.column 0)

theorem idRange_column (d : Data) (j : ℕ) : idRange (d.column j) = batchIds d := by
  unfold batchIds Data.column
  cases d.rows with
  | nil => rfl
  | cons r rs => simp only [List.map_cons, idRange, List.foldl_map]

theorem cellsAt_column (d : Data) (j : ℕ) (ids : List ℕ) :
    cellsAt (d.column j) ids = (rowsAt d ids).map fun r => (r.1, r.2.getD j "") := by
  unfold cellsAt rowsAt Data.column
  rw [List.map_filterMap]
  congr 1
  funext i
  rw [List.getElem?_map]

theorem rowsAt_length (d : Data) (ids : List ℕ) (h : ∀ i ∈ ids, i < d.rows.length) : (rowsAt d ids).length = ids.length := by
  have := cellsAt_length (d.column 0) ids (by simpa [Data.column] using h)
  rw [cellsAt_column] at this
  simpa using this

theorem clean_table (env : Env σ η) (hset : ∀ l, (env.setOrder l).Perm l) (isn : String → Bool)
    (hisn : ∀ p j, env.isNull p j = isn) (u : Upd) (hu : u.Sensible) (hr : u.data.rows ≠ []) :
    ∃ ids, SampleIds u.data.rows.length u.sampleSize ids ∧ ∀ p j, ∃ vals b, cleanCol env u p j = .ok (vals, b) ∧
      vals.Perm ((rowsAt u.data ids).map (fun r => r.2.getD j "") |>.filter fun t => !isn t) ∧
      FitsB isn b ((rowsAt u.data ids).map fun r => (r.1, r.2.getD j "")) ∧ b.ids = batchIds u.data := by
  have hl : ∀ j, ((u.data.column j).map Prod.fst).Nodup := by
    intro j
    have : (u.data.column j).map Prod.fst = u.data.rows.map Prod.fst := by simp [Data.column]
    rw [this]
    exact hu.labels
  have hlen : ∀ j, (u.data.column j).length = u.data.rows.length := by simp [Data.column]
  have hne : ∀ j, u.data.column j ≠ [] := by
    intro j h
    have := hlen j
    rw [h] at this
    exact hr (List.length_eq_zero_iff.1 this.symm)
  have ht := fun j => C17_table_chunks (u.data.column j) u.sampleSize u.minTrue u.draws (by rw [hlen]; exact hu.draws)
    (hl j) (hne j) hu.sample
  simp only [hlen] at ht
  obtain ⟨chunks, c1, c2, c3, _⟩ := ht 0
  obtain ⟨ids, rfl, i2, i3⟩ := c3 hu.minTrue
  have hb : ∀ i ∈ ids, i < u.data.rows.length := by
    intro i hi
    have := c2.inRange i (by simpa using hi)
    simpa [Data.column] using this
  refine ⟨ids, ⟨i3, hb, i2⟩, ?_⟩
  intro p j
  have hv : Valid ⟨u.data.column j, u.sampleSize, u.minTrue, true, [ids]⟩ := by
    obtain ⟨ch, d1, d2, _⟩ := ht j
    rw [c1] at d1
    cases d1
    exact d2
  obtain ⟨k, vals, na, h1, h2, h3, h4, h5, h6, _⟩ := clean_spec (isNull := isn) hset hv
  have hk : k = 1 := by
    have := h1.le
    have := h1.pos
    simp only [List.length_singleton] at *
    omega
  subst hk
  have hf : firstRows ⟨u.data.column j, u.sampleSize, u.minTrue, true, [ids]⟩ 1 =
      (rowsAt u.data ids).map fun r => (r.1, r.2.getD j "") := by
    unfold firstRows
    simp only [List.take_succ_cons, List.take_zero, List.flatten_cons, List.flatten_nil, List.append_nil]
    exact cellsAt_column _ _ _
  rw [hf] at h2 h4 h5 h6
  obtain ⟨k', base, b1, b2, b3, _⟩ := batch_inv (isNull := isn) hset hv (by
    intro c hc
    obtain ⟨r, hr', rfl⟩ := List.mem_map.1 hc
    exact hu.nonneg r hr')
  have hk' : k' = 1 := by
    have := b1.le
    have := b1.pos
    simp only [List.length_singleton] at *
    omega
  subst hk'
  rw [hf] at b3
  unfold batchBase at b2
  simp only at h2 b2
  rw [h2] at b2
  simp only [Except.ok.injEq] at b2
  refine ⟨vals, base, ?_, ?_, ⟨b3, ?_⟩, ?_⟩
  · unfold cleanCol
    rw [c1, hisn]
    simp only
    rw [h2, b2]
  · refine h6.trans (List.Perm.of_eq ?_)
    unfold trueCells
    rw [List.filter_map, List.map_map, List.filter_map]
    rfl
  · intro t x
    rw [← b2]
    simp only
    rw [h4]
    unfold nullCells
    simp only [List.mem_map, List.mem_filter, decide_eq_true_eq]
    constructor
    · rintro ⟨c, ⟨⟨h1, h2⟩, rfl⟩, rfl⟩
      exact ⟨h2, by obtain ⟨r, hr1, hr2⟩ := h1; exact ⟨r, hr1, hr2⟩⟩
    · rintro ⟨h1, r, hr1, hr2⟩
      exact ⟨(x, t), ⟨⟨⟨r, hr1, hr2⟩, h1⟩, rfl⟩, rfl⟩
  · rw [← b2]
    exact idRange_column _ _

/-! ## Matching columns -/

theorem names_length (lower : String → String) (l : List Key) : (names lower l).length = l.length := by simp [names]

theorem names_getElem? (lower : String → String) (l : List Key) (i : ℕ) :
    (names lower l)[i]? = l[i]?.map (folded lower) := by simp [names]

theorem idxOf_unique {α : Type} [DecidableEq α] {l : List α} {k : α} {j : ℕ} (h : l.count k = 1) (hj : l[j]? = some k) :
    l.idxOf k = j := by
  induction l generalizing j with
  | nil => simp at hj
  | cons a l ih =>
    rw [List.idxOf_cons]
    by_cases ha : a = k
    · subst ha
      rw [List.count_cons_self] at h
      have h0 : a ∉ l := List.count_eq_zero.1 (by omega)
      cases j with
      | zero => simp
      | succ j =>
        rw [List.getElem?_cons_succ] at hj
        exact absurd (List.mem_of_getElem? hj) h0
    · cases j with
      | zero => simp at hj; exact absurd hj ha
      | succ j =>
        rw [List.getElem?_cons_succ] at hj
        rw [List.count_cons_of_ne ha] at h
        have := ih h hj
        rw [this]
        simp [beq_eq_false_iff_ne.2 ha]

theorem sourceCol_of {lower : String → String} {dn pn : List Key} {j p : ℕ} {k : Key} (hk : pn[p]? = some k)
    (hj : (names lower dn)[j]? = some (folded lower k)) (hr : 1 < (names lower dn).count (folded lower k) → j = p) :
    sourceCol lower dn pn p = j := by
  unfold sourceCol
  rw [hk]
  simp only
  have hpos : 0 < (names lower dn).count (folded lower k) := List.count_pos_iff.2 (List.mem_of_getElem? hj)
  split_ifs with h1
  · exact idxOf_unique h1 hj
  · exact (hr (by omega)).symm

theorem sourceCol_self (lower : String → String) (ns : List Key) (p : ℕ) (hp : p < ns.length) :
    sourceCol lower ns ns p = p :=
  sourceCol_of (List.getElem?_eq_getElem hp) (by rw [names_getElem?, List.getElem?_eq_getElem hp]; rfl) (fun _ => rfl)

/-- The data column feeding each profile column, in an update. -/
theorem update_source {lower : String → String} (hl : Idem lower) (dn pn : List Key) (hd : dn ≠ []) (hp : pn ≠ [])
    (m : PyDict ℕ ℕ) (h : getMapping lower (schemaOf lower dn) (schemaOf lower pn) false = .ok m) (p : ℕ)
    (hlt : p < pn.length) : sourceCol lower dn pn p < dn.length ∧ PyDict.get? m (sourceCol lower dn pn p) = some p := by
  have hb := C19_bijection hl dn pn false hd hp m h
  have hwf : PyDict.WF m := hb.dom.nodup_iff.2 List.nodup_range
  have hmem : p ∈ PyDict.values m := by
    rw [hb.cod.mem_iff, names_length]
    exact List.mem_range.2 hlt
  obtain ⟨⟨j, p'⟩, hjp, he⟩ := List.mem_map.1 hmem
  simp only at he
  subst he
  have hg := (PyDict.mem_iff_get? hwf j p').1 hjp
  have hname := hb.name j p' hg
  rw [names_getElem? lower pn, List.getElem?_eq_getElem hlt] at hname
  simp only [Option.map_some] at hname
  have hs : sourceCol lower dn pn p' = j := sourceCol_of (List.getElem?_eq_getElem hlt) hname
    (fun hc => C19_repeated_in_place hl dn pn false hd hp m h j p' _ hg hname hc)
  rw [hs]
  refine ⟨?_, hg⟩
  have := (List.getElem?_eq_some_iff.1 hname).1
  rwa [names_length] at this

/-- The partner of each column, in a merge. -/
theorem merge_source {lower : String → String} (hl : Idem lower) (an bn : List Key) (ha : an ≠ []) (hb' : bn ≠ [])
    (m : PyDict ℕ ℕ) (h : getMapping lower (schemaOf lower an) (schemaOf lower bn) false = .ok m) (p : ℕ)
    (hlt : p < an.length) : sourceCol lower bn an p < bn.length ∧ PyDict.get? m p = some (sourceCol lower bn an p) := by
  have hb := C19_bijection hl an bn false ha hb' m h
  have hmem : p ∈ PyDict.keys m := by
    rw [hb.dom.mem_iff, names_length]
    exact List.mem_range.2 hlt
  obtain ⟨j, hg⟩ := (PyDict.mem_keys_iff _ _).1 hmem
  have hname := hb.name p j hg
  have hap : (names lower an)[p]? = some (folded lower an[p]) := by
    rw [names_getElem?, List.getElem?_eq_getElem hlt]; rfl
  rw [hap] at hname
  have hcomp := (C19_ok_iff hl an bn false ha hb').1 ⟨m, h⟩ (folded lower an[p])
  have hs : sourceCol lower bn an p = j := sourceCol_of (List.getElem?_eq_getElem hlt) hname.symm
    (fun hc => (C19_repeated_in_place hl an bn false ha hb' m h p j _ hg hap (by rw [hcomp.1]; exact hc)).symm)
  rw [hs]
  refine ⟨?_, hg⟩
  have := (List.getElem?_eq_some_iff.1 hname.symm).1
  rwa [names_length] at this

theorem align_length (lower : String → String) (dn pn : List Key) (row : List String) :
    (align lower dn pn row).length = pn.length := by simp [align]

theorem align_getD (lower : String → String) (dn pn : List Key) (row : List String) (p : ℕ) (hp : p < pn.length) :
    (align lower dn pn row).getD p "" = row.getD (sourceCol lower dn pn p) "" := by
  unfold align
  rw [List.getD_eq_getElem?_getD, List.getElem?_map, List.getElem?_range hp]
  rfl

/-! ## Null rows -/

theorem unionSet_nodup {s : List ℤ} (xs : List ℤ) (h : s.Nodup) : (unionSet s xs).Nodup := by
  unfold unionSet
  induction xs generalizing s with
  | nil => exact h
  | cons x xs ih =>
    rw [List.foldl_cons]
    apply ih
    unfold addSet
    split_ifs with hx
    · exact h
    · exact List.nodup_append.2 ⟨h, by simp, by
        rintro a ha b hb rfl
        simp only [List.mem_singleton] at hb
        exact hx (hb ▸ ha)⟩

theorem foldl_unionSet (ls : List (List ℤ)) (s : List ℤ) (hs : s.Nodup) :
    (ls.foldl unionSet s).Nodup ∧ ∀ x, x ∈ ls.foldl unionSet s ↔ x ∈ s ∨ ∃ l ∈ ls, x ∈ l := by
  induction ls generalizing s with
  | nil => simp [hs]
  | cons l ls ih =>
    rw [List.foldl_cons]
    obtain ⟨h1, h2⟩ := ih (unionSet s l) (unionSet_nodup l hs)
    refine ⟨h1, fun x => ?_⟩
    rw [h2, mem_unionSet]
    simp only [List.mem_cons, exists_eq_or_imp, or_assoc]

theorem nullIds_spec {isn : String → Bool} {s : ColState} {cs : List Cell} (h : FitsB isn s.asBase cs) :
    (nullIds s).Nodup ∧ ∀ x, x ∈ nullIds s ↔ ∃ t, isn t = true ∧ (x, t) ∈ cs := by
  obtain ⟨h1, h2⟩ := foldl_unionSet (PyDict.values s.index) [] List.nodup_nil
  refine ⟨h1, fun x => ?_⟩
  unfold nullIds
  rw [h2]
  have hwf : PyDict.WF s.index := h.inv.wf
  simp only [List.not_mem_nil, false_or]
  constructor
  · rintro ⟨l, hl, hx⟩
    obtain ⟨⟨t, l'⟩, hm, rfl⟩ := List.mem_map.1 hl
    have hg := (PyDict.mem_iff_get? hwf t l').1 hm
    have : x ∈ PyDict.getD s.asBase.nullTypes t [] := by
      change x ∈ PyDict.getD s.index t []
      unfold PyDict.getD
      rw [hg]
      exact hx
    exact ⟨t, (h.mem t x).1 this⟩
  · rintro ⟨t, h3⟩
    have := (h.mem t x).2 h3
    change x ∈ PyDict.getD s.index t [] at this
    unfold PyDict.getD at this
    cases hg : PyDict.get? s.index t with
    | none => rw [hg] at this; simp at this
    | some l =>
      rw [hg] at this
      exact ⟨l, List.mem_map.2 ⟨(t, l), PyDict.mem_of_get? hg, rfl⟩, this⟩

theorem nullRows_fold (xs : List (List ℤ)) (q : List ℤ × List ℤ) (h1 : q.1.Nodup) (h2 : q.2.Nodup) :
    (xs.foldl (fun q ids => (q.1.filter (· ∈ ids), unionSet q.2 ids)) q).1.Nodup ∧
    (xs.foldl (fun q ids => (q.1.filter (· ∈ ids), unionSet q.2 ids)) q).2.Nodup ∧
    (∀ x, x ∈ (xs.foldl (fun q ids => (q.1.filter (· ∈ ids), unionSet q.2 ids)) q).1 ↔ x ∈ q.1 ∧ ∀ l ∈ xs, x ∈ l) ∧
    (∀ x, x ∈ (xs.foldl (fun q ids => (q.1.filter (· ∈ ids), unionSet q.2 ids)) q).2 ↔ x ∈ q.2 ∨ ∃ l ∈ xs, x ∈ l) := by
  induction xs generalizing q with
  | nil => simp [h1, h2]
  | cons l xs ih =>
    rw [List.foldl_cons]
    obtain ⟨a, b, c, d⟩ := ih (q.1.filter (· ∈ l), unionSet q.2 l) (h1.filter _) (unionSet_nodup _ h2)
    refine ⟨a, b, fun x => ?_, fun x => ?_⟩
    · rw [c]
      simp only [List.mem_filter, decide_eq_true_eq, List.mem_cons, forall_eq_or_imp, and_assoc]
    · rw [d, mem_unionSet]
      simp only [List.mem_cons, exists_eq_or_imp, or_assoc]

theorem nullRows_spec (ls : List (List ℤ)) (hne : ls ≠ []) (hn : ∀ l ∈ ls, l.Nodup) :
    (nullRows ls).1.Nodup ∧ (nullRows ls).2.Nodup ∧ (∀ x, x ∈ (nullRows ls).1 ↔ ∀ l ∈ ls, x ∈ l) ∧
    (∀ x, x ∈ (nullRows ls).2 ↔ ∃ l ∈ ls, x ∈ l) := by
  cases ls with
  | nil => exact absurd rfl hne
  | cons l ls =>
    obtain ⟨a, b, c, d⟩ := nullRows_fold ls (l, l) (hn l (by simp)) (hn l (by simp))
    refine ⟨a, b, fun x => ?_, fun x => ?_⟩
    · unfold nullRows; rw [c]; simp
    · unfold nullRows; rw [d]; simp

theorem nodup_length_eq {l : List ℤ} {α : Type} {V : List (ℤ × α)} (hV : (V.map Prod.fst).Nodup) (f : α → Bool)
    (hl : l.Nodup) (h : ∀ x, x ∈ l ↔ ∃ v ∈ V, v.1 = x ∧ f v.2 = true) : l.length = V.countP fun v => f v.2 := by
  have hp : l.Perm ((V.filter fun v => f v.2).map Prod.fst) := by
    rw [List.perm_ext_iff_of_nodup hl (hV.sublist (List.filter_sublist.map _))]
    intro x
    rw [h]
    simp only [List.mem_map, List.mem_filter]
    constructor
    · rintro ⟨v, h1, h2, h3⟩; exact ⟨v, ⟨h1, h3⟩, h2⟩
    · rintro ⟨v, ⟨h1, h3⟩, h2⟩; exact ⟨v, h1, h2, h3⟩
  rw [hp.length_eq, List.length_map, List.countP_eq_length_filter]

end Verif.Table
