import Verif.Lemmas.HistColumn

/-! # Columns over a series of updates -/

namespace Verif.HistColumn

open Verif Verif.Histogram Verif.Spec.HistColumn

theorem stands_of {vs data : List ℚ} {lo hi : ℚ} (hl : vs.length = data.length) (a : Least lo vs) (b : Least lo data)
    (c : Greatest hi vs) (d : Greatest hi data) : Stands vs data := by
  refine ⟨hl, fun x => ⟨fun hx => ?_, fun hx => ?_⟩, fun x => ⟨fun hx => ?_, fun hx => ?_⟩⟩
  · have : x = lo := le_antisymm (hx.2 _ a.1) (a.2 _ hx.1)
    rw [this]; exact b
  · have : x = lo := le_antisymm (hx.2 _ b.1) (b.2 _ hx.1)
    rw [this]; exact a
  · have : x = hi := le_antisymm (c.2 _ hx.1) (hx.2 _ c.1)
    rw [this]; exact d
  · have : x = hi := le_antisymm (d.2 _ hx.1) (hx.2 _ d.1)
    rw [this]; exact c

theorem allEqual_iff {data : List ℚ} {lo hi : ℚ} (a : Smallest lo data) (b : Largest hi data) : AllEqual data ↔ lo = hi := by
  constructor
  · intro h; exact h _ a.1 _ b.1
  · rintro rfl x hx y hy
    have h1 := a.2 x hx
    have h2 := b.2 x hx
    have h3 := a.2 y hy
    have h4 := b.2 y hy
    exact (le_antisymm h2 h1).trans (le_antisymm h3 h4)

theorem constant_iff {vs data : List ℚ} (hne : vs ≠ []) (h : Stands vs data) : constant vs = true ↔ AllEqual data := by
  unfold constant
  have a := lo_least vs hne
  have b := hi_greatest vs hne
  rw [beq_iff_eq]
  exact (allEqual_iff ((h.2.1 _).1 a) ((h.2.2 _).1 b)).symm

theorem combined_ok (s : Stored) (isFloat : Bool) (data batch : List ℚ) (hb : batch ≠ [])
    (hint : isFloat = false → ∀ v ∈ data ++ batch, IsInt v) (h : Tracks s data) :
    ∃ vs, combined s isFloat batch = .ok vs ∧ vs ≠ [] ∧ (∀ n, updateSafely isFloat s batch n = .ints (getHistogram vs n)) ∧
      Stands vs (data ++ batch) := by
  have hbe : batch.isEmpty = false := by cases batch <;> simp_all
  rcases h with ⟨rfl, rfl⟩ | ⟨g, lo, hi, rfl, hr, hlo, hhi⟩
  · refine ⟨batch, rfl, hb, fun n => ?_, ?_⟩
    · unfold updateSafely updateHistogram
      rw [hbe]
      rfl
    · simp only [List.nil_append]
      exact stands_of rfl (lo_least batch hb) (lo_least batch hb) (hi_greatest batch hb) (hi_greatest batch hb)
  · refine ⟨batch ++ toArray g isFloat, rfl, by simp [hb], fun n => ?_, ?_⟩
    · unfold updateSafely updateHistogram
      rw [hbe]
      rfl
    · obtain ⟨t1, t2, t3⟩ := toArray_spec g data.length lo hi hr isFloat (fun hf =>
        ⟨hint hf lo (List.mem_append_left _ hlo.1), hint hf hi (List.mem_append_left _ hhi.1)⟩)
      have hA := (lo_least batch hb).append t2
      have hB := (hi_greatest batch hb).append t3
      have hA' := hlo.append (lo_least batch hb)
      have hB' := hhi.append (hi_greatest batch hb)
      rw [min_comm] at hA'
      rw [max_comm] at hB'
      exact stands_of (by rw [List.length_append, List.length_append, t1, Nat.add_comm]) hA hA' hB hB'

theorem le_foldl_max (l : List ℕ) (a : ℕ) : a ≤ l.foldl max a ∧ ∀ x ∈ l, x ≤ l.foldl max a := by
  induction l generalizing a with
  | nil => simp
  | cons y l ih =>
    obtain ⟨h1, h2⟩ := ih (max a y)
    refine ⟨le_trans (le_max_left _ _) h1, fun x hx => ?_⟩
    rcases List.mem_cons.1 hx with rfl | hx
    · exact le_trans (le_max_right _ _) h1
    · exact h2 x hx

theorem equalBins_pos (est : String → List ℚ → ℕ) (user : Option ℕ) (vs : List ℚ) (names : List String) :
    0 < equalBins est user vs names := by
  unfold equalBins
  cases user with
  | none => exact lt_of_lt_of_le (by decide) (le_foldl_max _ _).1
  | some n =>
    dsimp only
    by_cases h : n = 0
    · rw [if_pos h]; decide
    · rw [if_neg h]; omega

/-- The state of a column after values `data`, when nothing was reported or merged. -/
structure Good (est : String → List ℚ → ℕ) (h : Heap) (c : Col) (data : List ℚ) : Prop where
  hs : c.stored < h.dicts.length
  ht : c.table < h.tables.length
  wf : PyDict.WF (h.tab c.table)
  keys : ∀ m, m ∈ PyDict.keys (h.tab c.table) ↔ m ∈ c.names
  entry : ∀ m e, PyDict.get? (h.tab c.table) m = some e → e.hist < h.dicts.length ∧ e.hist ≠ c.stored ∧ (h.dict e.hist).losses = none
  sel : c.selection = none
  track : Tracks (h.dict c.stored).body data
  loss : (h.dict c.stored).losses = none
  quant : data ≠ [] → ∃ g, c.histogram h = some g ∧ c.quantiles = some (quantiles g c.numQuantiles)
  sugg : data ≠ [] →
    (AllEqual data ∧ ∃ g, (h.dict c.stored).body = .ints g ∧ g.counts.length = 1 ∧
      ∀ m e, PyDict.get? (h.tab c.table) m = some e → e.suggested = some 1 ∧ (h.dict e.hist).body = .ints g) ∨
    (¬ AllEqual data ∧ ∃ vs g, Stands vs data ∧ (h.dict c.stored).body = .ints g ∧ g.counts.length = equalBins est c.user vs c.names ∧
      ∀ m e, PyDict.get? (h.tab c.table) m = some e → e.suggested = some (suggestion est c.user vs m) ∧ (h.dict e.hist).body = .absent)

theorem getHistogram_counts (vs : List ℚ) (n : ℕ) (hn : 0 < n) :
    (getHistogram vs n).counts.length = if constant vs then 1 else n := by
  unfold getHistogram constant
  dsimp only
  by_cases h : vs.foldl min (vs.headD 0) = vs.foldl max (vs.headD 0)
  · rw [if_pos h, if_pos (by simpa using h)]
    rfl
  · rw [if_neg h, if_neg (by simpa using h)]
    have : ∀ es : List ℚ, es ≠ [] → (binValues vs es).length = es.length - 1 := by
      intro es
      induction es with
      | nil => simp
      | cons a es ih =>
        intro _
        match es with
        | [] => rfl
        | [b] => rfl
        | b :: c :: es =>
          rw [binValues, List.length_cons, ih (by simp)]
          simp
    have hl := linspace_length (vs.foldl min (vs.headD 0)) (vs.foldl max (vs.headD 0)) n
    rw [this _ (by intro h0; rw [h0] at hl; simp at hl), hl]
    rfl

/-- The same column, except for what updates change. -/
structure SameCol (c c' : Col) : Prop where
  isFloat : c'.isFloat = c.isFloat
  stored : c'.stored = c.stored
  names : c'.names = c.names
  user : c'.user = c.user
  table : c'.table = c.table
  numQuantiles : c'.numQuantiles = c.numQuantiles

theorem SameCol.rfl' (c : Col) : SameCol c c := ⟨rfl, rfl, rfl, rfl, rfl, rfl⟩

theorem SameCol.trans {a b c : Col} (h : SameCol a b) (k : SameCol b c) : SameCol a c :=
  ⟨k.1.trans h.1, k.2.trans h.2, k.3.trans h.3, k.4.trans h.4, k.5.trans h.5, k.6.trans h.6⟩

theorem withQuantiles_same (h : Heap) (c : Col) : SameCol c (withQuantiles h c) ∧ (withQuantiles h c).selection = c.selection := by
  unfold withQuantiles
  cases c.histogram h <;> exact ⟨⟨rfl, rfl, rfl, rfl, rfl, rfl⟩, rfl⟩

/-- One update of a column whose methods all have an entry. -/
theorem update_eq (est : String → List ℚ → ℕ) (h : Heap) (c : Col) (batch vs : List ℚ) (hb : batch ≠ [])
    (hc : combined (h.dict c.stored).body c.isFloat batch = .ok vs) (ht : c.table < h.tables.length)
    (hn : ∀ m ∈ c.names, ∃ e, PyDict.get? (h.tab c.table) m = some e)
    (hr : ∀ m e, PyDict.get? (h.tab c.table) m = some e → e.hist < h.dicts.length) (hs : c.stored < h.dicts.length) :
    ∃ h1, Wrote c.table (if constant vs then fun _ => 1 else suggestion est c.user vs)
        (if constant vs then .ints (getHistogram vs (equalBins est c.user vs c.names)) else .absent) c.names h h1 ∧
      (update est h c batch).1 = h1.write c.stored (.ints (getHistogram vs (equalBins est c.user vs c.names))) ∧
      SameCol c (update est h c batch).2 ∧ (update est h c batch).2.selection = none ∧
      ∃ g, (update est h c batch).2.histogram (update est h c batch).1 = some g ∧
        (update est h c batch).2.quantiles = some (quantiles g c.numQuantiles) := by
  obtain ⟨h1, e1, W⟩ := writeAll_spec c.table (if constant vs then fun _ => 1 else suggestion est c.user vs)
    (if constant vs then .ints (getHistogram vs (equalBins est c.user vs c.names)) else .absent) c.names h ht hn hr
  set g := getHistogram vs (equalBins est c.user vs c.names) with hg
  have hbe : batch.isEmpty = false := by cases batch <;> simp_all
  have hbuild : buildHistogram est h c vs = (h1.write c.stored (.ints g), none) := by
    unfold buildHistogram
    rw [← hg]
    dsimp only
    by_cases hcc : constant vs = true
    · rw [if_pos hcc, if_pos hcc] at e1
      rw [if_pos hcc, e1]
    · rw [if_neg hcc, if_neg hcc] at e1
      rw [if_neg hcc, e1]
  have hs1 : c.stored < h1.dicts.length := by rw [W.dlen]; exact hs
  have hup : update est h c batch = (h1.write c.stored (.ints g), withQuantiles (h1.write c.stored (.ints g))
      { c with storedLoss := c.storedLoss + binError g.edges batch, selection := none }) := by
    unfold update updateHist
    rw [hbe]
    simp only [Bool.false_eq_true, if_false]
    rw [hc]
    dsimp only
    rw [hbuild]
  rw [hup]
  set c1 : Col := { c with storedLoss := c.storedLoss + binError g.edges batch, selection := none } with hc1
  obtain ⟨a1, a2⟩ := withQuantiles_same (h1.write c.stored (.ints g)) c1
  have hsame : SameCol c c1 := ⟨rfl, rfl, rfl, rfl, rfl, rfl⟩
  have hh : c1.histogram (h1.write c.stored (.ints g)) = some ⟨g.counts.map fun c : ℕ => (c : ℚ), g.edges⟩ := by
    unfold Col.histogram
    have : c1.stored = c.stored := rfl
    rw [this, dict_write _ _ _ _ hs1, if_pos rfl]
    rfl
  refine ⟨h1, W, rfl, hsame.trans a1, a2.trans rfl, ⟨g.counts.map fun c : ℕ => (c : ℚ), g.edges⟩, ?_, ?_⟩
  · unfold Col.histogram at hh ⊢
    dsimp only
    rw [a1.stored]
    exact hh
  · unfold withQuantiles
    rw [hh]

theorem update_good (est : String → List ℚ → ℕ) (h : Heap) (c : Col) (data batch : List ℚ) (hb : batch ≠ [])
    (hint : c.isFloat = false → ∀ v ∈ data ++ batch, IsInt v) (G : Good est h c data) :
    Good est (update est h c batch).1 (update est h c batch).2 (data ++ batch) ∧ SameCol c (update est h c batch).2 := by
  obtain ⟨vs, hc, hvne, hsafe, hst⟩ := combined_ok _ c.isFloat data batch hb hint G.track
  have hn : ∀ m ∈ c.names, ∃ e, PyDict.get? (h.tab c.table) m = some e := fun m hm => (PyDict.mem_keys_iff _ _).1 ((G.keys m).2 hm)
  obtain ⟨h1, W, e1, S, hsel, g, hq1, hq2⟩ := update_eq est h c batch vs hb hc G.ht hn (fun m e he => (G.entry m e he).1) G.hs
  have htrack := tracks_update c.isFloat _ data batch (equalBins est c.user vs c.names) (equalBins_pos _ _ _ _) hint G.track
  rw [hsafe] at htrack
  have hs1 : c.stored < h1.dicts.length := by rw [W.dlen]; exact G.hs
  generalize (update est h c batch).1 = h2 at *
  generalize (update est h c batch).2 = c2 at *
  subst e1
  set G0 := getHistogram vs (equalBins est c.user vs c.names) with hG0
  have htab : (h1.write c.stored (.ints G0)).tab c2.table = h1.tab c.table := by rw [S.table]; rfl
  have hdict : ∀ r, r ≠ c.stored → (h1.write c.stored (.ints G0)).dict r = h1.dict r := by
    intro r hr
    rw [dict_write _ _ _ _ hs1, if_neg hr]
  have hdicts : (h1.write c.stored (.ints G0)).dict c2.stored = { h1.dict c.stored with body := .ints G0 } := by
    rw [S.stored, dict_write _ _ _ _ hs1, if_pos rfl]
  have hmiss : h1.dict c.stored = h.dict c.stored := W.miss _ fun m _ e he => (G.entry m e he).2.1
  have hback : ∀ m e', PyDict.get? (h1.tab c.table) m = some e' → m ∈ c.names ∧ ∃ e, PyDict.get? (h.tab c.table) m = some e ∧
      e' = { e with suggested := some ((if constant vs then fun _ => 1 else suggestion est c.user vs) m) } := by
    intro m e' he'
    have hk : m ∈ PyDict.keys (h.tab c.table) := by rw [← W.keys]; exact (PyDict.mem_keys_iff _ _).2 ⟨e', he'⟩
    have hm := (G.keys m).1 hk
    obtain ⟨e, he⟩ := (PyDict.mem_keys_iff _ _).1 hk
    have := W.entry m e he
    rw [if_pos hm, he'] at this
    cases this
    exact ⟨hm, e, he, rfl⟩
  have hbody : ∀ m e', PyDict.get? (h1.tab c.table) m = some e' →
      (h1.write c.stored (.ints G0)).dict e'.hist = { h.dict e'.hist with body := if constant vs then .ints G0 else .absent } := by
    intro m e' he'
    obtain ⟨hm, e, he, rfl⟩ := hback m e' he'
    rw [hdict _ (G.entry m e he).2.1, W.hit e.hist ⟨m, hm, e, he, rfl⟩]
  have hlen : (h1.write c.stored (.ints G0)).dicts.length = h.dicts.length := by
    rw [← W.dlen]
    simp [Heap.write]
  refine ⟨⟨?_, ?_, ?_, ?_, ?_, hsel, ?_, ?_, ?_, ?_⟩, S⟩
  · rw [hlen, S.stored]; exact G.hs
  · rw [S.table]
    show c.table < h1.tables.length
    rw [W.tlen]; exact G.ht
  · rw [htab]
    unfold PyDict.WF
    rw [W.keys]
    exact G.wf
  · rw [htab, W.keys, S.names]; exact G.keys
  · intro m e' he'
    rw [htab] at he'
    obtain ⟨hm, e, he, rfl⟩ := hback m e' he'
    obtain ⟨b1, b2, b3⟩ := G.entry m e he
    rw [hlen, S.stored]
    refine ⟨b1, b2, ?_⟩
    rw [hbody m _ he']
    exact b3
  · rw [hdicts]; exact htrack
  · rw [hdicts]
    show (h1.dict c.stored).losses = none
    rw [hmiss]; exact G.loss
  · intro _
    exact ⟨g, hq1, by rw [S.numQuantiles]; exact hq2⟩
  · intro hne
    have hcl := getHistogram_counts vs (equalBins est c.user vs c.names) (equalBins_pos _ _ _ _)
    rw [← hG0] at hcl
    by_cases hcc : constant vs = true
    · left
      refine ⟨(constant_iff hvne hst).1 hcc, G0, by rw [hdicts], ?_, ?_⟩
      · rw [hcl, if_pos hcc]
      · intro m e' he'
        rw [htab] at he'
        rw [hbody m e' he']
        obtain ⟨hm, e, he, rfl⟩ := hback m e' he'
        rw [if_pos hcc]
        simp only [hcc, if_true]
        exact ⟨trivial, trivial⟩
    · right
      refine ⟨fun hcon => hcc ((constant_iff hvne hst).2 hcon), vs, G0, hst, by rw [hdicts], ?_, ?_⟩
      · rw [hcl, if_neg hcc, S.names, S.user]
      · intro m e' he'
        rw [htab] at he'
        rw [hbody m e' he', S.user]
        obtain ⟨hm, e, he, rfl⟩ := hback m e' he'
        rw [if_neg hcc]
        simp [hcc]

theorem newCol_good (est : String → List ℚ → ℕ) (h : Heap) (isFloat : Bool) (o : Option Options) :
    Good est (newCol h isFloat o).1 (newCol h isFloat o).2 [] := by
  have F := newTable_spec (some minBins) (binNames o).1 { h with dicts := h.dicts ++ [emptyDict] }
  unfold newCol
  dsimp only
  set r := newTable (some minBins) (binNames o).1 { h with dicts := h.dicts ++ [emptyDict] } [] with hr
  obtain ⟨k, hk⟩ := F.dicts
  have htab : ({ r.1 with tables := r.1.tables ++ [r.2] } : Heap).tab r.1.tables.length = r.2 := by
    unfold Heap.tab
    simp
  have hd : ∀ i, h.dicts.length ≤ i → ({ r.1 with tables := r.1.tables ++ [r.2] } : Heap).dict i = emptyDict := by
    intro i hi
    unfold Heap.dict
    dsimp only
    rw [hk, List.getD_eq_getElem?_getD]
    dsimp only
    rw [List.append_assoc, List.getElem?_append_right hi]
    cases hx : ([emptyDict] ++ List.replicate k emptyDict)[i - h.dicts.length]? with
    | none => rfl
    | some d =>
      have := List.mem_of_getElem? hx
      simp only [List.cons_append, List.nil_append, List.mem_cons, List.mem_replicate] at this
      rcases this with rfl | ⟨-, rfl⟩ <;> rfl
  refine ⟨?_, ?_, ?_, ?_, ?_, rfl, ?_, ?_, by simp, by simp⟩
  · dsimp only
    rw [hk]
    simp
  · simp
  · dsimp only
    rw [htab]; exact F.wf
  · dsimp only
    rw [htab]; exact F.keys
  · dsimp only
    rw [htab]
    intro m e he
    obtain ⟨b1, b2, -, -⟩ := F.entry m e he
    simp only [List.length_append, List.length_singleton] at b1
    refine ⟨b2, by omega, ?_⟩
    rw [hd _ (by omega)]
    rfl
  · dsimp only
    rw [hd _ (le_refl _)]
    exact .inl ⟨rfl, rfl⟩
  · dsimp only
    rw [hd _ (le_refl _)]
    rfl

theorem update_nil_good (est : String → List ℚ → ℕ) (h : Heap) (c : Col) (data : List ℚ) (G : Good est h c data) :
    update est h c [] = (h, c) := by
  have hc : ({ c with selection := none } : Col) = c := by
    have := G.sel
    cases c
    simp_all
  have : update est h c [] = (h, withQuantiles h c) := by
    unfold update updateHist
    simp [hc]
  rw [this]
  unfold withQuantiles
  cases hh : c.histogram h with
  | none => rfl
  | some g =>
    by_cases hd : data = []
    · subst hd
      rcases G.track with ⟨-, hb⟩ | ⟨g', lo, hi, -, -, hlo, -⟩
      · unfold Col.histogram at hh
        rw [hb] at hh
        simp [asHist] at hh
      · simpa using hlo.1
    · obtain ⟨g', h1, h2⟩ := G.quant hd
      rw [hh] at h1
      cases h1
      dsimp only
      rw [← h2]

theorem updates_good (est : String → List ℚ → ℕ) (bs : List (List ℚ)) (h : Heap) (c : Col) (data : List ℚ)
    (hint : c.isFloat = false → ∀ v ∈ data ++ bs.flatten, IsInt v) (G : Good est h c data) :
    Good est (updates est h c bs).1 (updates est h c bs).2 (data ++ bs.flatten) ∧ SameCol c (updates est h c bs).2 := by
  induction bs generalizing h c data with
  | nil => simpa [updates] using ⟨G, SameCol.rfl' c⟩
  | cons b bs ih =>
    rw [updates]
    by_cases hb : b = []
    · subst hb
      rw [update_nil_good est h c data G]
      simpa using ih h c data (by simpa using hint) G
    · obtain ⟨G', S⟩ := update_good est h c data b hb (fun hf v hv => hint hf v (by
        simp only [List.flatten_cons, List.mem_append] at hv ⊢
        tauto)) G
      have := ih _ _ (data ++ b) (fun hf v hv => hint (by rw [← S.isFloat]; exact hf) v (by
        simpa using hv)) G'
      rw [List.flatten_cons, ← List.append_assoc]
      exact ⟨this.1, S.trans this.2⟩

/-- What a report leaves alone. -/
structure Kept (c : Col) (h h' : Heap) : Prop where
  tlen : h'.tables.length = h.tables.length
  dlen : h.dicts.length ≤ h'.dicts.length
  keys : PyDict.keys (h'.tab c.table) = PyDict.keys (h.tab c.table)
  dict : ∀ r < h.dicts.length, h'.dict r = h.dict r
  refs : ∀ m e, PyDict.get? (h'.tab c.table) m = some e → e.hist < h'.dicts.length

theorem histogramFor_kept (h h' : Heap) (c : Col) (e : Entry) (r : ℕ) (loss : ℚ) (hs : c.stored < h.dicts.length) (he : e.hist < h.dicts.length)
    (hf : histogramFor h c e = .ok (h', r, loss)) :
    h'.tables = h.tables ∧ h.dicts.length ≤ h'.dicts.length ∧ (∀ r < h.dicts.length, h'.dict r = h.dict r) ∧ r < h'.dicts.length := by
  unfold histogramFor at hf
  cases h1 : e.suggested with
  | none => rw [h1] at hf; cases hf
  | some n =>
    rw [h1] at hf
    dsimp only at hf
    cases h2 : c.histogram h with
    | none =>
      rw [h2] at hf
      cases hf
      exact ⟨rfl, le_refl _, fun _ _ => rfl, he⟩
    | some g =>
      rw [h2] at hf
      dsimp only at hf
      by_cases hb : (h.dict e.hist).body ≠ .absent
      · rw [if_pos hb] at hf
        cases hf
        exact ⟨rfl, le_refl _, fun _ _ => rfl, he⟩
      · rw [if_neg hb] at hf
        by_cases hl : g.counts.length = n
        · rw [if_pos hl] at hf
          cases hf
          exact ⟨rfl, le_refl _, fun _ _ => rfl, hs⟩
        · rw [if_neg hl] at hf
          cases hr : regenerate g.counts g.edges n c.isFloat none with
          | error x => rw [hr] at hf; cases hf
          | ok x =>
            rw [hr] at hf
            cases hf
            exact ⟨rfl, by simp, fun r hr => dict_append h _ r hr, by simp⟩

theorem bestLoop_kept (c : Col) (ms : List String) (h h' : Heap) (best : Option ℚ) (sel sel' : Option String) (hs : c.stored < h.dicts.length)
    (ht : c.table < h.tables.length) (hr : ∀ m e, PyDict.get? (h.tab c.table) m = some e → e.hist < h.dicts.length)
    (hb : bestLoop c ms h best sel = .ok (h', sel')) : Kept c h h' := by
  induction ms generalizing h best sel with
  | nil =>
    rw [bestLoop] at hb
    cases hb
    exact ⟨rfl, le_refl _, rfl, fun _ _ => rfl, hr⟩
  | cons m ms ih =>
    rw [bestLoop] at hb
    cases he : PyDict.get? (h.tab c.table) m with
    | none => rw [he] at hb; cases hb
    | some e =>
      rw [he] at hb
      dsimp only at hb
      cases hf : histogramFor h c e with
      | error x => rw [hf] at hb; cases hb
      | ok x =>
        obtain ⟨h1, r, loss⟩ := x
        rw [hf] at hb
        dsimp only at hb
        obtain ⟨a1, a2, a3, a4⟩ := histogramFor_kept h h1 c e r loss hs (hr m e he) hf
        set e' : Entry := { e with hist := r, total := e.total + loss } with he'
        have ht1 : c.table < h1.tables.length := by rw [a1]; exact ht
        have htab2 : (h1.put c.table m e').tab c.table = PyDict.set (h.tab c.table) m e' := by
          have := tab_put h1 c.table c.table m e' ht1
          rw [if_pos rfl] at this
          rw [this]
          unfold Heap.tab
          rw [a1]
        have hk : PyDict.keys ((h1.put c.table m e').tab c.table) = PyDict.keys (h.tab c.table) := by
          rw [htab2, PyDict.keys_set, if_pos ((PyDict.mem_keys_iff _ _).2 ⟨e, he⟩)]
        have hrefs : ∀ m' e1, PyDict.get? ((h1.put c.table m e').tab c.table) m' = some e1 → e1.hist < (h1.put c.table m e').dicts.length := by
          intro m' e1 h1'
          rw [htab2, PyDict.get?_set] at h1'
          show e1.hist < h1.dicts.length
          split_ifs at h1' with hc
          · cases h1'
            exact a4
          · have := hr m' e1 h1'
            omega
        have hs2 : c.stored < (h1.put c.table m e').dicts.length := by
          show c.stored < h1.dicts.length
          omega
        have ht2 : c.table < (h1.put c.table m e').tables.length := by simpa [Heap.put] using ht1
        have fin : Kept c (h1.put c.table m e') h' → Kept c h h' := by
          intro K
          refine ⟨?_, ?_, K.keys.trans hk, ?_, K.refs⟩
          · rw [K.tlen]
            simp [Heap.put, a1]
          · have := K.dlen
            simp only [Heap.put] at this
            omega
          · intro r' hr'
            rw [K.dict r' (by simp only [Heap.put]; omega)]
            exact a3 r' hr'
        by_cases hbt : better best loss = true
        · rw [if_pos hbt] at hb
          exact fin (ih _ _ _ hs2 ht2 hrefs hb)
        · rw [if_neg hbt] at hb
          exact fin (ih _ _ _ hs2 ht2 hrefs hb)

theorem report_kept (c c' : Col) (h h' : Heap) (d : HDict) (hs : c.stored < h.dicts.length) (ht : c.table < h.tables.length)
    (hr : ∀ m e, PyDict.get? (h.tab c.table) m = some e → e.hist < h.dicts.length) (h1 : report h c = .ok (h', c', d)) :
    Kept c h h' ∧ ∃ m e, c' = { c with selection := some m } ∧ PyDict.get? (h'.tab c.table) m = some e ∧ h'.dict e.hist = d := by
  unfold report at h1
  cases hsel : c.selection with
  | some m =>
    rw [hsel] at h1
    dsimp only at h1
    cases he : PyDict.get? (h.tab c.table) m with
    | none => rw [he] at h1; cases h1
    | some e =>
      rw [he] at h1
      cases h1
      refine ⟨⟨rfl, le_refl _, rfl, fun _ _ => rfl, hr⟩, m, e, ?_, he, rfl⟩
      cases c
      simp_all
  | none =>
    rw [hsel] at h1
    dsimp only at h1
    cases hb : bestLoop c (PyDict.keys (h.tab c.table)) h none none with
    | error x => rw [hb] at h1; cases h1
    | ok x =>
      obtain ⟨h2, sel⟩ := x
      rw [hb] at h1
      cases sel with
      | none => cases h1
      | some m =>
        dsimp only at h1
        cases he : PyDict.get? (h2.tab c.table) m with
        | none => rw [he] at h1; cases h1
        | some e =>
          rw [he] at h1
          cases h1
          exact ⟨bestLoop_kept c _ h _ _ _ _ hs ht hr hb, m, e, rfl, he, rfl⟩

end Verif.HistColumn
