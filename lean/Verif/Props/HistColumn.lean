import Verif.Lemmas.HistColumnRun

/-!
# C75: the histogram of a numeric column over updates, reports and merges

`C75_histogram` is the part that holds: after any batches the reported histogram counts every value from the smallest to the greatest, with one bin
for equal values, the number of bins asked for, or the (capped) estimate of one of the methods offered. The `_fails` theorems are the histories after
which the report no longer says this.
-/

namespace Verif.Props.HistColumn

open Verif Verif.Histogram Verif.HistColumn Verif.Spec.HistColumn

/-! ## Updates and reports -/

theorem describes_ints (g : IHist) (data : List ℚ) (lo hi : ℚ) (h : Retains g data.length lo hi) (hlo : Least lo data) (hhi : Greatest hi data) :
    Describes ⟨g.counts.map fun c : ℕ => (c : ℚ), g.edges⟩ data := by
  refine ⟨by simpa using h.len, ?_, ⟨lo, h.head, hlo⟩, ⟨hi, h.last, hhi⟩⟩
  show (g.counts.map fun c : ℕ => (c : ℚ)).sum = _
  rw [← h.total]
  have : ∀ l : List ℕ, (l.map fun c : ℕ => (c : ℚ)).sum = (l.sum : ℕ) := by
    intro l
    induction l with
    | nil => rfl
    | cons x l ih => rw [List.map_cons, List.sum_cons, ih, List.sum_cons, Nat.cast_add]
  exact this _

/-- The stored histogram of a column that was only updated. -/
theorem good_stored (est : String → List ℚ → ℕ) (h : Heap) (c : Col) (data : List ℚ) (hd : data ≠ []) (G : Good est h c data) :
    ∃ g, (h.dict c.stored).body = .ints g ∧ Describes ⟨g.counts.map fun c : ℕ => (c : ℚ), g.edges⟩ data := by
  rcases G.track with ⟨he, -⟩ | ⟨g, lo, hi, h1, h2, h3, h4⟩
  · exact absurd he hd
  · exact ⟨g, h1, describes_ints g data lo hi h2 h3 h4⟩

/-- The report of a column that was only updated. -/
theorem good_report (est : String → List ℚ → ℕ) (h : Heap) (c : Col) (data : List ℚ) (hd : data ≠ []) (G : Good est h c data)
    (hest : ∀ m vs, vs ≠ [] → 0 < est m vs) (hn : c.names ≠ []) :
    ∃ h' m d g, report h c = .ok (h', { c with selection := some m }, d) ∧ m ∈ c.names ∧ d.losses = none ∧ asHist d.body = some g ∧
      Describes g data ∧ (AllEqual data → g.counts.length = 1) ∧
      (¬ AllEqual data → ∃ vs, Stands vs data ∧ g.counts.length = suggestion est c.user vs m) := by
  obtain ⟨g0, hg0, hdesc⟩ := good_stored est h c data hd G
  have hne : h.tab c.table ≠ [] := by
    intro h0
    obtain ⟨m, hm⟩ := List.exists_mem_of_ne_nil _ hn
    have := (G.keys m).2 hm
    rw [h0] at this
    simp [PyDict.keys] at this
  have hhist : ∀ h1 : Heap, (∀ r < h.dicts.length, h1.dict r = h.dict r) →
      c.histogram h1 = some ⟨g0.counts.map fun c : ℕ => (c : ℚ), g0.edges⟩ := by
    intro h1 hh
    unfold Col.histogram
    rw [hh _ G.hs, hg0]
    rfl
  obtain ⟨h', m, d, h1, ⟨p1, g, p2, p3, p4, p5⟩, h3⟩ := report_spec c (fun m d => d.losses = none ∧ ∃ g, asHist d.body = some g ∧ Describes g data ∧
      (AllEqual data → g.counts.length = 1) ∧ (¬ AllEqual data → ∃ vs, Stands vs data ∧ g.counts.length = suggestion est c.user vs m))
    h G.sel G.ht G.wf (by
      intro h1 m e hl hold he
      obtain ⟨e1, e2, e3⟩ := G.entry m e he
      rcases G.sugg hd with ⟨hall, g1, s1, s2, s3⟩ | ⟨hall, vs, g1, hst, s1, s2, s3⟩
      · obtain ⟨t1, t2⟩ := s3 m e he
        rw [hg0] at s1
        cases s1
        have hb : (h1.dict e.hist).body = .ints g0 := by rw [hold _ e1]; exact t2
        refine ⟨h1, e.hist, e.total, ?_, rfl, le_refl _, fun _ _ => rfl, by omega, ?_, _, by rw [hb]; rfl, hdesc, ?_, ?_⟩
        · unfold histogramFor
          rw [t1, hhist h1 hold]
          dsimp only
          rw [if_pos (by rw [hb]; simp)]
        · rw [hold _ e1]; exact e3
        · intro _
          simpa using s2
        · intro hc
          exact absurd hall hc
      · obtain ⟨t1, t2⟩ := s3 m e he
        rw [hg0] at s1
        cases s1
        have hb : (h1.dict e.hist).body = .absent := by rw [hold _ e1]; exact t2
        by_cases hl2 : (g0.counts.map fun c : ℕ => (c : ℚ)).length = suggestion est c.user vs m
        · refine ⟨h1, c.stored, c.storedLoss, ?_, rfl, le_refl _, fun _ _ => rfl, by have := G.hs; omega, ?_,
            ⟨g0.counts.map fun c : ℕ => (c : ℚ), g0.edges⟩, by rw [hold _ G.hs, hg0]; rfl, hdesc, ?_, ?_⟩
          · unfold histogramFor
            rw [t1, hhist h1 hold]
            dsimp only
            rw [if_neg (by rw [hb]; simp), if_pos hl2]
          · rw [hold _ G.hs]; exact G.loss
          · intro hc
            exact absurd hc hall
          · intro _
            exact ⟨vs, hst, hl2⟩
        · have hpos : 0 < suggestion est c.user vs m := by
            unfold suggestion
            cases c.user with
            | none =>
              have hvne : vs ≠ [] := by
                intro h0
                have := hst.1
                rw [h0] at this
                exact hd (List.length_eq_zero_iff.1 this.symm)
              have := hest m vs hvne
              simp [maxBins]
              omega
            | some n =>
              dsimp only
              by_cases h0 : n = 0
              · rw [if_pos h0]; decide
              · rw [if_neg h0]; omega
          obtain ⟨r, loss, r1, r2, r3, -, r5, r6, r7⟩ := C07_regenerate (g0.counts.map fun c : ℕ => (c : ℚ)) g0.edges
            (suggestion est c.user vs m) c.isFloat hpos hdesc.shape
          refine ⟨{ h1 with dicts := h1.dicts ++ [⟨.floats r, none⟩] }, h1.dicts.length, loss, ?_, rfl, by simp,
            fun r' hr' => dict_append h1 _ r' hr', by simp, ?_, r, ?_, ?_, ?_, ?_⟩
          · unfold histogramFor
            rw [t1, hhist h1 hold]
            dsimp only
            rw [if_neg (by rw [hb]; simp), if_neg hl2, r1]
          · rw [dict_last]
          · rw [dict_last]; rfl
          · exact ⟨by rw [r5, r2], by rw [r3]; exact hdesc.total, by rw [r6]; exact hdesc.first, by rw [r7]; exact hdesc.last⟩
          · intro hc
            exact absurd hc hall
          · intro _
            exact ⟨vs, hst, r2⟩) hne
  exact ⟨h', m, d, g, h1, (G.keys m).1 h3, p1, p2, p3, p4, p5⟩

/-- C75: after any batches of values (empty ones among them), for any options, the reported histogram counts every value once between the smallest
and the greatest. It has one bin when all values are equal, else as many as were asked for, else as many as one of the offered methods estimates from
equally many values with the same extremes, at most 100000. There are `numQuantiles - 1` quantiles, the percentiles at equal steps of the stored
histogram, which describes the same data. -/
theorem C75_histogram (est : String → List ℚ → ℕ) (h0 : Heap) (isFloat : Bool) (o : Option Options) (bs : List (List ℚ))
    (hsome : ∀ q, o ≠ some ⟨.methods [], q⟩) (hcount : Wanted o ≠ some 0) (hest : ∀ m vs, vs ≠ [] → 0 < est m vs)
    (hint : isFloat = false → ∀ v ∈ bs.flatten, ∃ z : ℤ, v = z) (hdata : bs.flatten ≠ []) :
    let s := updates est (newCol h0 isFloat o).1 (newCol h0 isFloat o).2 bs
    ∃ h' c' d g, report s.1 s.2 = .ok (h', c', d) ∧ d.losses = none ∧ asHist d.body = some g ∧ Describes g bs.flatten ∧
      (AllEqual bs.flatten → g.counts.length = 1) ∧
      (¬ AllEqual bs.flatten → ∀ k, Wanted o = some k → g.counts.length = k) ∧
      (¬ AllEqual bs.flatten → Wanted o = none →
        ∃ m vs, Offered o m ∧ Stands vs bs.flatten ∧ g.counts.length = min (est m vs) 100000) ∧
      (∃ g' qs, Describes g' bs.flatten ∧ c'.quantiles = some qs ∧ qs.length = WantedQuantiles o - 1 ∧
        (∀ i < WantedQuantiles o - 1, qs[i]? = some (percentile1 g'.counts g'.edges (100 * (i + 1) / WantedQuantiles o))) ∧
        c'.median h' = some (percentile1 g'.counts g'.edges 50)) := by
  intro s
  have hI : (newCol h0 isFloat o).2.isFloat = false → ∀ v ∈ ([] : List ℚ) ++ bs.flatten, IsInt v := by
    intro hf v hv
    exact hint hf v (by simpa using hv)
  obtain ⟨G, S⟩ := updates_good est bs _ _ [] hI (newCol_good est h0 isFloat o)
  rw [List.nil_append] at G
  change Good est s.1 s.2 bs.flatten at G
  change SameCol _ s.2 at S
  have hnames : s.2.names = (binNames o).1 := S.names
  have huser : s.2.user = (binNames o).2 := S.user
  have hnq : s.2.numQuantiles = WantedQuantiles o := by
    rw [S.numQuantiles]
    cases o <;> rfl
  have hne : s.2.names ≠ [] := by
    rw [hnames]
    match o with
    | none => simp [binNames, defaultNames]
    | some ⟨.method m, q⟩ => simp [binNames]
    | some ⟨.methods [], q⟩ => exact absurd rfl (hsome q)
    | some ⟨.methods (m :: ms), q⟩ => simp [binNames]
    | some ⟨.count k, q⟩ => simp [binNames]
  obtain ⟨h', m, d, g, r1, r2, r3, r4, r5, r6, r7⟩ := good_report est s.1 s.2 bs.flatten hdata G hest hne
  obtain ⟨g', hg', hq⟩ := G.quant hdata
  obtain ⟨gi, hgi, hdesc⟩ := good_stored est s.1 s.2 bs.flatten hdata G
  have hgg : g' = ⟨gi.counts.map fun c : ℕ => (c : ℚ), gi.edges⟩ := by
    unfold Col.histogram at hg'
    rw [hgi] at hg'
    simpa [asHist] using hg'.symm
  subst hgg
  refine ⟨h', _, d, g, r1, r3, r4, r5, r6, ?_, ?_, _, _, hdesc, hq, ?_, ?_, ?_⟩
  · intro ha k hk
    obtain ⟨vs, -, hl⟩ := r7 ha
    rw [hl, huser]
    match o, hk, hcount with
    | some ⟨.count k', q⟩, hk, hcount =>
      have hk' : k' = k := by simpa [Wanted] using hk
      subst hk'
      have h0 : k' ≠ 0 := fun h => hcount (by simp [Wanted, h])
      simp [binNames, suggestion, h0]
  · intro ha hw
    obtain ⟨vs, hst, hl⟩ := r7 ha
    refine ⟨m, vs, ?_, hst, ?_⟩
    · rw [hnames] at r2
      match o, r2, hw with
      | none, r2, _ => exact r2
      | some ⟨.method x, q⟩, r2, _ => simpa [binNames, Offered] using r2
      | some ⟨.methods ms, q⟩, r2, _ => simpa [binNames, Offered] using r2
      | some ⟨.count k, q⟩, _, hw => simp [Wanted] at hw
    · rw [hl, huser]
      match o, hw with
      | none, _ => rfl
      | some ⟨.method x, q⟩, _ => rfl
      | some ⟨.methods ms, q⟩, _ => rfl
      | some ⟨.count k, q⟩, hw => simp [Wanted] at hw
  · rw [hnq]
    simp [quantiles, percentiles, linspace]
  · intro i hi
    rw [hnq]
    have hpos : (WantedQuantiles o) ≠ 0 := by omega
    unfold quantiles percentiles
    have : ((linspace 0 100 (WantedQuantiles o)).tail.dropLast)[i]? = some (100 * ((i : ℚ) + 1) / WantedQuantiles o) := by
      have hlen : (linspace 0 100 (WantedQuantiles o)).length = WantedQuantiles o + 1 := linspace_length _ _ _
      rw [List.getElem?_dropLast, if_pos (by rw [List.length_tail, hlen]; omega), List.getElem?_tail]
      unfold linspace
      rw [List.getElem?_map, List.getElem?_range (by omega)]
      simp only [Option.map_some, Option.some.injEq]
      push_cast
      ring
    rw [List.getElem?_map, this]
    rfl
  · have K := (report_kept s.2 _ s.1 h' d G.hs G.ht (fun m e he => (G.entry m e he).1) r1).1
    unfold Col.median Col.histogram
    dsimp only
    rw [K.dict _ G.hs, hgi]
    rfl

/-- Eight integers in two batches, the default options and an estimate of two bins. -/
example : ((report (updates (fun _ _ => 2) (newCol ⟨[], []⟩ false none).1 (newCol ⟨[], []⟩ false none).2 [[], [1, 1]]).1
    (updates (fun _ _ => 2) (newCol ⟨[], []⟩ false none).1 (newCol ⟨[], []⟩ false none).2 [[], [1, 1]]).2).toOption.map
      fun r => r.2.2.body) = some (.ints ⟨[2], [1, 1]⟩) := by decide +kernel

/-- C75: reporting again, with nothing in between, gives the same histogram and changes nothing. -/
theorem C75_report_twice (h h' : Heap) (c c' : Col) (d : HDict) (h1 : report h c = .ok (h', c', d)) : report h' c' = .ok (h', c', d) := by
  unfold report at h1
  cases hsel : c.selection with
  | some m =>
    rw [hsel] at h1
    dsimp only at h1
    cases he : PyDict.get? (h.tab c.table) m with
    | none => rw [he] at h1; cases h1
    | some e =>
      rw [he] at h1
      cases h1
      unfold report
      rw [hsel]
      dsimp only
      rw [he]
  | none =>
    rw [hsel] at h1
    dsimp only at h1
    cases hb : HistColumn.bestLoop c (PyDict.keys (h.tab c.table)) h none none with
    | error x => rw [hb] at h1; cases h1
    | ok x =>
      obtain ⟨h2, sel⟩ := x
      rw [hb] at h1
      cases sel with
      | none => cases h1
      | some m =>
        dsimp only at h1
        cases he : PyDict.get? (h2.tab c.table) m with
        | none => rw [he] at h1; cases h1
        | some e =>
          rw [he] at h1
          cases h1
          unfold report
          dsimp only
          rw [he]

/-! ## A report in between changes the later one -/

/-- The table of a column with one method. -/
theorem good_single (est : String → List ℚ → ℕ) (h : Heap) (c : Col) (data : List ℚ) (G : Good est h c data) (m : String) (hn : c.names = [m]) :
    PyDict.keys (h.tab c.table) = [m] ∧ ∃ e, PyDict.get? (h.tab c.table) m = some e := by
  have hm : m ∈ PyDict.keys (h.tab c.table) := (G.keys m).2 (by simp [hn])
  refine ⟨?_, (PyDict.mem_keys_iff _ _).1 hm⟩
  have hnd := G.wf
  unfold PyDict.WF at hnd
  have hall : ∀ x ∈ PyDict.keys (h.tab c.table), x = m := fun x hx => by
    have := (G.keys x).1 hx
    simpa [hn] using this
  match hk : PyDict.keys (h.tab c.table) with
  | [] => rw [hk] at hm; simp at hm
  | [x] => rw [hall x (by simp [hk])]
  | x :: y :: l =>
    rw [hk] at hnd hall
    have := hall x (by simp)
    have := hall y (by simp)
    subst_vars
    simp at hnd

/-- The report of a column with one method. -/
theorem report_single (h h' : Heap) (c : Col) (m : String) (e : Entry) (r : ℕ) (loss : ℚ) (hs : c.selection = none)
    (hk : PyDict.keys (h.tab c.table) = [m]) (he : PyDict.get? (h.tab c.table) m = some e) (hf : histogramFor h c e = .ok (h', r, loss))
    (ht : c.table < h'.tables.length) :
    report h c = .ok (h'.put c.table m { e with hist := r, total := e.total + loss }, { c with selection := some m }, h'.dict r) := by
  unfold report
  rw [hs]
  dsimp only
  rw [hk, HistColumn.bestLoop, he]
  dsimp only
  rw [hf]
  dsimp only
  rw [if_pos (show better none loss = true from rfl), HistColumn.bestLoop]
  dsimp only
  rw [tab_put _ _ _ _ _ ht, if_pos rfl, PyDict.get?_set, if_pos rfl]
  rfl

/-- C75 fails when a report comes between two updates: with one method whose estimate was at least 1000 at the first report, the histogram reported
after the second update has 1000 bins however few the method then estimates, and with no report in between it has as many as the method estimates. -/
theorem C75_report_changes_fails (est : String → List ℚ → ℕ) (h0 : Heap) (isFloat : Bool) (m : String) (q : ℕ) (bs : List (List ℚ)) (b : List ℚ)
    (hint : isFloat = false → ∀ v ∈ bs.flatten ++ b, ∃ z : ℤ, v = z) (hb : b ≠ []) (hdiff : ¬ AllEqual bs.flatten)
    (hmany : ∀ vs, Stands vs bs.flatten → 1000 ≤ est m vs) (k : ℕ) (hk0 : 0 < k) (hk1 : k < 1000)
    (hfew : ∀ vs, Stands vs (bs.flatten ++ b) → est m vs = k) :
    let s := updates est (newCol h0 isFloat (some ⟨.method m, q⟩)).1 (newCol h0 isFloat (some ⟨.method m, q⟩)).2 bs
    (∃ h' c' d g, report (update est s.1 s.2 b).1 (update est s.1 s.2 b).2 = .ok (h', c', d) ∧ asHist d.body = some g ∧ g.counts.length = k) ∧
    (∃ h1 c1 d1, report s.1 s.2 = .ok (h1, c1, d1) ∧
      ∃ h' c' d g, report (update est h1 c1 b).1 (update est h1 c1 b).2 = .ok (h', c', d) ∧ asHist d.body = some g ∧ g.counts.length = 1000) := by
  intro s
  have hI : (newCol h0 isFloat (some ⟨.method m, q⟩)).2.isFloat = false → ∀ v ∈ ([] : List ℚ) ++ bs.flatten, IsInt v := by
    intro hf v hv
    exact hint hf v (List.mem_append_left _ (by simpa using hv))
  obtain ⟨G, S⟩ := updates_good est bs _ _ [] hI (newCol_good est h0 isFloat (some ⟨.method m, q⟩))
  rw [List.nil_append] at G
  change Good est s.1 s.2 bs.flatten at G
  change SameCol _ s.2 at S
  have hnames : s.2.names = [m] := S.names
  have huser : s.2.user = none := S.user
  have hfl : s.2.isFloat = isFloat := S.isFloat
  have hd : bs.flatten ≠ [] := by
    intro h
    apply hdiff
    rw [h]
    intro x hx
    simp at hx
  have hint2 : s.2.isFloat = false → ∀ v ∈ bs.flatten ++ b, IsInt v := fun hf => hint (by rw [← hfl]; exact hf)
  have hdiff2 : ¬ AllEqual (bs.flatten ++ b) := fun h => hdiff fun x hx y hy => h x (by simp [hx]) y (by simp [hy])
  constructor
  · obtain ⟨G', S'⟩ := update_good est s.1 s.2 bs.flatten b hb hint2 G
    generalize (update est s.1 s.2 b).1 = h2 at *
    generalize (update est s.1 s.2 b).2 = c2 at *
    obtain ⟨hk, e, he⟩ := good_single est h2 c2 _ G' m (S'.names.trans hnames)
    rcases G'.sugg (by simp [hd]) with ⟨hall, -⟩ | ⟨-, vs, g1, hst, s1, s2, s3⟩
    · exact absurd hall hdiff2
    · obtain ⟨t1, t2⟩ := s3 m e he
      have hu2 : c2.user = none := S'.user.trans huser
      have hsug : suggestion est c2.user vs m = k := by
        rw [hu2]
        simp only [suggestion, hfew vs hst, maxBins]
        omega
      have heq : equalBins est c2.user vs c2.names = 1000 := by
        rw [S'.names, hnames, hu2]
        simp only [equalBins, suggestion, List.map_cons, List.map_nil, List.foldl_cons, List.foldl_nil, hfew vs hst, maxBins, minBins]
        omega
      obtain ⟨gi, hgi, hdesc⟩ := good_stored est h2 c2 _ (by simp [hd]) G'
      rw [s1] at hgi
      cases hgi
      obtain ⟨r, loss, r1, r2, -⟩ := C07_regenerate (g1.counts.map fun c : ℕ => (c : ℚ)) g1.edges k c2.isFloat hk0 hdesc.shape
      have hf : histogramFor h2 c2 e = .ok ({ h2 with dicts := h2.dicts ++ [⟨.floats r, none⟩] }, h2.dicts.length, loss) := by
        unfold histogramFor
        rw [t1, hsug]
        have hh : c2.histogram h2 = some ⟨g1.counts.map fun c : ℕ => (c : ℚ), g1.edges⟩ := by
          unfold Col.histogram
          rw [s1]
          rfl
        rw [hh]
        dsimp only
        rw [if_neg (by rw [t2]; simp), if_neg (by rw [List.length_map, s2, heq]; omega), r1]
      refine ⟨_, _, _, r, report_single h2 _ c2 m e _ _ G'.sel hk he hf G'.ht, ?_, r2⟩
      rw [dict_last]
      rfl
  · obtain ⟨hk, e, he⟩ := good_single est s.1 s.2 _ G m hnames
    rcases G.sugg hd with ⟨hall, -⟩ | ⟨-, vs, g1, hst, s1, s2, s3⟩
    · exact absurd hall hdiff
    · obtain ⟨t1, t2⟩ := s3 m e he
      have hes := hmany vs hst
      have hlen : (g1.counts.map fun c : ℕ => (c : ℚ)).length = suggestion est s.2.user vs m := by
        rw [List.length_map, s2, hnames, huser]
        simp only [equalBins, suggestion, List.map_cons, List.map_nil, List.foldl_cons, List.foldl_nil, maxBins, minBins]
        omega
      have hf : histogramFor s.1 s.2 e = .ok (s.1, s.2.stored, s.2.storedLoss) := by
        unfold histogramFor
        rw [t1]
        have hh : s.2.histogram s.1 = some ⟨g1.counts.map fun c : ℕ => (c : ℚ), g1.edges⟩ := by
          unfold Col.histogram
          rw [s1]
          rfl
        rw [hh]
        dsimp only
        rw [if_neg (by rw [t2]; simp), if_pos hlen]
      set e1 : Entry := { e with hist := s.2.stored, total := e.total + s.2.storedLoss } with he1
      set h1 := s.1.put s.2.table m e1 with hh1
      set c1 : Col := { s.2 with selection := some m } with hc1
      have htab1 : h1.tab c1.table = PyDict.set (s.1.tab s.2.table) m e1 := by
        show h1.tab s.2.table = _
        rw [hh1, tab_put _ _ _ _ _ G.ht, if_pos rfl]
      have hrep : report s.1 s.2 = .ok (h1, c1, h1.dict s.2.stored) := report_single s.1 s.1 s.2 m e _ _ G.sel hk he hf G.ht
      have hget1 : ∀ m' e', PyDict.get? (h1.tab c1.table) m' = some e' → e'.hist < h1.dicts.length := by
        intro m' e' he'
        rw [htab1, PyDict.get?_set] at he'
        show e'.hist < s.1.dicts.length
        split_ifs at he' with hc
        · cases he'
          exact G.hs
        · exact (G.entry m' e' he').1
      have htr : Tracks (h1.dict c1.stored).body bs.flatten := G.track
      obtain ⟨vs2, hc2, hvne, -, hst2⟩ := combined_ok _ c1.isFloat bs.flatten b hb hint2 htr
      have hnot : constant vs2 = false := by
        cases hcc : constant vs2 with
        | false => rfl
        | true => exact absurd ((constant_iff hvne hst2).1 hcc) hdiff2
      have ht1 : c1.table < h1.tables.length := by
        have := G.ht
        simpa [hh1, hc1, Heap.put] using this
      obtain ⟨h2, W, u1, S2, u2, -⟩ := update_eq est h1 c1 b vs2 hb hc2 ht1
        (by
          intro m' hm'
          have hm'' : m' = m := by
            have : c1.names = [m] := hnames
            rw [this] at hm'
            simpa using hm'
          subst hm''
          exact ⟨e1, by rw [htab1, PyDict.get?_set, if_pos rfl]⟩) hget1 G.hs
      refine ⟨h1, c1, _, hrep, ?_⟩
      have heq : equalBins est c1.user vs2 c1.names = 1000 := by
        show equalBins est s.2.user vs2 s.2.names = 1000
        rw [hnames, huser]
        simp only [equalBins, suggestion, List.map_cons, List.map_nil, List.foldl_cons, List.foldl_nil, hfew vs2 hst2, maxBins, minBins]
        omega
      rw [heq] at u1
      have hg0 : (getHistogram vs2 1000).counts.length = 1000 := by
        rw [getHistogram_counts vs2 1000 (by omega), hnot]
        rfl
      generalize (update est h1 c1 b).1 = h3 at *
      generalize (update est h1 c1 b).2 = c3 at *
      subst u1
      have hs2 : c1.stored < h2.dicts.length := by rw [W.dlen]; exact G.hs
      have hdict : (h2.write c1.stored (.ints (getHistogram vs2 1000))).dict c1.stored =
          { h2.dict c1.stored with body := .ints (getHistogram vs2 1000) } := by
        rw [dict_write _ _ _ _ hs2, if_pos rfl]
      have hgm := W.entry m e1 (by rw [htab1, PyDict.get?_set, if_pos rfl])
      rw [if_pos (by show m ∈ s.2.names; rw [hnames]; simp)] at hgm
      have hkeys : PyDict.keys ((h2.write c1.stored (.ints (getHistogram vs2 1000))).tab c3.table) = [m] := by
        rw [S2.table]
        show PyDict.keys (h2.tab c1.table) = [m]
        rw [W.keys, htab1, PyDict.keys_set, hk]
        simp
      set e2 : Entry := { e1 with suggested := some ((if constant vs2 then fun _ => 1 else suggestion est c1.user vs2) m) } with he2
      have hget3 : PyDict.get? ((h2.write c1.stored (.ints (getHistogram vs2 1000))).tab c3.table) m = some e2 := by
        rw [S2.table]
        exact hgm
      have hf3 : histogramFor (h2.write c1.stored (.ints (getHistogram vs2 1000))) c3 e2 =
          .ok (h2.write c1.stored (.ints (getHistogram vs2 1000)), c1.stored, e2.total) := by
        unfold histogramFor
        have hh : ∃ g, c3.histogram (h2.write c1.stored (.ints (getHistogram vs2 1000))) = some g := by
          unfold Col.histogram
          rw [S2.stored, hdict]
          exact ⟨_, rfl⟩
        obtain ⟨g, hg⟩ := hh
        have hsg : e2.suggested = some ((if constant vs2 then fun _ => 1 else suggestion est c1.user vs2) m) := rfl
        rw [hsg, hg]
        dsimp only
        have : (h2.write c1.stored (.ints (getHistogram vs2 1000))).dict e2.hist =
          { h2.dict c1.stored with body := .ints (getHistogram vs2 1000) } := hdict
        rw [if_pos (by rw [this]; simp)]
      have ht3 : c3.table < (h2.write c1.stored (.ints (getHistogram vs2 1000))).tables.length := by
        rw [S2.table]
        show c1.table < h2.tables.length
        rw [W.tlen]
        exact ht1
      refine ⟨_, _, _, ⟨(getHistogram vs2 1000).counts.map fun c : ℕ => (c : ℚ), (getHistogram vs2 1000).edges⟩,
        report_single _ _ c3 m e2 _ _ u2 hkeys hget3 hf3 ht3, ?_, ?_⟩
      · rw [hdict]
        rfl
      · simpa using hg0

/-- Five and then three values, an estimate of 1000 bins for the first and of 7 for all: the hypotheses hold. -/
example : (¬ AllEqual [[1, 2, 3], [4, 5]].flatten) ∧
    (∀ vs, Stands vs [[1, 2, 3], [4, 5]].flatten → 1000 ≤ (fun (_ : String) (vs : List ℚ) => if vs.length = 5 then 1000 else 7) "fd" vs) ∧
    (∀ vs, Stands vs ([[1, 2, 3], [4, 5]].flatten ++ [1, 2, 9]) →
      (fun (_ : String) (vs : List ℚ) => if vs.length = 5 then 1000 else 7) "fd" vs = 7) := by
  refine ⟨fun h => ?_, fun vs h => ?_, fun vs h => ?_⟩
  · have := h 1 (by simp) 2 (by simp)
    norm_num at this
  · have : vs.length = 5 := h.1
    simp [this]
  · have : vs.length = 8 := h.1
    simp [this]

/-! ## Merges -/

/-- A new column leaves the others alone. -/
theorem newCol_frame (h : Heap) (f : Bool) (o : Option Options) :
    (∃ k, (newCol h f o).1.dicts = h.dicts ++ emptyDict :: List.replicate k emptyDict) ∧ (∃ t, (newCol h f o).1.tables = h.tables ++ [t]) ∧
    (newCol h f o).2.stored = h.dicts.length := by
  have F := newTable_spec (some minBins) (binNames o).1 { h with dicts := h.dicts ++ [emptyDict] }
  obtain ⟨k, hk⟩ := F.dicts
  refine ⟨⟨k, ?_⟩, ⟨(newTable (some minBins) (binNames o).1 { h with dicts := h.dicts ++ [emptyDict] } []).2, ?_⟩, rfl⟩
  · unfold newCol
    dsimp only
    rw [hk]
    simp
  · unfold newCol
    dsimp only
    rw [F.tables]

theorem newCol_dict (h : Heap) (f : Bool) (o : Option Options) (r : ℕ) (hr : r < h.dicts.length) : (newCol h f o).1.dict r = h.dict r := by
  obtain ⟨⟨k, hk⟩, -⟩ := newCol_frame h f o
  unfold Heap.dict
  rw [hk]
  simp [List.getElem?_append_left hr]

theorem newCol_tab (h : Heap) (f : Bool) (o : Option Options) (t : ℕ) (ht : t < h.tables.length) : (newCol h f o).1.tab t = h.tab t := by
  obtain ⟨-, ⟨x, hx⟩, -⟩ := newCol_frame h f o
  unfold Heap.tab
  rw [hx]
  simp [List.getElem?_append_left ht]

/-- A column with a histogram refers to a dictionary. -/
theorem stored_lt (h : Heap) (c : Col) (g : Hist) (hg : c.histogram h = some g) : c.stored < h.dicts.length := by
  refine Classical.byContradiction fun hc => ?_
  unfold Col.histogram Heap.dict at hg
  rw [List.getD_eq_getElem?_getD, List.getElem?_eq_none (by omega)] at hg
  simp [asHist] at hg

/-- The parts of a merge of two columns with histograms. -/
theorem merge_eq (suggest : String → ℕ) (h : Heap) (c1 c2 : Col) (g1 g2 : Hist) (lo hi : ℚ) (h1 : c1.histogram h = some g1)
    (h2 : c2.histogram h = some g2) (hl1 : g1.edges.length = g1.counts.length + 1) (hl2 : g2.edges.length = g2.counts.length + 1)
    (hcommon : ∃ m ∈ c1.names, m ∈ c2.names) :
    ∃ h' c g loss, merge suggest h c1 c2 (some lo) (some hi) = .ok (h', c) ∧ c.selection = none ∧ c.stored < h'.dicts.length ∧
      h'.dict c.stored = ⟨.floats g, some loss⟩ ∧ c.isFloat = c1.isFloat ∧
      g.edges.length = g.counts.length + 1 ∧ g.counts.sum = g1.counts.sum + g2.counts.sum ∧ g.edges.head? = some lo ∧ g.edges.getLast? = some hi ∧
      c.numQuantiles = 1000 ∧ c.quantiles = some (quantiles g 1000) ∧ c.table < h'.tables.length ∧ PyDict.WF (h'.tab c.table) ∧
      (∀ m, m ∈ PyDict.keys (h'.tab c.table) ↔ m ∈ c1.names ∧ m ∈ c2.names) ∧
      (∀ r, h.dicts.length ≤ r → r ≠ c.stored → h'.dict r = emptyDict) ∧
      (∀ m e, PyDict.get? (h'.tab c.table) m = some e → h.dicts.length < e.hist ∧ e.hist ≠ c.stored ∧ e.hist < h'.dicts.length) ∧
      (c1.user = none ∨ c2.user = none → g.counts.length = 1000 ∧
        ∀ m e, PyDict.get? (h'.tab c.table) m = some e → e.suggested = some (suggest m)) ∧
      (∀ a b, c1.user = some a → c2.user = some b → a ≠ 0 → b ≠ 0 → g.counts.length = max a b ∧
        ∀ m e, PyDict.get? (h'.tab c.table) m = some e → e.suggested = none) := by
  set N := newCol h c1.isFloat none with hN
  obtain ⟨⟨k, hk⟩, ⟨tt, htt⟩, hst⟩ := newCol_frame h c1.isFloat none
  rw [← hN] at hk htt hst
  have hh1 : c1.histogram N.1 = some g1 := by
    have := newCol_dict h c1.isFloat none c1.stored (stored_lt h c1 g1 h1)
    unfold Col.histogram at h1 ⊢
    rw [hN, this]; exact h1
  have hh2 : c2.histogram N.1 = some g2 := by
    have := newCol_dict h c1.isFloat none c2.stored (stored_lt h c2 g2 h2)
    unfold Col.histogram at h2 ⊢
    rw [hN, this]; exact h2
  set names := c1.names.filter fun x => c2.names.contains x with hnames
  have hmem : ∀ m, m ∈ names ↔ m ∈ c1.names ∧ m ∈ c2.names := by
    intro m
    simp [hnames]
  have hne : names.isEmpty = false := by
    obtain ⟨m, a, b⟩ := hcommon
    have := (hmem m).2 ⟨a, b⟩
    cases hx : names with
    | nil => rw [hx] at this; simp at this
    | cons => rfl
  set user := mergedUser c1.user c2.user with huser
  have hpos : 0 < user.getD minBins := by
    rw [huser]
    cases c1.user with
    | none => simp [minBins, mergedUser]
    | some a =>
      cases c2.user with
      | none => simp [minBins, mergedUser]
      | some b =>
        dsimp only [mergedUser]
        split_ifs with hab
        · simp; omega
        · simp [minBins]
  obtain ⟨g, loss, m1, m2, m3, m4, -⟩ := C08_merge_total g1 g2 (user.getD minBins) (some lo) (some hi) hpos hl1 hl2
  have hedges : g.edges = linspace lo hi (user.getD minBins) := by
    have hne1 : g1.edges ≠ [] := by intro h; rw [h] at hl1; simp at hl1
    have hne2 : g2.edges ≠ [] := by intro h; rw [h] at hl2; simp at hl2
    unfold mergeHist mergedRange at m1
    rw [firstLast_ok _ _ _ (List.head?_eq_some_head hne1) (List.getLast?_eq_some_getLast hne1),
      firstLast_ok _ _ _ (List.head?_eq_some_head hne2) (List.getLast?_eq_some_getLast hne2)] at m1
    simp only [bind, Except.bind, Option.getD_some] at m1
    split at m1
    · cases m1
    · split at m1
      · cases m1
      · cases m1
        rfl
  set h1' : Heap := { N.1 with dicts := N.1.dicts.set N.2.stored ⟨.floats g, some loss⟩ } with hh1'
  have F := newTable_spec none names h1'
  set nt := newTable none names h1' [] with hnt
  obtain ⟨k', hk'⟩ := F.dicts
  set tab : Table := (if user = none then nt.2.map fun p => (p.1, { p.2 with suggested := some (suggest p.1) }) else nt.2) with htab
  set h' : Heap := { nt.1 with tables := nt.1.tables ++ [tab] } with hh'
  set c : Col := { N.2 with names := names, user := user, table := nt.1.tables.length } with hc
  have hmerge : merge suggest h c1 c2 (some lo) (some hi) = .ok (h', withQuantiles h' c) := by
    unfold merge
    dsimp only
    rw [← hN, hh1, hh2]
    dsimp only
    unfold mergeBoth
    dsimp only
    rw [← hnames, hne]
    simp only [Bool.false_eq_true, if_false]
    rw [← huser, m1]
  have hNlen : N.1.dicts.length = h.dicts.length + 1 + k := by rw [hk]; simp; omega
  have hlen1 : h1'.dicts.length = h.dicts.length + 1 + k := by rw [hh1']; simp [hNlen]
  have hlen : h'.dicts.length = h.dicts.length + 1 + k + k' := by
    show nt.1.dicts.length = _
    rw [hk']
    simp [hlen1]
  have hdict1 : ∀ r, h1'.dict r = if r = N.2.stored then ⟨.floats g, some loss⟩ else N.1.dict r := by
    intro r
    unfold Heap.dict
    rw [hh1', List.getD_eq_getElem?_getD, List.getElem?_set]
    by_cases hr : r = N.2.stored
    · subst hr
      rw [if_pos rfl, if_pos rfl, if_pos (by rw [hst, hNlen]; omega)]
      rfl
    · rw [if_neg (Ne.symm hr), if_neg hr, List.getD_eq_getElem?_getD]
  have hdict : ∀ r, h'.dict r = if r < h1'.dicts.length then h1'.dict r else emptyDict := by
    intro r
    unfold Heap.dict
    show nt.1.dicts.getD r _ = _
    rw [hk', List.getD_eq_getElem?_getD]
    by_cases hr : r < h1'.dicts.length
    · rw [if_pos hr, List.getElem?_append_left hr, List.getD_eq_getElem?_getD]
    · rw [if_neg hr, List.getElem?_append_right (by omega)]
      cases hx : (List.replicate k' emptyDict)[r - h1'.dicts.length]? with
      | none => rfl
      | some d =>
        have := List.mem_of_getElem? hx
        rw [List.eq_of_mem_replicate this]
        rfl
  have hNempty : ∀ r, h.dicts.length ≤ r → N.1.dict r = emptyDict := by
    intro r hr
    unfold Heap.dict
    rw [hk, List.getD_eq_getElem?_getD, List.getElem?_append_right hr]
    cases hx : (emptyDict :: List.replicate k emptyDict)[r - h.dicts.length]? with
    | none => rfl
    | some d =>
      have := List.mem_of_getElem? hx
      rw [List.mem_cons] at this
      rcases this with rfl | this
      · rfl
      · rw [List.eq_of_mem_replicate this]
        rfl
  have hstored : h'.dict N.2.stored = ⟨.floats g, some loss⟩ := by
    rw [hdict, if_pos (by rw [hlen1, hst]; omega), hdict1, if_pos rfl]
  have htabeq : h'.tab nt.1.tables.length = tab := by
    unfold Heap.tab
    simp [hh']
  obtain ⟨a1, a2⟩ := withQuantiles_same h' c
  have hq : (withQuantiles h' c).quantiles = some (quantiles g 1000) := by
    unfold withQuantiles
    have : c.histogram h' = some g := by
      unfold Col.histogram
      show asHist (h'.dict N.2.stored).body = some g
      rw [hstored]
      rfl
    rw [this]
    rfl
  have hkeys : PyDict.keys tab = PyDict.keys nt.2 := by
    rw [htab]
    split_ifs
    · unfold PyDict.keys
      rw [List.map_map]
      rfl
    · rfl
  have hgett : ∀ m e, PyDict.get? tab m = some e → ∃ e0, PyDict.get? nt.2 m = some e0 ∧ e.hist = e0.hist ∧
      e.suggested = if user = none then some (suggest m) else none := by
    intro m e he
    rw [htab] at he
    by_cases hu : user = none
    · rw [if_pos hu] at he
      have hmem' := PyDict.mem_of_get? he
      obtain ⟨⟨m0, e0⟩, hp, heq⟩ := List.mem_map.1 hmem'
      simp only [Prod.mk.injEq] at heq
      obtain ⟨rfl, rfl⟩ := heq
      refine ⟨e0, PyDict.get?_of_mem F.wf hp, rfl, ?_⟩
      rw [if_pos hu]
    · rw [if_neg hu] at he
      refine ⟨e, he, rfl, ?_⟩
      rw [if_neg hu]
      exact (F.entry m e he).2.2.1
  refine ⟨h', withQuantiles h' c, g, loss, hmerge, a2.trans rfl, ?_, ?_, a1.isFloat.trans rfl, ?_, m4, ?_, ?_, a1.numQuantiles.trans rfl, hq, ?_, ?_, ?_,
    ?_, ?_, ?_, ?_⟩
  · rw [a1.stored, hlen]
    show N.2.stored < _
    rw [hst]; omega
  · rw [a1.stored]; exact hstored
  · rw [m3, m2]
  · rw [hedges]; exact linspace_head _ _ _
  · rw [hedges]; exact linspace_last _ _ _ hpos
  · rw [a1.table]
    simp [hh', hc]
  · rw [a1.table]
    show PyDict.WF (h'.tab nt.1.tables.length)
    rw [htabeq]
    unfold PyDict.WF
    rw [hkeys]
    exact F.wf
  · intro m
    rw [a1.table]
    show m ∈ PyDict.keys (h'.tab nt.1.tables.length) ↔ _
    rw [htabeq, hkeys, F.keys, hmem]
  · intro r hr hr'
    rw [a1.stored] at hr'
    have hr' : r ≠ N.2.stored := hr'
    rw [hdict]
    split_ifs
    · rw [hdict1, if_neg hr', hNempty r hr]
    · rfl
  · intro m e he
    rw [a1.table] at he
    change PyDict.get? (h'.tab nt.1.tables.length) m = some e at he
    rw [htabeq] at he
    obtain ⟨e0, h0, hh0, -⟩ := hgett m e he
    obtain ⟨b1, b2, -⟩ := F.entry m e0 h0
    rw [hlen1] at b1
    rw [hh0, a1.stored]
    refine ⟨by omega, ?_, b2⟩
    show e0.hist ≠ N.2.stored
    rw [hst]; omega
  · intro hu
    have hun : user = none := by
      rw [huser]
      rcases hu with hu | hu
      · rw [hu]; rfl
      · rw [hu]
        cases c1.user <;> rfl
    refine ⟨by rw [m2, hun]; rfl, fun m e he => ?_⟩
    rw [a1.table] at he
    change PyDict.get? (h'.tab nt.1.tables.length) m = some e at he
    rw [htabeq] at he
    obtain ⟨e0, -, -, h2⟩ := hgett m e he
    rw [h2, if_pos hun]
  · intro a b hua hub ha hb
    have hun : user = some (max a b) := by
      rw [huser, hua, hub]
      simp [mergedUser, ha, hb]
    refine ⟨by rw [m2, hun]; rfl, fun m e he => ?_⟩
    rw [a1.table] at he
    change PyDict.get? (h'.tab nt.1.tables.length) m = some e at he
    rw [htabeq] at he
    obtain ⟨e0, -, -, h2⟩ := hgett m e he
    rw [h2, if_neg (by rw [hun]; simp)]

/-- C75: a merge of two columns with histograms, not both with a number of bins asked for, reports a histogram of the sum of the counts between the
merged minimum and maximum, with as many bins as estimated for some method that both columns have. It has 999 quantiles. The dictionary reported holds
two more keys, the loss, exactly when the estimate is 1000. -/
theorem C75_merge (suggest : String → ℕ) (h : Heap) (c1 c2 : Col) (g1 g2 : Hist) (lo hi : ℚ) (h1 : c1.histogram h = some g1)
    (h2 : c2.histogram h = some g2) (hl1 : g1.edges.length = g1.counts.length + 1) (hl2 : g2.edges.length = g2.counts.length + 1)
    (hcommon : ∃ m ∈ c1.names, m ∈ c2.names) (huser : c1.user = none ∨ c2.user = none) (hpos : ∀ m, 0 < suggest m) :
    ∃ h' c h'' c' d g m, merge suggest h c1 c2 (some lo) (some hi) = .ok (h', c) ∧ report h' c = .ok (h'', c', d) ∧ asHist d.body = some g ∧
      g.counts.sum = g1.counts.sum + g2.counts.sum ∧ g.edges.head? = some lo ∧ g.edges.getLast? = some hi ∧
      m ∈ c1.names ∧ m ∈ c2.names ∧ g.counts.length = suggest m ∧ g.edges.length = suggest m + 1 ∧
      (d.losses ≠ none ↔ suggest m = 1000) ∧ (c'.quantiles.map List.length) = some 999 := by
  obtain ⟨h', c, g, loss, b1, b2, b3, b4, -, b5, b6, b7, b8, b9, b10, b11, b12, b13, b14, b15, b16, -⟩ :=
    merge_eq suggest h c1 c2 g1 g2 lo hi h1 h2 hl1 hl2 hcommon
  obtain ⟨b16, b17⟩ := b16 huser
  have hne : h'.tab c.table ≠ [] := by
    intro h0
    obtain ⟨m, hm⟩ := hcommon
    have := (b13 m).2 hm
    rw [h0] at this
    simp [PyDict.keys] at this
  have hhist : ∀ h1 : Heap, (∀ r < h'.dicts.length, h1.dict r = h'.dict r) → c.histogram h1 = some g := by
    intro h1 hh
    unfold Col.histogram
    rw [hh _ b3, b4]
    rfl
  obtain ⟨h'', m, d, r1, ⟨g', r2, r3, r4, r5, r6, r7, r8⟩, r9⟩ := report_spec c (fun m d => ∃ g', asHist d.body = some g' ∧
      g'.counts.sum = g1.counts.sum + g2.counts.sum ∧ g'.edges.head? = some lo ∧ g'.edges.getLast? = some hi ∧
      g'.counts.length = suggest m ∧ g'.edges.length = suggest m + 1 ∧ (d.losses ≠ none ↔ suggest m = 1000)) h' b2 b11 b12 (by
      intro h1 m e hl hold he
      obtain ⟨e1, e2, e3⟩ := b15 m e he
      have hb : (h1.dict e.hist).body = .absent := by
        rw [hold _ e3, b14 _ (by omega) e2]
        rfl
      by_cases hm : g.counts.length = suggest m
      · refine ⟨h1, c.stored, c.storedLoss, ?_, rfl, le_refl _, fun _ _ => rfl, by omega, g, ?_, b6, b7, b8, hm, by rw [b5, hm], ?_⟩
        · unfold histogramFor
          rw [b17 m e he, hhist h1 hold]
          dsimp only
          rw [if_neg (by rw [hb]; simp), if_pos hm]
        · rw [hold _ b3, b4]; rfl
        · rw [hold _ b3, b4, ← hm, b16]
          simp
      · obtain ⟨r, l, r1, r2, r3, -, r5, r6, r7⟩ := C07_regenerate g.counts g.edges (suggest m) c.isFloat (hpos m) b5
        refine ⟨{ h1 with dicts := h1.dicts ++ [⟨.floats r, none⟩] }, h1.dicts.length, l, ?_, rfl, by simp,
            fun r' hr' => dict_append h1 _ r' hr', by simp, r, ?_, ?_, ?_, ?_, r2, r5, ?_⟩
        · unfold histogramFor
          rw [b17 m e he, hhist h1 hold]
          dsimp only
          rw [if_neg (by rw [hb]; simp), if_neg hm, r1]
        · rw [dict_last]; rfl
        · rw [r3]; exact b6
        · rw [r6]; exact b7
        · rw [r7]; exact b8
        · rw [dict_last]
          rw [b16] at hm
          simp [Ne.symm hm]) hne
  refine ⟨h', c, h'', _, d, g', m, b1, r1, r2, r3, r4, r5, ((b13 m).1 r9).1, ((b13 m).1 r9).2, r6, r7, r8, ?_⟩
  show c.quantiles.map List.length = some 999
  rw [b10]
  simp [quantiles, percentiles, linspace]

/-- A column whose histogram came from a merge does not change. -/
theorem frozen (est : String → List ℚ → ℕ) (h : Heap) (c : Col) (g : Hist) (hs : c.selection = none) (hb : (h.dict c.stored).body = .floats g)
    (hq : c.quantiles = some (quantiles g c.numQuantiles)) (bs : List (List ℚ)) : updates est h c bs = (h, c) := by
  have one : ∀ b, update est h c b = (h, c) := by
    intro b
    unfold update updateHist
    by_cases he : b.isEmpty = true
    · rw [if_pos he]
      dsimp only
      have hc : ({ c with selection := none } : Col) = c := by cases c; simp_all
      rw [hc]
      unfold withQuantiles Col.histogram
      rw [hb]
      dsimp only [asHist]
      rw [← hq]
    · rw [if_neg he, hb]
      rfl
  induction bs with
  | nil => rfl
  | cons b bs ih => rw [updates, one b]; exact ih

/-- C75 fails after a merge of two columns with histograms: further updates leave histogram, quantiles, median and report as they are, however many
values they bring. -/
theorem C75_merged_frozen_fails (est : String → List ℚ → ℕ) (suggest : String → ℕ) (h : Heap) (c1 c2 : Col) (g1 g2 : Hist) (lo hi : ℚ)
    (h1 : c1.histogram h = some g1) (h2 : c2.histogram h = some g2) (hl1 : g1.edges.length = g1.counts.length + 1)
    (hl2 : g2.edges.length = g2.counts.length + 1) (hcommon : ∃ m ∈ c1.names, m ∈ c2.names) (bs : List (List ℚ)) :
    ∃ h' c, merge suggest h c1 c2 (some lo) (some hi) = .ok (h', c) ∧ updates est h' c bs = (h', c) := by
  obtain ⟨h', c, g, loss, b1, b2, -, b4, -, -, -, -, -, b9, b10, -⟩ := merge_eq suggest h c1 c2 g1 g2 lo hi h1 h2 hl1 hl2 hcommon
  exact ⟨h', c, b1, frozen est h' c g b2 (by rw [b4]) (by rw [b10, b9]) bs⟩

/-- C75 fails for a merge of two columns that ask for a number of bins: the merge succeeds, but every report of the result, after any updates, raises
`KeyError`. -/
theorem C75_user_bins_fails (est : String → List ℚ → ℕ) (suggest : String → ℕ) (h : Heap) (c1 c2 : Col) (g1 g2 : Hist) (lo hi : ℚ)
    (h1 : c1.histogram h = some g1) (h2 : c2.histogram h = some g2) (hl1 : g1.edges.length = g1.counts.length + 1)
    (hl2 : g2.edges.length = g2.counts.length + 1) (hcommon : ∃ m ∈ c1.names, m ∈ c2.names) (a b : ℕ) (ha : c1.user = some a) (hb : c2.user = some b)
    (ha0 : a ≠ 0) (hb0 : b ≠ 0) (bs : List (List ℚ)) :
    ∃ h' c, merge suggest h c1 c2 (some lo) (some hi) = .ok (h', c) ∧
      report (updates est h' c bs).1 (updates est h' c bs).2 = .error .keyError := by
  obtain ⟨h', c, g, loss, b1, b2, -, b4, -, -, -, -, -, b9, b10, -, -, b13, -, -, -, b17⟩ := merge_eq suggest h c1 c2 g1 g2 lo hi h1 h2 hl1 hl2 hcommon
  obtain ⟨-, b18⟩ := b17 a b ha hb ha0 hb0
  refine ⟨h', c, b1, ?_⟩
  rw [frozen est h' c g b2 (by rw [b4]) (by rw [b10, b9]) bs]
  unfold report
  rw [b2]
  dsimp only
  cases hk : PyDict.keys (h'.tab c.table) with
  | nil =>
    obtain ⟨m, hm⟩ := hcommon
    have := (b13 m).2 hm
    rw [hk] at this
    simp at this
  | cons m ms =>
    obtain ⟨e, he⟩ := (PyDict.mem_keys_iff (h'.tab c.table) m).1 (by rw [hk]; simp)
    have hf : histogramFor h' c e = .error .keyError := by
      unfold histogramFor
      rw [b18 m e he]
    have : HistColumn.bestLoop c (m :: ms) h' none none = .error .keyError := by
      rw [HistColumn.bestLoop, he]
      dsimp only
      rw [hf]
    rw [this]

/-- Two columns asking for two bins each: the hypotheses of the theorems on merges hold. -/
example : ∃ (h : Heap) (c1 c2 : Col) (g1 g2 : Hist), c1.histogram h = some g1 ∧ c2.histogram h = some g2 ∧
    g1.edges.length = g1.counts.length + 1 ∧ g2.edges.length = g2.counts.length + 1 ∧ (∃ m ∈ c1.names, m ∈ c2.names) ∧
    c1.user = some 2 ∧ c2.user = some 2 := by
  let o : Option Options := some ⟨.count 2, 4⟩
  let s1 := newCol ⟨[], []⟩ false o
  let u1 := updates (fun _ _ => 3) s1.1 s1.2 [[1, 2, 3]]
  let s2 := newCol u1.1 false o
  let u2 := updates (fun _ _ => 3) s2.1 s2.2 [[5], [7, 9]]
  refine ⟨u2.1, u1.2, u2.2, ⟨[1, 2], [1, 2, 3]⟩, ⟨[1, 2], [5, 7, 9]⟩, ?_, ?_, rfl, rfl, ⟨"custom", ?_, ?_⟩, ?_, ?_⟩ <;> decide +kernel

/-- Merging a column that was only updated with one without histogram: the merged column has none either, so that its median and mode are NaN, while its quantiles are those
of the operand that has one. If that operand was not reported before, the merge reports a histogram without counts or edges. -/
theorem empty_operand (est : String → List ℚ → ℕ) (suggest : String → ℕ) (h : Heap) (c1 a b : Col) (data : List ℚ) (lo hi : Option ℚ)
    (G : Good est h c1 data) (hn : c1.names ≠ []) (hdiff : ¬ AllEqual data) (topK : ℕ)
    (hm : merge suggest h a b lo hi = .ok ((newCol h a.isFloat none).1,
      { (newCol h a.isFloat none).2 with table := c1.table, quantiles := c1.quantiles })) :
    ∃ h' c, merge suggest h a b lo hi = .ok (h', c) ∧ c.histogram h' = none ∧ c.median h' = none ∧ c.mode h' topK = none ∧
      (∃ qs, c1.quantiles = some qs ∧ c.quantiles = some qs) ∧
      ∃ h'' c' d, report h' c = .ok (h'', c', d) ∧ d.body = .absent := by
  have hd : data ≠ [] := by
    intro h
    apply hdiff
    rw [h]
    intro x hx
    simp at hx
  set N := newCol h a.isFloat none with hN
  obtain ⟨⟨k, hk⟩, ⟨tt, htt⟩, hst⟩ := newCol_frame h a.isFloat none
  rw [← hN] at hk htt hst
  have hno : ∀ h1 : Heap, (∀ r < N.1.dicts.length, h1.dict r = N.1.dict r) →
      ({ N.2 with table := c1.table, quantiles := c1.quantiles } : Col).histogram h1 = none := by
    intro h1 hold
    unfold Col.histogram
    show asHist (h1.dict N.2.stored).body = none
    rw [hold _ (by rw [hst, hk]; simp), hst]
    unfold Heap.dict
    rw [hk]
    simp [emptyDict, asHist]
  have hno1 := hno N.1 (fun _ _ => rfl)
  obtain ⟨g, -, hq⟩ := G.quant hd
  refine ⟨N.1, _, hm, hno1, ?_, ?_, ⟨_, hq, hq⟩, ?_⟩
  · unfold Col.median
    rw [hno1]
    rfl
  · unfold Col.mode
    rw [hno1]
    rfl
  · have htab : N.1.tab c1.table = h.tab c1.table := newCol_tab h _ _ _ G.ht
    have hnetab : h.tab c1.table ≠ [] := by
      intro h0
      obtain ⟨m, hm⟩ := List.exists_mem_of_ne_nil _ hn
      have := (G.keys m).2 hm
      rw [h0] at this
      simp [PyDict.keys] at this
    obtain ⟨h', m, d, r1, r2, -⟩ := report_spec ({ N.2 with table := c1.table, quantiles := c1.quantiles } : Col) (fun _ d => d.body = .absent) N.1 rfl
      (by
        show c1.table < N.1.tables.length
        rw [htt]
        have := G.ht
        simp; omega)
      (by
        show PyDict.WF (N.1.tab c1.table)
        rw [htab]; exact G.wf)
      (by
        intro h1 m e hl hold he
        change PyDict.get? (N.1.tab c1.table) m = some e at he
        rw [htab] at he
        obtain ⟨e1, e2, e3⟩ := G.entry m e he
        have e1' : e.hist < N.1.dicts.length := by rw [hk]; simp; omega
        rcases G.sugg hd with ⟨hall, -⟩ | ⟨-, vs, g1, hst, s1, s2, s3⟩
        · exact absurd hall hdiff
        · obtain ⟨t1, t2⟩ := s3 m e he
          refine ⟨h1, e.hist, e.total, ?_, rfl, le_refl _, fun _ _ => rfl, by omega, ?_⟩
          · unfold histogramFor
            rw [t1, hno h1 hold]
          · rw [hold _ e1', hN, newCol_dict h _ _ _ e1]
            exact t2)
      (by
        show N.1.tab c1.table ≠ []
        rw [htab]; exact hnetab)
    exact ⟨h', _, d, r1, r2⟩

/-- Updating such a merged column: the merged column and the other operand share their tables. After an update of the merged column
the operand, reported before and not touched since, reports a histogram without counts or edges. -/
theorem shared (est : String → List ℚ → ℕ) (suggest : String → ℕ) (h : Heap) (c1 c2 : Col) (data batch : List ℚ) (lo hi : Option ℚ)
    (G : Good est h c1 data) (hn : c1.names = ["auto", "fd", "doane", "scott", "rice", "sturges", "sqrt"]) (hd : data ≠ [])
    (hest : ∀ m vs, vs ≠ [] → 0 < est m vs) (hdiff : ¬ AllEqual batch) :
    ∃ h1 c1' d g, report h c1 = .ok (h1, c1', d) ∧ asHist d.body = some g ∧ Describes g data ∧
      (c2.histogram (newCol h1 c1.isFloat none).1 = none →
        ∃ h2 c h3 c1'' d', merge suggest h1 c1' c2 lo hi = .ok (h2, c) ∧ report (update est h2 c batch).1 c1' = .ok (h3, c1'', d') ∧
          d'.body = .absent) := by
  obtain ⟨h1, m, d, g, r1, r2, -, r4, r5, -⟩ := good_report est h c1 data hd G hest (by rw [hn]; simp)
  refine ⟨h1, _, d, g, r1, r4, r5, fun h2 => ?_⟩
  obtain ⟨K, m', e, hm', he, -⟩ := report_kept c1 _ h h1 d G.hs G.ht (fun m e he => (G.entry m e he).1) r1
  have hmm : m = m' := by
    have := congrArg Col.selection hm'
    simpa using this
  subst hmm
  set c1' : Col := { c1 with selection := some m } with hc1'
  set N := newCol h1 c1.isFloat none with hN
  obtain ⟨⟨k, hk⟩, ⟨tt, htt⟩, hst⟩ := newCol_frame h1 c1.isFloat none
  rw [← hN] at hk htt hst
  have hmerge : merge suggest h1 c1' c2 lo hi = .ok (N.1, { N.2 with table := c1.table, quantiles := c1.quantiles }) := by
    unfold merge
    dsimp only
    have : newCol h1 c1'.isFloat none = N := rfl
    rw [this, h2]
    cases c1'.histogram N.1 <;> rfl
  have htlen : c1.table < h1.tables.length := by rw [K.tlen]; exact G.ht
  have htab : N.1.tab c1.table = h1.tab c1.table := newCol_tab h1 _ _ _ htlen
  set c : Col := { N.2 with table := c1.table, quantiles := c1.quantiles } with hc
  have hcn : c.names = c1.names := by
    rw [hn]
    rfl
  have hbne : batch ≠ [] := by
    intro h
    apply hdiff
    rw [h]
    intro x hx
    simp at hx
  have hbody : (N.1.dict c.stored).body = .absent := by
    show (N.1.dict N.2.stored).body = .absent
    rw [hst]
    unfold Heap.dict
    rw [hk]
    simp [emptyDict]
  have hNlen : h1.dicts.length < N.1.dicts.length := by rw [hk]; simp
  obtain ⟨h4, W, u1, -, -, -⟩ := update_eq est N.1 c batch batch hbne (by rw [hbody]; rfl)
    (by
      show c1.table < N.1.tables.length
      rw [htt]
      simp; omega)
    (by
      intro x hx
      rw [hcn] at hx
      refine (PyDict.mem_keys_iff _ _).1 ?_
      show x ∈ PyDict.keys (N.1.tab c1.table)
      rw [htab, K.keys]
      exact (G.keys x).2 hx)
    (by
      intro x e' hx
      change PyDict.get? (N.1.tab c1.table) x = some e' at hx
      rw [htab] at hx
      have := K.refs x e' hx
      omega)
    (by
      show N.2.stored < N.1.dicts.length
      rw [hst]; exact hNlen)
  have hnot : constant batch = false := by
    cases hcc : constant batch with
    | false => rfl
    | true =>
      have hS : Stands batch batch := ⟨rfl, fun _ => Iff.rfl, fun _ => Iff.rfl⟩
      exact absurd ((constant_iff hbne hS).1 hcc) hdiff
  have he' : PyDict.get? (N.1.tab c.table) m = some e := by
    show PyDict.get? (N.1.tab c1.table) m = some e
    rw [htab]; exact he
  have hent := W.entry m e he'
  rw [if_pos (by rw [hcn]; exact r2)] at hent
  have hhit := W.hit e.hist ⟨m, by rw [hcn]; exact r2, e, he', rfl⟩
  have hrep : report (update est N.1 c batch).1 c1' = .ok ((update est N.1 c batch).1, c1', (update est N.1 c batch).1.dict e.hist) := by
    unfold report
    have hsel : c1'.selection = some m := rfl
    have htb : c1'.table = c1.table := rfl
    rw [hsel, htb]
    dsimp only
    rw [u1]
    have : PyDict.get? ((h4.write c.stored (.ints (getHistogram batch (equalBins est c.user batch c.names)))).tab c1.table) m = _ := hent
    rw [this]
  refine ⟨N.1, c, _, _, _, hmerge, hrep, ?_⟩
  rw [u1, dict_write _ _ _ _ (by
      rw [W.dlen]
      show N.2.stored < N.1.dicts.length
      rw [hst]; exact hNlen), if_neg (by
      show e.hist ≠ N.2.stored
      rw [hst]
      have := K.refs m e he
      omega), hhit, hnot]
  rfl

/-- C75 fails when one operand of a merge has no histogram, as a column without any finite value: the merged column has none either, so that its median
and mode are NaN, while its quantiles are those of the operand that has one. If that operand was not reported before, the merge reports a histogram
without counts or edges. -/
theorem C75_empty_operand_fails (est : String → List ℚ → ℕ) (suggest : String → ℕ) (h0 : Heap) (isFloat : Bool) (o : Option Options)
    (bs : List (List ℚ)) (lo hi : Option ℚ) (topK : ℕ) (hsome : ∀ q, o ≠ some ⟨.methods [], q⟩)
    (hint : isFloat = false → ∀ v ∈ bs.flatten, ∃ z : ℤ, v = z) (hdiff : ¬ AllEqual bs.flatten) (c2 : Col) :
    let s := updates est (newCol h0 isFloat o).1 (newCol h0 isFloat o).2 bs
    c2.histogram (newCol s.1 s.2.isFloat none).1 = none →
    ∃ h' c, merge suggest s.1 s.2 c2 lo hi = .ok (h', c) ∧ c.histogram h' = none ∧ c.median h' = none ∧ c.mode h' topK = none ∧
      (∃ qs, s.2.quantiles = some qs ∧ c.quantiles = some qs) ∧
      ∃ h'' c' d, report h' c = .ok (h'', c', d) ∧ d.body = .absent := by
  intro s h2
  have hI : (newCol h0 isFloat o).2.isFloat = false → ∀ v ∈ ([] : List ℚ) ++ bs.flatten, IsInt v := by
    intro hf v hv
    exact hint hf v (by simpa using hv)
  obtain ⟨G, S⟩ := updates_good est bs _ _ [] hI (newCol_good est h0 isFloat o)
  rw [List.nil_append] at G
  refine empty_operand est suggest s.1 s.2 s.2 c2 bs.flatten lo hi G ?_ hdiff topK (by
    unfold merge
    dsimp only
    rw [h2]
    cases s.2.histogram (newCol s.1 s.2.isFloat none).1 <;> rfl)
  rw [S.names]
  match o with
  | none => simp [newCol, binNames, defaultNames]
  | some ⟨.method m, q⟩ => simp [newCol, binNames]
  | some ⟨.methods [], q⟩ => exact absurd rfl (hsome q)
  | some ⟨.methods (m :: ms), q⟩ => simp [newCol, binNames]
  | some ⟨.count k, q⟩ => simp [newCol, binNames]

/-- C75 fails in the same way when the left operand has no histogram. -/
theorem C75_empty_left_fails (est : String → List ℚ → ℕ) (suggest : String → ℕ) (h0 : Heap) (isFloat : Bool) (o : Option Options)
    (bs : List (List ℚ)) (lo hi : Option ℚ) (topK : ℕ) (hsome : ∀ q, o ≠ some ⟨.methods [], q⟩)
    (hint : isFloat = false → ∀ v ∈ bs.flatten, ∃ z : ℤ, v = z) (hdiff : ¬ AllEqual bs.flatten) (c1 : Col) :
    let s := updates est (newCol h0 isFloat o).1 (newCol h0 isFloat o).2 bs
    c1.histogram (newCol s.1 c1.isFloat none).1 = none →
    ∃ h' c, merge suggest s.1 c1 s.2 lo hi = .ok (h', c) ∧ c.histogram h' = none ∧ c.median h' = none ∧ c.mode h' topK = none ∧
      (∃ qs, s.2.quantiles = some qs ∧ c.quantiles = some qs) ∧
      ∃ h'' c' d, report h' c = .ok (h'', c', d) ∧ d.body = .absent := by
  intro s h1
  have hI : (newCol h0 isFloat o).2.isFloat = false → ∀ v ∈ ([] : List ℚ) ++ bs.flatten, IsInt v := by
    intro hf v hv
    exact hint hf v (by simpa using hv)
  obtain ⟨G, S⟩ := updates_good est bs _ _ [] hI (newCol_good est h0 isFloat o)
  rw [List.nil_append] at G
  refine empty_operand est suggest s.1 s.2 c1 s.2 bs.flatten lo hi G ?_ hdiff topK (by
    have hd : bs.flatten ≠ [] := by
      intro h
      apply hdiff
      rw [h]
      intro x hx
      simp at hx
    obtain ⟨g, hg, -⟩ := G.quant hd
    have h2 : s.2.histogram (newCol s.1 c1.isFloat none).1 = some g := by
      have := newCol_dict s.1 c1.isFloat none s.2.stored G.hs
      unfold Col.histogram at hg ⊢
      rw [this]
      exact hg
    unfold merge
    dsimp only
    rw [h1, h2])
  rw [S.names]
  match o with
  | none => simp [newCol, binNames, defaultNames]
  | some ⟨.method m, q⟩ => simp [newCol, binNames]
  | some ⟨.methods [], q⟩ => exact absurd rfl (hsome q)
  | some ⟨.methods (m :: ms), q⟩ => simp [newCol, binNames]
  | some ⟨.count k, q⟩ => simp [newCol, binNames]

/-- C75: columns with histograms but no method in common cannot be merged. -/
theorem C75_no_method (suggest : String → ℕ) (h : Heap) (c1 c2 : Col) (g1 g2 : Hist) (lo hi : Option ℚ) (h1 : c1.histogram h = some g1)
    (h2 : c2.histogram h = some g2) (hno : ∀ m ∈ c1.names, m ∉ c2.names) : merge suggest h c1 c2 lo hi = .error .valueError := by
  have hh1 : c1.histogram (newCol h c1.isFloat none).1 = some g1 := by
    have := newCol_dict h c1.isFloat none c1.stored (stored_lt h c1 g1 h1)
    unfold Col.histogram at h1 ⊢
    rw [this]; exact h1
  have hh2 : c2.histogram (newCol h c1.isFloat none).1 = some g2 := by
    have := newCol_dict h c1.isFloat none c2.stored (stored_lt h c2 g2 h2)
    unfold Col.histogram at h2 ⊢
    rw [this]; exact h2
  unfold merge
  dsimp only
  rw [hh1, hh2]
  dsimp only [mergeBoth]
  have : (c1.names.filter fun x => c2.names.contains x) = [] := by
    rw [List.filter_eq_nil_iff]
    intro m hm
    simpa using hno m hm
  rw [this]
  rfl

/-- C75 fails when one operand of a merge has no histogram, again: the merged column and the other operand share their tables. After an update of the
merged column the operand, reported before and not touched since, reports a histogram without counts or edges. -/
theorem C75_shared_fails (est : String → List ℚ → ℕ) (suggest : String → ℕ) (h0 : Heap) (isFloat : Bool) (bs : List (List ℚ)) (batch : List ℚ)
    (lo hi : Option ℚ) (hint : isFloat = false → ∀ v ∈ bs.flatten, ∃ z : ℤ, v = z) (hd : bs.flatten ≠ [])
    (hest : ∀ m vs, vs ≠ [] → 0 < est m vs) (hdiff : ¬ AllEqual batch) (c2 : Col) :
    let s := updates est (newCol h0 isFloat none).1 (newCol h0 isFloat none).2 bs
    ∃ h1 c1 d g, report s.1 s.2 = .ok (h1, c1, d) ∧ asHist d.body = some g ∧ Describes g bs.flatten ∧
      (c2.histogram (newCol h1 s.2.isFloat none).1 = none →
        ∃ h2 c h3 c1' d', merge suggest h1 c1 c2 lo hi = .ok (h2, c) ∧ report (update est h2 c batch).1 c1 = .ok (h3, c1', d') ∧
          d'.body = .absent) := by
  intro s
  have hI : (newCol h0 isFloat none).2.isFloat = false → ∀ v ∈ ([] : List ℚ) ++ bs.flatten, IsInt v := by
    intro hf v hv
    exact hint hf v (by simpa using hv)
  obtain ⟨G, S⟩ := updates_good est bs _ _ [] hI (newCol_good est h0 isFloat none)
  rw [List.nil_append] at G
  exact shared est suggest s.1 s.2 c2 bs.flatten batch lo hi G (S.names.trans rfl) hd hest hdiff

/-- A column of two batches and one without values: the hypotheses of the last theorems hold. -/
example : ∃ (c2 : Col), ¬ AllEqual [[1], [2, 3]].flatten ∧
    c2.histogram (newCol (updates (fun _ _ => 3) (newCol ⟨[⟨.absent, none⟩], []⟩ true none).1
      (newCol ⟨[⟨.absent, none⟩], []⟩ true none).2 [[1], [2, 3]]).1 true none).1 = none := by
  refine ⟨⟨false, 0, 0, [], none, 0, none, none, 0⟩, ?_, ?_⟩
  · intro h
    have := h 1 (by simp) 2 (by simp)
    norm_num at this
  · decide +kernel

/-- Two bins asked for and three batches, one of them empty. -/
example : ((report (updates (fun _ _ => 5) (newCol ⟨[], []⟩ false (some ⟨.count 2, 4⟩)).1 (newCol ⟨[], []⟩ false (some ⟨.count 2, 4⟩)).2
      [[1, 2], [], [3]]).1
    (updates (fun _ _ => 5) (newCol ⟨[], []⟩ false (some ⟨.count 2, 4⟩)).1 (newCol ⟨[], []⟩ false (some ⟨.count 2, 4⟩)).2 [[1, 2], [], [3]]).2).toOption.map
      fun r => r.2.2.body) = some (.ints ⟨[1, 2], [1, 2, 3]⟩) := by decide +kernel

end Verif.Props.HistColumn
