import Verif.Model.HistColumn
import Verif.Spec.HistColumn
import Verif.Lemmas.PyDict
import Verif.Lemmas.HistogramStream
import Verif.Props.Histogram

/-! # Lemmas about the heap of histograms -/

namespace Verif.HistColumn

open Verif Verif.Histogram Verif.Spec.HistColumn

theorem dict_write (h : Heap) (r r' : ℕ) (b : Stored) (hr : r < h.dicts.length) :
    (h.write r b).dict r' = if r' = r then { h.dict r with body := b } else h.dict r' := by
  unfold Heap.write Heap.dict
  rw [List.getD_eq_getElem?_getD, List.getElem?_set]
  by_cases h1 : r' = r
  · subst h1; simp [hr]
  · rw [if_neg (Ne.symm h1), if_neg h1, List.getD_eq_getElem?_getD]

theorem tab_put (h : Heap) (t t' : ℕ) (m : String) (e : Entry) (ht : t < h.tables.length) :
    (h.put t m e).tab t' = if t' = t then PyDict.set (h.tab t) m e else h.tab t' := by
  unfold Heap.put Heap.tab
  rw [List.getD_eq_getElem?_getD, List.getElem?_set]
  by_cases h1 : t' = t
  · subst h1; simp [ht]
  · rw [if_neg (Ne.symm h1), if_neg h1, List.getD_eq_getElem?_getD]

theorem dict_append (h : Heap) (d : HDict) (r : ℕ) (hr : r < h.dicts.length) :
    ({ h with dicts := h.dicts ++ [d] } : Heap).dict r = h.dict r := by
  unfold Heap.dict
  simp [List.getElem?_append_left hr]

theorem dict_last (h : Heap) (d : HDict) : ({ h with dicts := h.dicts ++ [d] } : Heap).dict h.dicts.length = d := by
  unfold Heap.dict
  simp

/-- What `writeAll` does. -/
structure Wrote (t : ℕ) (sug : String → ℕ) (b : Stored) (names : List String) (h h' : Heap) : Prop where
  dlen : h'.dicts.length = h.dicts.length
  tlen : h'.tables.length = h.tables.length
  keys : PyDict.keys (h'.tab t) = PyDict.keys (h.tab t)
  entry : ∀ m e, PyDict.get? (h.tab t) m = some e →
    PyDict.get? (h'.tab t) m = some (if m ∈ names then { e with suggested := some (sug m) } else e)
  hit : ∀ r, (∃ m ∈ names, ∃ e, PyDict.get? (h.tab t) m = some e ∧ e.hist = r) → h'.dict r = { h.dict r with body := b }
  miss : ∀ r, (∀ m ∈ names, ∀ e, PyDict.get? (h.tab t) m = some e → e.hist ≠ r) → h'.dict r = h.dict r
  other : ∀ t', t' ≠ t → h'.tab t' = h.tab t'

theorem writeAll_spec (t : ℕ) (sug : String → ℕ) (b : Stored) (names : List String) (h : Heap) (ht : t < h.tables.length)
    (hn : ∀ m ∈ names, ∃ e, PyDict.get? (h.tab t) m = some e)
    (hr : ∀ m e, PyDict.get? (h.tab t) m = some e → e.hist < h.dicts.length) :
    ∃ h', writeAll t sug b names h = (h', none) ∧ Wrote t sug b names h h' := by
  induction names generalizing h with
  | nil => exact ⟨h, rfl, rfl, rfl, rfl, by simp, by simp, by simp, by simp⟩
  | cons m ms ih =>
    obtain ⟨e, he⟩ := hn m (by simp)
    have hre := hr m e he
    let e' : Entry := { e with suggested := some (sug m) }
    let h1 := (h.write e.hist b).put t m e'
    have hw : writeAll t sug b (m :: ms) h = writeAll t sug b ms h1 := by rw [writeAll, he]
    have ht1 : t < (h.write e.hist b).tables.length := ht
    have htab : ∀ t', h1.tab t' = if t' = t then PyDict.set (h.tab t) m e' else h.tab t' := fun t' => tab_put _ t t' m e' ht1
    have hdict : ∀ r', h1.dict r' = if r' = e.hist then { h.dict e.hist with body := b } else h.dict r' :=
      fun r' => dict_write h e.hist r' b hre
    have hdl : h1.dicts.length = h.dicts.length := by simp [h1, Heap.put, Heap.write]
    have htl : h1.tables.length = h.tables.length := by simp [h1, Heap.put, Heap.write]
    have hget : ∀ m', PyDict.get? (h1.tab t) m' = if m' = m then some e' else PyDict.get? (h.tab t) m' := by
      intro m'
      rw [htab t, if_pos rfl, PyDict.get?_set]
      by_cases hmm : m' = m
      · simp [hmm]
      · simp [hmm, Ne.symm hmm]
    have hsame : ∀ m' e1, PyDict.get? (h1.tab t) m' = some e1 → ∃ e0, PyDict.get? (h.tab t) m' = some e0 ∧ e0.hist = e1.hist := by
      intro m' e1 h1'
      rw [hget] at h1'
      by_cases hmm : m' = m
      · rw [if_pos hmm] at h1'
        cases h1'
        exact ⟨e, by rw [hmm]; exact he, rfl⟩
      · rw [if_neg hmm] at h1'
        exact ⟨e1, h1', rfl⟩
    have hsame' : ∀ m' e0, PyDict.get? (h.tab t) m' = some e0 → ∃ e1, PyDict.get? (h1.tab t) m' = some e1 ∧ e0.hist = e1.hist := by
      intro m' e0 h0
      rw [hget]
      by_cases hmm : m' = m
      · subst hmm
        rw [he] at h0
        cases h0
        exact ⟨e', by rw [if_pos rfl], rfl⟩
      · exact ⟨e0, by rw [if_neg hmm]; exact h0, rfl⟩
    obtain ⟨h', hh, W⟩ := ih h1 (by rw [htl]; exact ht)
      (fun m' hm' => by
        obtain ⟨e0, h0⟩ := hn m' (by simp [hm'])
        obtain ⟨e1, h1', -⟩ := hsame' m' e0 h0
        exact ⟨e1, h1'⟩)
      (fun m' e1 h1' => by
        obtain ⟨e0, h0, hh0⟩ := hsame m' e1 h1'
        rw [hdl, ← hh0]
        exact hr m' e0 h0)
    refine ⟨h', hw.trans hh, W.dlen.trans hdl, W.tlen.trans htl, ?_, ?_, ?_, ?_, ?_⟩
    · rw [W.keys, htab t, if_pos rfl, PyDict.keys_set, if_pos ((PyDict.mem_keys_iff _ _).2 ⟨e, he⟩)]
    · intro m' e0 h0
      by_cases hmm : m' = m
      · subst hmm
        rw [he] at h0
        cases h0
        rw [W.entry m' e' (by rw [hget, if_pos rfl])]
        simp [e']
      · rw [W.entry m' e0 (by rw [hget, if_neg hmm]; exact h0)]
        simp [hmm]
    · rintro r ⟨m', hm', e0, h0, hr0⟩
      by_cases hex : ∃ m1 ∈ ms, ∃ e1, PyDict.get? (h1.tab t) m1 = some e1 ∧ e1.hist = r
      · rw [W.hit r hex, hdict]
        by_cases hrr : r = e.hist
        · rw [if_pos hrr, hrr]
        · rw [if_neg hrr]
      · have hmiss : ∀ m1 ∈ ms, ∀ e1, PyDict.get? (h1.tab t) m1 = some e1 → e1.hist ≠ r := by
          intro m1 hm1 e1 h1' hcon
          exact hex ⟨m1, hm1, e1, h1', hcon⟩
        rw [W.miss r hmiss, hdict]
        rcases List.mem_cons.1 hm' with hmm | hmm
        · subst hmm
          rw [he] at h0
          cases h0
          rw [if_pos hr0.symm, hr0]
        · obtain ⟨e1, h1', hh1⟩ := hsame' m' e0 h0
          exact absurd (hh1.symm.trans hr0) (hmiss m' hmm e1 h1')
    · intro r hmiss
      have h1' : r ≠ e.hist := fun hcon => hmiss m (by simp) e he hcon.symm
      rw [W.miss r, hdict, if_neg h1']
      intro m1 hm1 e1 he1
      obtain ⟨e0, h0, hh0⟩ := hsame m1 e1 he1
      rw [← hh0]
      exact hmiss m1 (by simp [hm1]) e0 h0
    · intro t' ht'
      rw [W.other t' ht', htab, if_neg ht']

/-- The table of a new column. -/
structure Fresh (sug : Option ℕ) (names : List String) (h h' : Heap) (t' : Table) : Prop where
  dicts : ∃ k, h'.dicts = h.dicts ++ List.replicate k emptyDict
  tables : h'.tables = h.tables
  wf : PyDict.WF t'
  keys : ∀ m, m ∈ PyDict.keys t' ↔ m ∈ names
  entry : ∀ m e, PyDict.get? t' m = some e → h.dicts.length ≤ e.hist ∧ e.hist < h'.dicts.length ∧ e.suggested = sug ∧ e.total = 0

theorem newTable_spec (sug : Option ℕ) (names : List String) (h : Heap) :
    Fresh sug names h (newTable sug names h []).1 (newTable sug names h []).2 := by
  have key : ∀ (names : List String) (h1 : Heap) (t : Table), PyDict.WF t →
      (∀ m e, PyDict.get? t m = some e → h.dicts.length ≤ e.hist ∧ e.hist < h1.dicts.length ∧ e.suggested = sug ∧ e.total = 0) →
      h.dicts.length ≤ h1.dicts.length →
      (∃ k, (newTable sug names h1 t).1.dicts = h1.dicts ++ List.replicate k emptyDict) ∧ (newTable sug names h1 t).1.tables = h1.tables ∧
      PyDict.WF (newTable sug names h1 t).2 ∧
      (∀ m, m ∈ PyDict.keys (newTable sug names h1 t).2 ↔ m ∈ PyDict.keys t ∨ m ∈ names) ∧
      ∀ m e, PyDict.get? (newTable sug names h1 t).2 m = some e →
        h.dicts.length ≤ e.hist ∧ e.hist < (newTable sug names h1 t).1.dicts.length ∧ e.suggested = sug ∧ e.total = 0 := by
    intro names
    induction names with
    | nil => intro h1 t hw he hl; exact ⟨⟨0, by simp [newTable]⟩, rfl, hw, by simp [newTable], he⟩
    | cons m ms ih =>
      intro h1 t hw he hl
      rw [newTable]
      obtain ⟨⟨k, a1⟩, a2, a3, a4, a5⟩ := ih { h1 with dicts := h1.dicts ++ [emptyDict] } (PyDict.set t m ⟨h1.dicts.length, sug, 0⟩)
        (PyDict.WF_set hw _ _)
        (by
          intro m' e' hg
          rw [PyDict.get?_set] at hg
          split_ifs at hg with hc
          · cases hg
            simp [hl]
          · obtain ⟨b1, b2, b3⟩ := he m' e' hg
            exact ⟨b1, by simp; omega, b3⟩)
        (by simp; omega)
      refine ⟨⟨k + 1, ?_⟩, a2, a3, ?_, a5⟩
      · rw [a1, List.replicate_succ]
        simp
      · intro m'
        rw [a4, PyDict.mem_keys_iff, PyDict.mem_keys_iff, List.mem_cons]
        constructor
        · rintro (⟨v, hv⟩ | hm)
          · rw [PyDict.get?_set] at hv
            split_ifs at hv with hc
            · exact .inr (.inl (by first | exact hc | exact hc.symm))
            · exact .inl ⟨v, hv⟩
          · exact .inr (.inr hm)
        · rintro (⟨v, hv⟩ | rfl | hm)
          · left
            rw [PyDict.get?_set]
            split_ifs
            · exact ⟨_, rfl⟩
            · exact ⟨v, hv⟩
          · left
            rw [PyDict.get?_set]
            exact ⟨_, by rw [if_pos rfl]⟩
          · exact .inr hm
  obtain ⟨a1, a2, a3, a4, a5⟩ := key names h [] PyDict.WF_nil (by simp) (le_refl _)
  exact ⟨a1, a2, a3, by simpa [PyDict.keys] using a4, a5⟩

/-- What the loop over the methods needs and gives. -/
theorem bestLoop_spec (c : Col) (P : String → HDict → Prop) (h0 : Heap) (ht : c.table < h0.tables.length)
    (hwf : PyDict.WF (h0.tab c.table))
    (hstep : ∀ h m e, h0.dicts.length ≤ h.dicts.length → (∀ r < h0.dicts.length, h.dict r = h0.dict r) →
      PyDict.get? (h0.tab c.table) m = some e →
      ∃ h' r loss, histogramFor h c e = .ok (h', r, loss) ∧ h'.tables = h.tables ∧ h.dicts.length ≤ h'.dicts.length ∧
        (∀ r' < h.dicts.length, h'.dict r' = h.dict r') ∧ r < h'.dicts.length ∧ P m (h'.dict r))
    (hne : h0.tab c.table ≠ []) :
    ∃ h' m e, bestLoop c (PyDict.keys (h0.tab c.table)) h0 none none = .ok (h', some m) ∧
      PyDict.get? (h'.tab c.table) m = some e ∧ P m (h'.dict e.hist) ∧ m ∈ PyDict.keys (h0.tab c.table) := by
  have key : ∀ (ms : List String) (h : Heap) (best : Option ℚ) (sel : Option String), ms.Nodup → (∀ m ∈ ms, m ∈ PyDict.keys (h0.tab c.table)) →
      h.tables.length = h0.tables.length → h0.dicts.length ≤ h.dicts.length → (∀ r < h0.dicts.length, h.dict r = h0.dict r) →
      (∀ m ∈ ms, PyDict.get? (h.tab c.table) m = PyDict.get? (h0.tab c.table) m) →
      (sel = none → best = none) →
      (∀ m, sel = some m → m ∉ ms ∧ m ∈ PyDict.keys (h0.tab c.table) ∧
        ∃ e, PyDict.get? (h.tab c.table) m = some e ∧ e.hist < h.dicts.length ∧ P m (h.dict e.hist)) →
      (ms ≠ [] ∨ sel ≠ none) →
      ∃ h' m e, bestLoop c ms h best sel = .ok (h', some m) ∧ PyDict.get? (h'.tab c.table) m = some e ∧ P m (h'.dict e.hist) ∧
        m ∈ PyDict.keys (h0.tab c.table) := by
    intro ms
    induction ms with
    | nil =>
      intro h best sel _ _ _ _ _ _ _ hsel hor
      cases sel with
      | none => simp at hor
      | some m =>
        obtain ⟨-, hk, e, he, -, hp⟩ := hsel m rfl
        exact ⟨h, m, e, rfl, he, hp, hk⟩
    | cons m ms ih =>
      intro h best sel hnd hin htl hdl hold hent hbest hsel _
      obtain ⟨hm1, hnd'⟩ := List.nodup_cons.1 hnd
      obtain ⟨e, he⟩ := (PyDict.mem_keys_iff _ _).1 (hin m (by simp))
      obtain ⟨h', r, loss, hf, htab, hl, hsame, hr, hp⟩ := hstep h m e hdl hold he
      have heh : PyDict.get? (h.tab c.table) m = some e := (hent m (by simp)).trans he
      let e' : Entry := { e with hist := r, total := e.total + loss }
      let h2 := h'.put c.table m e'
      have hb : bestLoop c (m :: ms) h best sel =
          if better best loss then bestLoop c ms h2 (some loss) (some m) else bestLoop c ms h2 best sel := by
        rw [bestLoop, heh]
        dsimp only
        rw [hf]
      have ht' : c.table < h'.tables.length := by rw [htab, htl]; exact ht
      have htab2 : h2.tab c.table = PyDict.set (h.tab c.table) m e' := by
        have := tab_put h' c.table c.table m e' ht'
        rw [if_pos rfl] at this
        rw [this]
        unfold Heap.tab
        rw [htab]
      have hget2 : ∀ m', PyDict.get? (h2.tab c.table) m' = if m' = m then some e' else PyDict.get? (h.tab c.table) m' := by
        intro m'
        rw [htab2, PyDict.get?_set]
        by_cases hmm : m' = m
        · simp [hmm]
        · simp [hmm, Ne.symm hmm]
      have hd2 : ∀ r', h2.dict r' = h'.dict r' := fun r' => rfl
      have hdl2 : h2.dicts.length = h'.dicts.length := rfl
      have htl2 : h2.tables.length = h0.tables.length := by simp [h2, Heap.put, htab, htl]
      have hold2 : ∀ r < h0.dicts.length, h2.dict r = h0.dict r := fun r hr => by
        rw [hd2, hsame r (by omega), hold r hr]
      have hent2 : ∀ m' ∈ ms, PyDict.get? (h2.tab c.table) m' = PyDict.get? (h0.tab c.table) m' := by
        intro m' hm'
        rw [hget2, if_neg (fun hc : m' = m => hm1 (hc ▸ hm'))]
        exact hent m' (by simp [hm'])
      rw [hb]
      by_cases hbt : better best loss = true
      · rw [if_pos hbt]
        refine ih h2 _ _ hnd' (fun m' hm' => hin m' (by simp [hm'])) htl2 (by rw [hdl2]; omega) hold2 hent2 (by simp) ?_ (by simp)
        intro m' hm'
        cases hm'
        exact ⟨hm1, hin m (by simp), e', by rw [hget2, if_pos rfl], hr, hp⟩
      · rw [if_neg hbt]
        have hsne : sel ≠ none := by
          intro h0'
          rw [hbest h0'] at hbt
          exact hbt rfl
        refine ih h2 _ _ hnd' (fun m' hm' => hin m' (by simp [hm'])) htl2 (by rw [hdl2]; omega) hold2 hent2 hbest ?_ (.inr hsne)
        intro m' hm'
        obtain ⟨a1, a2, e1, a3, a4, a5⟩ := hsel m' hm'
        have hne' : m' ≠ m := fun hc => a1 (by simp [hc])
        refine ⟨fun hc => a1 (by simp [hc]), a2, e1, by rw [hget2, if_neg hne']; exact a3, by rw [hdl2]; omega, ?_⟩
        rw [hd2, hsame e1.hist a4]
        exact a5
  refine key _ h0 none none hwf (fun m hm => hm) rfl (le_refl _) (fun _ _ => rfl) (fun _ _ => rfl) (fun _ => rfl) (by simp) ?_
  left
  intro hc
  apply hne
  unfold PyDict.keys at hc
  exact List.map_eq_nil_iff.1 hc

theorem report_spec (c : Col) (P : String → HDict → Prop) (h0 : Heap) (hs : c.selection = none) (ht : c.table < h0.tables.length)
    (hwf : PyDict.WF (h0.tab c.table))
    (hstep : ∀ h m e, h0.dicts.length ≤ h.dicts.length → (∀ r < h0.dicts.length, h.dict r = h0.dict r) →
      PyDict.get? (h0.tab c.table) m = some e →
      ∃ h' r loss, histogramFor h c e = .ok (h', r, loss) ∧ h'.tables = h.tables ∧ h.dicts.length ≤ h'.dicts.length ∧
        (∀ r' < h.dicts.length, h'.dict r' = h.dict r') ∧ r < h'.dicts.length ∧ P m (h'.dict r))
    (hne : h0.tab c.table ≠ []) :
    ∃ h' m d, report h0 c = .ok (h', { c with selection := some m }, d) ∧ P m d ∧ m ∈ PyDict.keys (h0.tab c.table) := by
  obtain ⟨h', m, e, a1, a2, a3, a4⟩ := bestLoop_spec c P h0 ht hwf hstep hne
  refine ⟨h', m, h'.dict e.hist, ?_, a3, a4⟩
  unfold report
  rw [hs]
  dsimp only
  rw [a1]
  dsimp only
  rw [a2]

end Verif.HistColumn
