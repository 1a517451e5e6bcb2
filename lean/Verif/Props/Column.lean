import Verif.Lemmas.Column

/-!
# C97: the parts of a column profile describe the same cells

Whatever a user does with a column, the null statistics, the numeric statistics, the categories and the data type are
about one and the same list of cells.
-/

namespace Verif.Props.Column

open Verif Verif.Column Verif.Spec.Column

variable {w : World}

theorem noZero {parse : String → Option ℝ} {h : Numeric.History} (h0 : (0 : ℝ) ∉ h.values parse) :
    h.NoZeroMin parse ∧ h.NoZeroMax parse := by
  induction h with
  | new => exact ⟨trivial, trivial⟩
  | update h b ih =>
    have hs : (0 : ℝ) ∉ h.values parse := by
      intro hm
      apply h0
      simp only [Numeric.History.values, Numeric.History.cells, Numeric.History.batches, List.flatten_append,
        List.filterMap_append, List.mem_append] at hm ⊢
      exact .inl hm
    exact ⟨⟨fun m => hs m.1, (ih hs).1⟩, ⟨fun m => hs m.1, (ih hs).2⟩⟩
  | add h1 h2 i1 i2 =>
    simp only [Numeric.History.values, Numeric.History.cells, Numeric.History.batches, List.flatten_append,
      List.filterMap_append, List.mem_append, not_or] at h0
    exact ⟨⟨(i1 h0.1).1, (i2 h0.2).1⟩, ⟨(i1 h0.1).2, (i2 h0.2).2⟩⟩

/-- The numbers of one kind, from a history of a numeric profile. -/
theorem describes_hist {h : History} {k : Kind} {xs : List String} {s : Numeric.State} {hn : Numeric.History}
    (n1 : hn.run (w.parse k) = .ok s) (n2 : hn.Valid) (n3 : hn.cells.Perm xs) (n4 : ∀ f, hn.on f ↔ On k f h)
    (n5 : hn.biasOn ↔ Corrected k h) : s.sampleSize = xs.length ∧ Describes h k (numbers w.number k xs) s := by
  have hv : (hn.values (w.parse k)).Perm (numbers w.number k xs) := by
    rw [← numbers_eq]; exact n3.filterMap _
  obtain ⟨s, a1, a2, a3, a4, a5, a6⟩ := Numeric.C01_totals (w.parse k) hn n2
  obtain ⟨s', b1, b2, b3, b4, b5⟩ := Numeric.C05_min_max_sound (w.parse k) hn n2
  obtain ⟨s'', d1, d2, d3⟩ := Numeric.C05_min_max_partial (w.parse k) hn n2
  rw [n1] at a1 b1 d1
  cases a1; cases b1; cases d1
  have hnil : hn.values (w.parse k) = [] ↔ numbers w.number k xs = [] := by
    rw [← List.length_eq_zero_iff, hv.length_eq, List.length_eq_zero_iff]
  refine ⟨a2.trans n3.length_eq, ⟨a3.trans hv.length_eq, fun o => ?_, fun o => ?_, fun o => ?_, fun o hne hc => ?_,
    fun o hne hc => ?_, fun o => ⟨fun m hm => hv.mem_iff.1 (b2 m hm), (b4 ((n4 _).2 o)).trans hnil⟩,
    fun o => ⟨fun m hm => hv.mem_iff.1 (b3 m hm), (b5 ((n4 _).2 o)).trans hnil⟩, fun o h0 m hm x hx => ?_,
    fun o h0 m hm x hx => ?_⟩⟩
  · have := a4 ((n4 _).2 o)
    exact ⟨this.1.trans hv.sum_eq, this.2.trans (Moments.mean_perm hv)⟩
  · exact (a5 ((n4 _).2 o)).trans (hv.count_eq _)
  · exact (a6 ((n4 _).2 o)).trans (hv.filter _).length_eq
  · obtain ⟨s, c1, _, c3, _⟩ := Numeric.C02_variance (w.parse k) hn n2 ((n4 _).2 o)
    rw [n1] at c1
    cases c1
    have := c3 (fun e => hne (hnil.1 e)) (fun e => hc (n5.1 e))
    rw [Moments.variance_perm hv, Spec.stddev, Moments.variance_perm hv] at this
    exact this
  · obtain ⟨s, c1, _, _, _, c5⟩ := Numeric.C02_variance (w.parse k) hn n2 ((n4 _).2 o)
    rw [n1] at c1
    cases c1
    have := c5 (by rw [hv.length_eq]; exact hne) (n5.2 hc)
    have e : Spec.sampleVariance (hn.values (w.parse k)) = Spec.sampleVariance (numbers w.number k xs) := by
      unfold Spec.sampleVariance
      rw [Moments.mean_perm hv, hv.length_eq, (hv.map _).sum_eq]
    rw [e] at this
    exact this
  · rcases d2 ((n4 _).2 o) (noZero fun z => h0 (hv.mem_iff.1 z)).1 with ⟨_, e⟩ | ⟨m', e, hm'⟩
    · rw [hm] at e; cases e
    · rw [hm] at e; cases e
      exact hm'.2 x (hv.mem_iff.2 hx)
  · rcases d3 ((n4 _).2 o) (noZero fun z => h0 (hv.mem_iff.1 z)).2 with ⟨_, e⟩ | ⟨m', e, hm'⟩
    · rw [hm] at e; cases e
    · rw [hm] at e; cases e
      exact hm'.2 x (hv.mem_iff.2 hx)

/-- The numbers of one kind. -/
theorem describes_of {h : History} {k : Kind} {cs : List String} {p : Profs} (hp : Parts w h cs p) :
    (p.num k).sampleSize = (cs.filter fun x => !w.isNull x).length ∧
      Describes h k (numbers w.number k (cs.filter fun x => !w.isNull x)) (p.num k) := by
  obtain ⟨hn, n1, n2, n3, n4, n5⟩ := hp.num k
  exact describes_hist n1 n2 n3 n4 n5

/-- The categories, from a history of a categorical profile. -/
theorem counts_hist {xs : List String} {hc : Categorical.History String} (c2 : (CatSpec.seen hc).Perm xs)
    (hst : (Categorical.run hc).stopped = false) : Counts xs (Categorical.run hc) := by
  have := Categorical.C12_counts_exact hc hst
  refine ⟨this.1, fun x n => ?_, this.2.2.1.trans c2.length_eq, this.2.2.2.1.trans c2.length_eq⟩
  rw [this.2.1, c2.count_eq]

theorem counts_of {h : History} {cs : List String} {p : Profs} (hp : Parts w h cs p) (hst : p.cats.stopped = false) :
    Counts (cs.filter fun x => !w.isNull x) p.cats := by
  obtain ⟨hc, c1, c2, _⟩ := hp.cats
  rw [← c1] at hst ⊢
  exact counts_hist c2 hst

/-- **C97** Every sensible history of updates and merges succeeds.  There is one list of cells, those looked at, that
the whole profile is about: its length is the sample size, its null cells are the null count, and numeric statistics and
category counts are those of its other cells. -/
theorem C97_describes (hset : ∀ l, (w.setOrder l).Perm l) (h : History)
    (hs : Sensible h) (hf : Fed h) :
    ∃ s p cs, run w h = .ok s ∧ s.profs = some p ∧ Looked w.isNull h cs ∧
      s.base.sampleSize = cs.length ∧ s.base.nullCount = cs.countP w.isNull ∧
      (∀ k, (p.num k).sampleSize = (cs.filter fun x => !w.isNull x).length ∧
        Describes h k (numbers w.number k (cs.filter fun x => !w.isNull x)) (p.num k)) ∧
      (p.cats.stopped = false → Counts (cs.filter fun x => !w.isNull x) p.cats) ∧
      (NeverStops h → p.cats.stopped = false) := by
  obtain ⟨s, cs, r1, r2, r3, r4, r5, r6⟩ := run_parts w hset h hs
  obtain ⟨p, hp⟩ := Option.isSome_iff_exists.1 (r5.2 hf)
  rw [hp] at r6
  obtain ⟨s', cs', u1, u2, u3, _⟩ := Nulls.C17_history (isNull := w.isNull) hset (nullsOf h) (sensible_nullsOf hs)
  rw [r4] at u1
  cases u1
  obtain rfl := sampled_unique u2 r2
  refine ⟨s, p, _, r1, hp, r3, by rw [u3.sampleSize, List.length_map], ?_, fun k => describes_of r6, counts_of r6, ?_⟩
  · rw [u3.nullCount, NullsSpec.nullCells, ← List.countP_eq_length_filter, List.countP_map]
    rfl
  · intro hn
    obtain ⟨hc, c1, _, c3⟩ := r6.cats
    have := Categorical.C13_never_without_options hc (c3 hn)
    rw [c1] at this
    exact this

/-- **C97** The counts of a profile add up: nulls and values are all the cells of the sample, for every kind of numeric
profile and for the categories, whatever the sampling. -/
theorem C97_adds_up (hset : ∀ l, (w.setOrder l).Perm l) (h : History)
    (hs : Sensible h) (hf : Fed h) :
    ∃ s p, run w h = .ok s ∧ s.profs = some p ∧
      (∀ k, s.base.nullCount + (p.num k).sampleSize = s.base.sampleSize ∧ (p.num k).matchCount ≤ (p.num k).sampleSize) ∧
      (p.num .int).matchCount ≤ (p.num .float).matchCount ∧ (p.num .text).matchCount = (p.num .text).sampleSize ∧
      (p.cats.stopped = false → s.base.nullCount + (p.cats.cats.map Prod.snd).sum = s.base.sampleSize) := by
  obtain ⟨s, p, cs, h1, h2, _, h4, h5, h6, h7, _⟩ := C97_describes hset h hs hf
  have hlen : cs.countP w.isNull + (cs.filter fun x => !w.isNull x).length = cs.length := by
    rw [← List.countP_eq_length_filter]
    have := List.length_eq_countP_add_countP (fun x => w.isNull x) (l := cs)
    have e : List.countP (fun x => decide ¬ w.isNull x = true) cs = List.countP (fun x => !w.isNull x) cs := by
      apply List.countP_congr
      intro x _
      simp
    rw [e] at this
    exact this.symm
  refine ⟨s, p, h1, h2, fun k => ⟨by rw [h5, h4, (h6 k).1]; exact hlen, ?_⟩, ?_, ?_, fun hst => ?_⟩
  · rw [(h6 k).2.matched, (h6 k).1]
    exact List.length_filterMap_le _ _
  · rw [(h6 .int).2.matched, (h6 .float).2.matched]
    generalize (cs.filter fun x => !w.isNull x) = xs
    induction xs with
    | nil => simp [numbers]
    | cons x xs ih =>
      simp only [numbers, List.filterMap_cons] at ih ⊢
      cases hx : w.number x with
      | none => simpa using ih
      | some q =>
        simp only [Option.bind_some, Option.map_some, List.length_cons]
        split_ifs
        · exact Nat.succ_le_succ ih
        · exact Nat.le_succ_of_le ih
  · rw [(h6 .text).2.matched, (h6 .text).1]
    simp [numbers]
  · rw [(h7 hst).total, h5, h4]
    exact hlen

/-- **C97** When every batch is looked at completely, the cells are all those given, in whatever order. -/
theorem C97_whole (h : History) (hs : Sensible h) (hw : Whole h) {cs : List String} (hl : Looked w.isNull h cs) :
    cs.Perm (texts h) := by
  induction hl with
  | new => exact .refl _
  | @update h cs b k hl ht ih =>
    refine (ih hs.1 hw.1).append (List.Perm.map _ ?_)
    have hid : ∀ l : List ℤ, (id l).Perm l := fun l => .refl _
    obtain ⟨k', vals, base, t1, t2, t3, _⟩ := Nulls.C17_partition (isNull := w.isNull) hid hs.2.1
    obtain ⟨vals', base', g1, g2, _⟩ := Nulls.C17_whole_column (isNull := w.isNull) hid hs.2.1 hw.2.1 hw.2.2
    rw [t2] at g1
    cases g1
    obtain rfl := Nulls.C17_taken_unique t1 ht
    have hn : (NullsSpec.firstRows b.toBatch k').Nodup := (Nulls.firstRows_nodup hs.2.1 k').of_map _
    have hsub : NullsSpec.firstRows b.toBatch k' ⊆ b.col := fun c hc => Nulls.cellsAt_subset hc
    exact (hn.subperm hsub).perm_of_length_le (by rw [← t3, g2])
  | merge _ _ i1 i2 => exact (i1 hs.1 hw.1).append (i2 hs.2.1 hw.2)

/-- **C97** Neither the order of the rows, nor how they were cut into batches and merged, nor the random draws matter
when everything is looked at: two such profiles of the same cells agree. -/
theorem C97_same (hset : ∀ l, (w.setOrder l).Perm l) (g h : History)
    (hg : Sensible g) (hh : Sensible h) (fg : Fed g) (fh : Fed h) (wg : Whole g) (wh : Whole h)
    (same : (texts g).Perm (texts h)) :
    ∃ s t p q, run w g = .ok s ∧ run w h = .ok t ∧ s.profs = some p ∧ t.profs = some q ∧
      s.base.sampleSize = t.base.sampleSize ∧ s.base.nullCount = t.base.nullCount ∧
      (∀ k, (p.num k).sampleSize = (q.num k).sampleSize ∧ (p.num k).matchCount = (q.num k).matchCount ∧
        (On k Numeric.Calcs.sum g → On k Numeric.Calcs.sum h →
          (p.num k).sum = (q.num k).sum ∧ (p.num k).mean = (q.num k).mean) ∧
        (On k Numeric.Calcs.variance g → On k Numeric.Calcs.variance h → (Corrected k g ↔ Corrected k h) →
          (p.num k).variance = (q.num k).variance ∧ (p.num k).stddev = (q.num k).stddev) ∧
        (On k Numeric.Calcs.numZeros g → On k Numeric.Calcs.numZeros h → (p.num k).numZeros = (q.num k).numZeros) ∧
        (On k Numeric.Calcs.numNegatives g → On k Numeric.Calcs.numNegatives h →
          (p.num k).numNegatives = (q.num k).numNegatives)) ∧
      (p.cats.stopped = false → q.cats.stopped = false →
        ∀ x, PyDict.get? p.cats.cats x = PyDict.get? q.cats.cats x) ∧
      (w.enabled .datetime = false → ColumnTypes.selected p.types = ColumnTypes.selected q.types) := by
  obtain ⟨s, cs, r1, r2, r3, r4, r5, r6⟩ := run_parts w hset g hg
  obtain ⟨t, ds, s1, s2, s3, s4, s5, s6⟩ := run_parts w hset h hh
  obtain ⟨p, hp⟩ := Option.isSome_iff_exists.1 (r5.2 fg)
  obtain ⟨q, hq⟩ := Option.isSome_iff_exists.1 (s5.2 fh)
  rw [hp] at r6
  rw [hq] at s6
  have hcd : (cs.map Prod.snd).Perm (ds.map Prod.snd) :=
    ((C97_whole g hg wg r3).trans same).trans (C97_whole h hh wh s3).symm
  obtain ⟨_, _, _, u1, _, ul, u4, u5, _⟩ := C97_describes hset g hg fg
  obtain ⟨_, _, _, v1, _, vl, v4, v5, _⟩ := C97_describes hset h hh fh
  rw [r1] at u1; rw [s1] at v1
  cases u1; cases v1
  have huv := ((C97_whole g hg wg ul).trans same).trans (C97_whole h hh wh vl).symm
  have hf := hcd.filter fun x => !w.isNull x
  refine ⟨s, t, p, q, r1, s1, hp, hq, by rw [u4, v4, huv.length_eq], by rw [u5, v5, huv.countP_eq], fun k => ?_, ?_, ?_⟩
  · obtain ⟨hn, n1, n2, n3, n4, n5⟩ := r6.num k
    obtain ⟨hm, m1, m2, m3, m4, m5⟩ := s6.num k
    have hcells := (n3.trans hf).trans m3.symm
    have hval : (hn.values (w.parse k)).Perm (hm.values (w.parse k)) := hcells.filterMap _
    have dg := (describes_of (k := k) r6).2
    have dh := (describes_of (k := k) s6).2
    have hxy : (numbers w.number k ((cs.map Prod.snd).filter fun x => !w.isNull x)).Perm
        (numbers w.number k ((ds.map Prod.snd).filter fun x => !w.isNull x)) := hf.filterMap _
    refine ⟨?_, ?_, fun o1 o2 => ?_, fun o1 o2 hb => ?_, fun o1 o2 => ?_, fun o1 o2 => ?_⟩
    · rw [Option.getD_some] at dg dh
      have a := (describes_of (k := k) r6).1
      have b := (describes_of (k := k) s6).1
      rw [Option.getD_some] at a b
      rw [a, b, hf.length_eq]
    · have a := dg.matched
      have b := dh.matched
      rw [Option.getD_some] at a b
      rw [a, b, hxy.length_eq]
    · have a := dg.sum o1
      have b := dh.sum o2
      rw [Option.getD_some] at a b
      exact ⟨by rw [a.1, b.1, hxy.sum_eq], by rw [a.2, b.2, Moments.mean_perm hxy]⟩
    · obtain ⟨x, y, e1, e2, _, _, _, e4, _⟩ := Numeric.C06_order_irrelevant (w.parse k) hn hm n2 m2 hcells
        (n5.trans (hb.trans m5.symm))
      rw [n1] at e1
      rw [m1] at e2
      cases e1; cases e2
      exact e4 ((n4 _).2 o1) ((m4 _).2 o2)
    · have a := dg.zeros o1
      have b := dh.zeros o2
      rw [Option.getD_some] at a b
      rw [a, b, hxy.count_eq]
    · have a := dg.negatives o1
      have b := dh.negatives o2
      rw [Option.getD_some] at a b
      rw [a, b, (hxy.filter _).length_eq]
  · intro c1 c2 x
    obtain ⟨hc, a1, a2, _⟩ := r6.cats
    obtain ⟨hd, b1, b2, _⟩ := s6.cats
    rw [Option.getD_some] at a1 b1
    have := (Categorical.C12_batch_independent hc hd (by rw [a1]; exact c1) (by rw [b1]; exact c2)
      ((a2.trans hf).trans b2.symm)).1 x
    rw [a1, b1] at this
    exact this
  · intro hdt
    obtain ⟨hc, a1, a2, a3, _⟩ := r6.types
    obtain ⟨hd, b1, b2, b3, _⟩ := s6.types
    rw [Option.getD_some] at a1 b1
    have hvals := (a3.trans hf).trans b3.symm
    exact selected_same w hdt a2 b2 a1 b1 hvals

theorem length_filterMap_all {α β : Type} (f : α → Option β) (l : List α) (h : ∀ x ∈ l, (f x).isSome = true) :
    (l.filterMap f).length = l.length := by
  induction l with
  | nil => rfl
  | cons x xs ih =>
    obtain ⟨y, hy⟩ := Option.isSome_iff_exists.1 (h x (by simp))
    rw [List.filterMap_cons, hy]
    simp [ih fun z hz => h z (by simp [hz])]

/-- **C97** The type shown for a column is that of all its values, and then the numeric statistics of that type leave out
nothing but the nulls. -/
theorem C97_type (hset : ∀ l, (w.setOrder l).Perm l) (h : History)
    (hs : Sensible h) (hf : Fed h) :
    ∃ s p cs, run w h = .ok s ∧ s.profs = some p ∧ Looked w.isNull h cs ∧
      (∀ t, ColumnTypes.selected p.types = some t → w.enabled t = true ∧
        AllOf w.number (cs.filter fun x => !w.isNull x) t) ∧
      (∀ k, ColumnTypes.selected p.types = some (typeOf k) →
        s.base.nullCount + (p.num k).matchCount = s.base.sampleSize) ∧
      (w.enabled .datetime = false → w.enabled .text = true → (∃ x ∈ cs, w.isNull x = false) →
        (ColumnTypes.selected p.types = some .int ↔
          w.enabled .int = true ∧ AllOf w.number (cs.filter fun x => !w.isNull x) .int) ∧
        (ColumnTypes.selected p.types = some .text ↔
          ∀ t ∈ [ColumnTypes.Ty.int, .float], w.enabled t = true → ¬ AllOf w.number (cs.filter fun x => !w.isNull x) t)) ∧
      ((∀ x ∈ cs, w.isNull x = true) → ColumnTypes.selected p.types = none) := by
  obtain ⟨s, cs, r1, r2, r3, r4, r5, r6⟩ := run_parts w hset h hs
  obtain ⟨p, hp⟩ := Option.isSome_iff_exists.1 (r5.2 hf)
  rw [hp] at r6
  rw [Option.getD_some] at r6
  obtain ⟨s', p', h1, h2, h3, _⟩ := C97_adds_up hset h hs hf
  rw [r1] at h1
  cases h1
  rw [hp] at h2
  cases h2
  obtain ⟨ht, t1, t2, t3, _⟩ := r6.types
  generalize hcs : (cs.map Prod.snd).filter (fun x => !w.isNull x) = vs at *
  have hmem : ∀ x, x ∈ ColumnTypesSpec.values ht ↔ x ∈ vs := fun x => t3.mem_iff
  have hint : ColumnTypesSpec.AllAre w.toFloat ht .int ↔ AllOf w.number vs .int := by
    simp only [ColumnTypesSpec.AllAre, AllOf, ColumnTypesSpec.IsWhole, World.toFloat, hmem]
    refine forall_congr' fun x => forall_congr' fun _ => exists_congr fun z => ?_
    cases w.number x <;> simp
  have hflt : ColumnTypesSpec.AllAre w.toFloat ht .float ↔ AllOf w.number vs .float := by
    simp only [ColumnTypesSpec.AllAre, AllOf, ColumnTypesSpec.IsNumber, World.toFloat, hmem]
    refine forall_congr' fun x => forall_congr' fun _ => ?_
    cases w.number x <;> simp
  have hwf : AllOf w.number vs .int → AllOf w.number vs .float := fun hi x hx =>
    let ⟨z, hz⟩ := hi x hx
    ⟨z, hz⟩
  have hsel : vs ≠ [] → ∀ t, ColumnTypes.selected p.types = some t ↔
      ColumnTypesSpec.IsFirst w.toFloat w.enabled ht t := by
    intro hne
    obtain ⟨c, e1, e2⟩ := ColumnTypes.C30_selected w.toFloat w.enabled ht t2 (fun e => hne (by
      rw [e] at t3; exact t3.nil_eq.symm))
    rw [t1] at e1
    cases e1
    exact e2
  have hnone : vs = [] → ColumnTypes.selected p.types = none := by
    intro hne
    obtain ⟨c, e1, e2⟩ := ColumnTypes.C30_unseen w.toFloat w.enabled ht t2 (by rw [hne] at t3; exact t3.eq_nil)
    rw [t1] at e1
    cases e1
    exact e2
  have hall : ∀ t, ColumnTypes.selected p.types = some t → w.enabled t = true ∧ AllOf w.number vs t := by
    intro t hst
    by_cases hne : vs = []
    · rw [hnone hne] at hst; cases hst
    · have := (hsel hne t).1 hst
      refine ⟨this.1, ?_⟩
      cases t with
      | datetime => trivial
      | int => exact hint.1 this.2.1
      | float => exact hflt.1 this.2.1
      | text => trivial
  have hfull : ∀ k, ColumnTypes.selected p.types =
      some (typeOf k) →
      (p.num k).matchCount = (p.num k).sampleSize := by
    intro k hst
    have a := hall _ hst
    have d := describes_of (k := k) r6
    rw [hcs] at d
    rw [d.2.matched, d.1]
    unfold numbers
    apply length_filterMap_all
    intro x hx
    cases k with
    | int =>
      obtain ⟨z, hz⟩ := a.2 x hx
      simp [hz]
    | float =>
      obtain ⟨z, hz⟩ := a.2 x hx
      simp [hz]
    | text => rfl
  refine ⟨s, p, _, r1, hp, r3, ?_, ?_, ?_, ?_⟩
  · rw [hcs]; exact hall
  · intro k hst
    rw [hfull k hst]
    exact (h3 k).1
  · rw [hcs]
    rintro hdt htx ⟨x, hx, hxn⟩
    have hne : vs ≠ [] := by
      rintro rfl
      rw [List.filter_eq_nil_iff] at hcs
      exact hcs x hx (by simp [hxn])
    constructor
    · rw [hsel hne, ← hint]
      refine ⟨fun a => ⟨a.1, a.2.1⟩, fun a => ⟨a.1, a.2, fun t' hr he => ?_⟩⟩
      cases t' with
      | datetime => rw [hdt] at he; cases he
      | int => exact absurd hr (by decide)
      | float => exact absurd hr (by decide)
      | text => exact absurd hr (by decide)
    · rw [hsel hne]
      constructor
      · intro a t hm he
        simp only [List.mem_cons, List.not_mem_nil, or_false] at hm
        rcases hm with rfl | rfl
        · rw [← hint]; exact a.2.2 _ (by decide) he
        · rw [← hflt]; exact a.2.2 _ (by decide) he
      · intro a
        refine ⟨htx, trivial, fun t' hr he => ?_⟩
        cases t' with
        | datetime => rw [hdt] at he; cases he
        | int => rw [hint]; exact a _ (by simp) he
        | float => rw [hflt]; exact a _ (by simp) he
        | text => exact absurd hr (by decide)
  · intro ha
    apply hnone
    rw [← hcs, List.filter_eq_nil_iff]
    intro x hx
    simp [ha x hx]

/-- **C97** The vocabulary has every character of the values, once, and no other, whatever the updates and merges. -/
theorem C97_vocab (hset : ∀ l, (w.setOrder l).Perm l) (hchar : ∀ l, (w.charOrder l).Perm l) (h : History) (hs : Sensible h)
    (hf : Fed h) :
    ∃ s p cs, run w h = .ok s ∧ s.profs = some p ∧ Looked w.isNull h cs ∧ p.vocab.Nodup ∧
      ∀ c, c ∈ p.vocab ↔ ∃ x ∈ cs, w.isNull x = false ∧ c ∈ x.toList := by
  obtain ⟨s, cs, r1, _, r3, _, r5, r6⟩ := run_parts w hset h hs
  obtain ⟨p, hp⟩ := Option.isSome_iff_exists.1 (r5.2 hf)
  rw [hp, Option.getD_some] at r6
  obtain ⟨hv, v1, v2⟩ := r6.vocab
  obtain ⟨a, b⟩ := Vocab.C35_vocab w.charOrder hchar hv
  rw [v1] at a b
  refine ⟨s, p, _, r1, hp, r3, a, fun c => ?_⟩
  rw [b]
  refine exists_congr fun x => ?_
  rw [v2.mem_iff, List.mem_filter]
  simp [and_assoc]

/-- **C97** The statistics of dates are about the same values: those counted can be read as dates by a supported format, the
formats listed are theirs, and the minimum and maximum are the first and the last of them.  The column is called a column of
dates exactly if all values are counted (and dates are enabled), which they are if each can be read by some format, none of
them an abbreviated May. -/
theorem C97_dates (hset : ∀ l, (w.setOrder l).Perm l) (hfmt : ∀ l, (w.formatOrder l).Perm l) (h : History) (hs : Sensible h)
    (hf : Fed h) :
    ∃ s p cs, run w h = .ok s ∧ s.profs = some p ∧ Looked w.isNull h cs ∧
      (∃ (as : List (DateTimeSpec.Reading Moment)) (rest : List String),
        (as.map (·.text) ++ rest).Perm (cs.filter fun x => !w.isNull x) ∧ p.dates.matchCount = as.length ∧
        (∀ a ∈ as, DateTimeSpec.Proper w.date w.isMay DateTimeSpec.supported a) ∧ p.dates.formats.Nodup ∧
        (∀ f, f ∈ p.dates.formats ↔ ∃ a ∈ as, a.format = f) ∧
        DateTimeSpec.IsMin as p.dates.minText ∧ DateTimeSpec.IsMax as p.dates.maxText) ∧
      p.dates.sampleSize + s.base.nullCount = s.base.sampleSize ∧
      ((∃ x ∈ cs, w.isNull x = false) → (ColumnTypes.selected p.types = some .datetime ↔
        w.enabled .datetime = true ∧ p.dates.matchCount = p.dates.sampleSize)) ∧
      (Drawn h → DateTimeSpec.NoMay w.date w.isMay (cs.filter fun x => !w.isNull x) →
        (∀ x ∈ cs, w.isNull x = false → DateTimeSpec.IsDate w.date x) → p.dates.matchCount = p.dates.sampleSize) := by
  obtain ⟨s, cs, r1, r2, r3, r4, r5, r6⟩ := run_parts w hset h hs
  obtain ⟨p, hp⟩ := Option.isSome_iff_exists.1 (r5.2 hf)
  rw [hp, Option.getD_some] at r6
  obtain ⟨s', p', h1, h2, h3, _⟩ := C97_adds_up hset h hs hf
  rw [r1] at h1
  cases h1
  rw [hp] at h2
  cases h2
  obtain ⟨hd, d1, d2, d3⟩ := r6.dates
  obtain ⟨as, rest, e1, e2, e3, e4, e5, e6, e7, e8⟩ := DateTime.C37_history w.formatOrder hfmt w.date w.isMay hd
  rw [d1] at e2 e3 e5 e6 e7 e8
  have hsize : p.dates.sampleSize = ((cs.map Prod.snd).filter fun x => !w.isNull x).length := by rw [e3, d2.length_eq]
  refine ⟨s, p, _, r1, hp, r3, ⟨as, rest, e1.trans d2, e2, e4, e5, e6, e7, e8⟩, ?_, ?_, ?_⟩
  · have a := (h3 .text).1
    rw [(describes_of (k := .text) r6).1] at a
    rw [hsize]; omega
  · rintro ⟨x, hx, hxn⟩
    obtain ⟨ht, t1, t2, t3, t4⟩ := r6.types
    obtain ⟨c, f1, f2⟩ := ColumnTypes.C30_selected w.toFloat w.enabled ht t2 (fun e => by
      rw [e] at t3
      have := t3.nil_eq.symm
      rw [List.filter_eq_nil_iff] at this
      exact this x hx (by simp [hxn]))
    rw [t1] at f1
    cases f1
    rw [f2, ColumnTypesSpec.IsFirst, ColumnTypesSpec.AllAre, t4, hsize, t3.length_eq]
    refine ⟨fun a => ⟨a.1, a.2.1⟩, fun a => ⟨a.1, a.2, fun t' hr => ?_⟩⟩
    exact absurd hr (Nat.not_lt_zero _)
  · intro hdr hmay hall
    have a := DateTime.C37_all_dates w.formatOrder w.date w.isMay hd (d3 hdr)
      (fun x hx => hmay x (d2.mem_iff.1 hx)) (fun x hx => by
        have := d2.mem_iff.1 hx
        rw [List.mem_filter] at this
        exact hall x this.1 (by simpa using this.2))
    rw [d1] at a
    rw [a, e3]

theorem numbers_order_hist {ho : Order.History String} {vs : List String} (hv : (OrderSpec.seen ho).Perm vs)
    (hall : ∀ x ∈ vs, w.number x ≠ none) : ∃ g : Order.History ℚ, Order.runColumn w.number w.render ho = .num (Order.run g) ∧
      (OrderSpec.seen g).Perm (vs.filterMap w.number) := by
  obtain ⟨g, g1, g2⟩ := Order.C16_column_numbers w.number w.render ho fun x hx => hall x (hv.mem_iff.1 hx)
  refine ⟨g, g1, ?_⟩
  rw [OrderSpec.seen, g2, show ((OrderSpec.batches ho).map fun b => b.filterMap w.number).flatten =
    (OrderSpec.batches ho).flatten.filterMap w.number from (List.filterMap_flatten ..).symm]
  exact hv.filterMap _

theorem numbers_order {h : History} {cs : List String} {p : Profs} (hp : Parts w h cs p)
    (hall : ∀ x ∈ cs, w.isNull x = false → w.number x ≠ none) : ∃ g : Order.History ℚ, p.order = .num (Order.run g) ∧
      (OrderSpec.seen g).Perm ((cs.filter fun x => !w.isNull x).filterMap w.number) := by
  obtain ⟨ho, o1, o2⟩ := hp.order
  rw [← o1]
  exact numbers_order_hist o2 fun x hx => by
    rw [List.mem_filter] at hx
    exact hall x hx.1 (by simpa using hx.2)

theorem letters_hist (hchar : ∀ l, (w.charOrder l).Perm l) {hv : Vocab.History} {xs : List String}
    (hp : (Vocab.values hv).Perm xs) : Letters xs (Vocab.run w.charOrder hv) := by
  obtain ⟨a, b⟩ := Vocab.C35_vocab w.charOrder hchar hv
  exact ⟨a, fun c => by rw [b]; simp only [hp.mem_iff]⟩

theorem dates_hist (hfmt : ∀ l, (w.formatOrder l).Perm l) {hd : DateTime.History} {xs : List String}
    (hp : (DateTimeSpec.values hd).Perm xs) : DatesOf w.date w.isMay xs (DateTime.run w.formatOrder w.date w.isMay hd) := by
  obtain ⟨as, rest, e1, e2, e3, e4, e5, e6, e7, e8⟩ := DateTime.C37_history w.formatOrder hfmt w.date w.isMay hd
  exact ⟨by rw [e3, hp.length_eq], as, rest, e1.trans hp, e2, e4, e5, e6, e7, e8⟩

theorem order_hist {ho : Order.History String} {xs : List String} (hp : (OrderSpec.seen ho).Perm xs) :
    Ordered w.number xs (Order.runColumn w.number w.render ho) := by
  have key : ∀ i, (∀ x ∈ xs, w.number x ≠ none) → Order.runColumn w.number w.render ho = .num (some i) →
      ∃ g : Order.History ℚ, Order.run g = some i ∧ (OrderSpec.seen g).Perm (xs.filterMap w.number) := by
    intro i hall hi
    obtain ⟨g, g1, g2⟩ := numbers_order_hist hp hall
    rw [g1] at hi
    exact ⟨g, Order.Column.num.inj hi, g2⟩
  refine ⟨?_, fun q hne hq => ?_, fun hall => ?_, fun hall i hi ha => ?_, fun hall i hi ha => ?_, fun hall i hi ha hc => ?_⟩
  · rw [Order.C16_column_none_iff]
    exact ⟨fun e => by rw [e] at hp; exact hp.nil_eq.symm, fun e => by rw [e] at hp; exact hp.eq_nil⟩
  · obtain ⟨g, g1, g2⟩ := numbers_order_hist hp (fun x hx => by rw [hq x hx]; simp)
    obtain ⟨x, l, rfl⟩ := List.exists_cons_of_ne_nil hne
    rw [g1, Order.C16_complete_constant g q]
    · rw [g2.mem_iff, List.mem_filterMap]
      exact ⟨x, by simp, hq x (by simp)⟩
    · intro a ha b hb
      rw [g2.mem_iff, List.mem_filterMap] at ha hb
      obtain ⟨y, hy, e⟩ := ha
      obtain ⟨z, hz, e'⟩ := hb
      rw [hq y hy] at e
      rw [hq z hz] at e'
      rw [← Option.some.inj e, ← Option.some.inj e']
  · obtain ⟨g, g1, _⟩ := numbers_order_hist hp hall
    exact ⟨_, g1⟩
  · obtain ⟨g, g1, g2⟩ := key i hall hi
    have := (Order.C16_sound_ascending_partial g i g1 ha).2.2
    exact ⟨⟨g2.mem_iff.1 this.1.1, fun y hy => this.1.2 y (g2.mem_iff.2 hy)⟩,
      ⟨g2.mem_iff.1 this.2.1, fun y hy => this.2.2 y (g2.mem_iff.2 hy)⟩⟩
  · obtain ⟨g, g1, g2⟩ := key i hall hi
    rw [(Order.C16_sound_constant_partial g i g1 ha).2.2.2]
    simp only [OrderSpec.Const, g2.mem_iff]
  · obtain ⟨g, g1, g2⟩ := key i hall hi
    have hc : OrderSpec.Const (OrderSpec.seen g) := by simpa only [OrderSpec.Const, g2.mem_iff] using hc
    rcases ha with ha | ha
    · exact (Order.C16_sound_random g i g1 ha).1 (Order.asc_of_const hc)
    · obtain ⟨_, _, b1, b2, b3⟩ := Order.C16_sound_descending_partial g i g1 ha
      rw [hc _ b2 _ b3] at b1
      exact lt_irrefl _ b1

/-- **C97** The order of a column that has only numbers is about its numbers, however they were cut into batches and merged: it
is missing only without values, it is constant if all numbers are equal, and the first and last value stored with a
rising order are the smallest and the largest number, those stored with a constant one agree only if all numbers are
equal, and with a random or a falling one there are two different numbers. -/
theorem C97_order (hset : ∀ l, (w.setOrder l).Perm l) (h : History) (hs : Sensible h) (hf : Fed h) :
    ∃ s p cs, run w h = .ok s ∧ s.profs = some p ∧ Looked w.isNull h cs ∧
      ((∀ x ∈ cs, w.isNull x = false → w.number x ≠ none) →
        (p.order.order = none ↔ ∀ x ∈ cs, w.isNull x = true) ∧
        (∀ q, (∀ x ∈ cs, w.isNull x = false → w.number x = some q) → (∃ x ∈ cs, w.isNull x = false) →
          p.order = .num (some ⟨.constant, q, q, false⟩)) ∧
        ∀ i, p.order = .num (some i) → i.order = .ascending →
          OrderSpec.IsMin i.first ((cs.filter fun x => !w.isNull x).filterMap w.number) ∧
          OrderSpec.IsMax i.last ((cs.filter fun x => !w.isNull x).filterMap w.number)) ∧
      ((∀ x ∈ cs, w.isNull x = false → w.number x ≠ none) → ∀ i, p.order = .num (some i) →
        (i.order = .constant → (i.first = i.last ↔ OrderSpec.Const ((cs.filter fun x => !w.isNull x).filterMap w.number))) ∧
        (i.order = .random ∨ i.order = .descending → ¬ OrderSpec.Const ((cs.filter fun x => !w.isNull x).filterMap w.number))) := by
  obtain ⟨s, cs, r1, _, r3, _, r5, r6⟩ := run_parts w hset h hs
  obtain ⟨p, hp⟩ := Option.isSome_iff_exists.1 (r5.2 hf)
  rw [hp, Option.getD_some] at r6
  have hrest : (∀ x ∈ cs.map Prod.snd, w.isNull x = false → w.number x ≠ none) → ∀ i, p.order = .num (some i) →
      (i.order = .constant → (i.first = i.last ↔
        OrderSpec.Const (((cs.map Prod.snd).filter fun x => !w.isNull x).filterMap w.number))) ∧
      (i.order = .random ∨ i.order = .descending →
        ¬ OrderSpec.Const (((cs.map Prod.snd).filter fun x => !w.isNull x).filterMap w.number)) := by
    intro hall i hi
    obtain ⟨ho, o1, o2⟩ := numbers_order r6 hall
    have hc : OrderSpec.Const (OrderSpec.seen ho) ↔
        OrderSpec.Const (((cs.map Prod.snd).filter fun x => !w.isNull x).filterMap w.number) := by
      simp only [OrderSpec.Const, o2.mem_iff]
    rw [o1] at hi
    have hi' : Order.run ho = some i := by
      generalize Order.run ho = z at hi
      cases hi; rfl
    rw [← hc]
    refine ⟨fun a => (Order.C16_sound_constant_partial ho i hi' a).2.2.2, ?_⟩
    rintro (a | a) c
    · exact (Order.C16_sound_random ho i hi' a).1 (Order.asc_of_const c)
    · obtain ⟨_, _, b1, b2, b3⟩ := Order.C16_sound_descending_partial ho i hi' a
      rw [c _ b2 _ b3] at b1
      exact lt_irrefl _ b1
  refine ⟨s, p, _, r1, hp, r3, fun hall => ?_, hrest⟩
  obtain ⟨ho, o1, o2⟩ := numbers_order r6 hall
  have hmem : ∀ q, q ∈ OrderSpec.seen ho ↔ ∃ x ∈ cs.map Prod.snd, w.isNull x = false ∧ w.number x = some q := by
    intro q
    rw [o2.mem_iff, List.mem_filterMap]
    refine exists_congr fun x => ?_
    rw [List.mem_filter]
    simp [and_assoc]
  refine ⟨?_, fun q hq hx => ?_, fun i hi ha => ?_⟩
  · rw [o1]
    simp only [Order.Column.order, Option.map_eq_none_iff]
    rw [Order.C16_none_iff]
    constructor
    · intro he x hx
      by_contra hn
      have hn : w.isNull x = false := by simpa using hn
      obtain ⟨q, hq⟩ := Option.ne_none_iff_exists'.1 (hall x hx hn)
      have := (hmem q).2 ⟨x, hx, hn, hq⟩
      rw [he] at this
      cases this
    · intro hn
      rw [List.eq_nil_iff_forall_not_mem]
      intro q hq
      obtain ⟨x, hx, hxn, _⟩ := (hmem q).1 hq
      rw [hn x hx] at hxn
      cases hxn
  · obtain ⟨x, hx, hxn⟩ := hx
    rw [o1, Order.C16_complete_constant ho q ((hmem q).2 ⟨x, hx, hxn, hq x hx hxn⟩)]
    intro a ha b hb
    obtain ⟨y, hy, hyn, e⟩ := (hmem a).1 ha
    obtain ⟨z, hz, hzn, e'⟩ := (hmem b).1 hb
    rw [hq y hy hyn] at e
    rw [hq z hz hzn] at e'
    cases e; cases e'; rfl
  · rw [o1] at hi
    cases hi' : Order.run ho with
    | none => rw [hi'] at hi; cases hi
    | some j =>
      rw [hi'] at hi
      cases hi
      have := (Order.C16_sound_ascending_partial ho _ hi' ha).2.2
      exact ⟨⟨o2.mem_iff.1 this.1.1, fun y hy => this.1.2 y (o2.mem_iff.2 hy)⟩,
        ⟨o2.mem_iff.1 this.2.1, fun y hy => this.2.2 y (o2.mem_iff.2 hy)⟩⟩

/-- **C97** A column of increasing labels that is profiled at once, on the path that sorts the labels: the order reported is
the order of its values from top to bottom, as numbers if all are numbers, otherwise as texts. -/
theorem C97_order_at_once (hset : ∀ l, (w.setOrder l).Perm l) (o : Opts) (b : Batch) (hs : Sensible (.update (.new o) b))
    (hw : Whole (.update (.new o) b)) (hinc : (b.col.map Prod.fst).Pairwise (· < ·)) (hsort : 0 < b.minTrue ∨ b.given = false)
    (hne : ∃ c ∈ b.col, w.isNull c.2 = false) :
    ∃ s p, run w (.update (.new o) b) = .ok s ∧ s.profs = some p ∧
      ((∀ c ∈ b.col, w.isNull c.2 = false → w.number c.2 ≠ none) → ∃ k, p.order.order = some k ∧
        OrderSpec.Expected ((b.col.filter fun c => !w.isNull c.2).filterMap fun c => w.number c.2) k) ∧
      ((∃ c ∈ b.col, w.isNull c.2 = false ∧ w.number c.2 = none) → ∃ k, p.order.order = some k ∧
        OrderSpec.Expected ((b.col.filter fun c => !w.isNull c.2).map Prod.snd) k) := by
  obtain ⟨vals, base, v1, v2, v3, v4, v5⟩ := Nulls.C17_whole_column (isNull := w.isNull) hset hs.2.1 hw.2.1 hw.2.2
  have hv := v5 hinc hsort
  obtain ⟨s, cs, r1, _, r3, _, r5, r6⟩ := run_parts w hset _ hs
  obtain ⟨p, hp⟩ := Option.isSome_iff_exists.1 (r5.2 trivial)
  refine ⟨s, p, r1, hp, ?_⟩
  have hord : p.order = Order.updateColumn w.number w.render (.num none) vals := by
    have h := r1
    simp only [run, update, v1] at h
    cases hu : Nulls.updateBase Nulls.ColState.new base with
    | error e => rw [hu] at h; cases h
    | ok b' =>
      rw [hu] at h
      simp only [Option.getD_none] at h
      cases hq : (Profs.new w o).update w b.draw vals with
      | error e => rw [hq] at h; cases h
      | ok q =>
        rw [hq] at h
        cases h
        cases hp
        unfold Profs.update at hq
        split at hq
        · cases hq
        · cases hq; rfl
  have hvn : vals ≠ [] := by
    rw [hv]
    obtain ⟨c, hc, hn⟩ := hne
    exact List.ne_nil_of_mem (List.mem_map.2 ⟨c, List.mem_filter.2 ⟨hc, by simp [hn]⟩, rfl⟩)
  constructor
  · intro hall
    have hall' : ∀ x ∈ vals, w.number x ≠ none := by
      intro x hx
      rw [hv] at hx
      obtain ⟨c, hc, rfl⟩ := List.mem_map.1 hx
      rw [List.mem_filter] at hc
      exact hall c hc.1 (by simpa using hc.2)
    have hu := Order.column_update w.number w.render .new hall'
    rw [show Order.run (.new : Order.History ℚ) = none from rfl] at hu
    obtain ⟨i, i1, i2⟩ := Order.C16_single_batch (vals.filterMap w.number) (by
      intro he
      have := (Order.parseAll_nil_iff w.number vals _ (Order.parseAll_some hall')).2 he
      exact hvn this)
    rw [hord, hu, i1]
    refine ⟨i.order, rfl, ?_⟩
    rw [hv, List.filterMap_map] at i2
    exact i2
  · rintro ⟨c, hc, hn, hnum⟩
    have hmem : c.2 ∈ vals := by
      rw [hv]; exact List.mem_map.2 ⟨c, List.mem_filter.2 ⟨hc, by simp [hn]⟩, rfl⟩
    have hno : Order.parseAll w.number vals = none := by
      clear hord hv v1 v4 v5 hvn
      induction vals with
      | nil => cases hmem
      | cons x l ih =>
        simp only [Order.parseAll, List.mapM_cons] at ih ⊢
        rcases List.mem_cons.1 hmem with e | e
        · rw [← e, hnum]; rfl
        · rw [ih e]; cases w.number x <;> rfl
    obtain ⟨i, i1, i2⟩ := Order.C16_single_batch vals hvn
    have hu : Order.updateColumn w.number w.render (.num none) vals = .str (some i) := by
      unfold Order.updateColumn
      rw [if_neg hvn, if_neg (by simp [Order.Column.order])]
      simp only [hno]
      rw [← i1]; rfl
    rw [hord, hu]
    refine ⟨i.order, rfl, ?_⟩
    rw [hv] at i2
    exact i2

/-! ## A concrete case -/

/-- Digits are numbers, the empty text and "null" are nulls. -/
def demoWorld : World where
  isNull x := x == "" || x == "null"
  number x := if x = "1" then some 1 else if x = "5" then some 5 else if x = "-2" then some (-2) else none
  render q := if q = 1 then "1.0" else if q = 5 then "5.0" else "-2.0"
  date f x := if f = "%Y-%m-%d" ∧ x = "1999-12-31" then some 7 else none
  isMay _ := false
  enabled t := t != .datetime
  setOrder l := l.reverse
  charOrder l := l.reverse
  formatOrder l := l.reverse

/-- Everything is calculated. -/
def demoOpts : Opts := ⟨fun _ => Numeric.Calcs.all, fun _ => true, ⟨none, none⟩, none⟩

/-- Two batches, the second one in another row order and reusing labels, merged with a third. -/
def demo : History :=
  .merge (.update (.update (.new demoOpts) ⟨⟨[(0, "1"), (1, ""), (2, "5")], 3, 0, false, [[2, 0, 1]]⟩, List.take 50⟩)
    ⟨⟨[(0, "null"), (1, "1")], 2, 0, true, [[1, 0]]⟩, List.take 50⟩)
    (.update (.new demoOpts) ⟨⟨[(7, "-2"), (8, "1")], 2, 5, true, [[0, 1]]⟩, List.take 50⟩)

/-- The same cells at once, in another order. -/
def demo' : History :=
  .update (.new demoOpts) ⟨⟨[(0, "null"), (1, "1"), (2, "1"), (3, "-2"), (4, ""), (5, "1"), (6, "5")], 7, 0, false,
    [[6, 5, 4], [0, 1, 2, 3]]⟩, List.take 50⟩

theorem demo_fits : Sensible demo ∧ Fed demo ∧ Whole demo ∧ NeverStops demo ∧ Sensible demo' ∧ Fed demo' ∧ Whole demo' ∧
    (texts demo).Perm (texts demo') := by
  have hv : ∀ k, (demoOpts.calcs k).valid = true := fun _ => rfl
  refine ⟨⟨⟨⟨hv, ⟨by decide, by decide, by decide, by decide, by decide⟩, by decide⟩,
      ⟨by decide, by decide, by decide, by decide, by decide⟩, by decide⟩,
    ⟨hv, ⟨by decide, by decide, by decide, by decide, by decide⟩, by decide⟩, trivial, trivial⟩, .inl trivial,
    ⟨⟨⟨trivial, by decide, by decide⟩, by decide, by decide⟩, trivial, by decide, by decide⟩,
    ⟨.inl rfl, .inl rfl⟩, ⟨hv, ⟨by decide, by decide, by decide, by decide, by decide⟩, by decide⟩, trivial,
    ⟨trivial, by decide, by decide⟩, by decide +kernel⟩

example : ∃ s p, run demoWorld demo = .ok s ∧ s.profs = some p ∧ s.base.nullCount + (p.num .int).sampleSize =
    s.base.sampleSize := by
  obtain ⟨s, p, h1, h2, h3, _⟩ := C97_adds_up (w := demoWorld) (fun l => List.reverse_perm l) demo
    demo_fits.1 demo_fits.2.1
  exact ⟨s, p, h1, h2, (h3 .int).1⟩

/-- A column of dates, numbers and nulls with dates enabled. -/
def dateWorld : World := { demoWorld with enabled := fun _ => true }

/-- Three dates in two batches. -/
def demoDates : History :=
  .update (.update (.new demoOpts) ⟨⟨[(0, "1999-12-31"), (1, "")], 2, 0, false, [[1, 0]]⟩, List.take 50⟩)
    ⟨⟨[(2, "1999-12-31"), (3, "1999-12-31")], 2, 0, false, [[0, 1]]⟩, List.take 50⟩

theorem take_drawn (l : List String) : (l.take 50).Subperm l ∧ (l.take 50).length = min 50 l.length :=
  ⟨(List.take_sublist 50 l).subperm, by simp⟩

example : Sensible demoDates ∧ Fed demoDates ∧ Drawn demoDates ∧ Whole demoDates := by
  have hv : ∀ k, (demoOpts.calcs k).valid = true := fun _ => rfl
  exact ⟨⟨⟨hv, ⟨by decide, by decide, by decide, by decide, by decide⟩, by decide⟩,
    ⟨by decide, by decide, by decide, by decide, by decide⟩, by decide⟩, trivial, ⟨⟨trivial, take_drawn⟩, take_drawn⟩,
    ⟨trivial, by decide, by decide⟩, by decide, by decide⟩

example : DateTimeSpec.IsDate dateWorld.date "1999-12-31" ∧ DateTimeSpec.NoMay dateWorld.date dateWorld.isMay ["1999-12-31"] :=
  ⟨⟨"%Y-%m-%d", by simp [DateTimeSpec.supported], by simp [dateWorld, demoWorld]⟩, fun _ _ _ _ _ _ _ => rfl⟩

/-- A rising column with a null, profiled at once. -/
def demoRising : Batch := ⟨⟨[(0, "-2"), (1, "null"), (2, "1"), (3, "5")], 4, 0, false, [[3, 1], [0, 2]]⟩, List.take 50⟩

example : Sensible (.update (.new demoOpts) demoRising) ∧ Whole (.update (.new demoOpts) demoRising) ∧
    (demoRising.col.map Prod.fst).Pairwise (· < ·) ∧ demoRising.given = false ∧
    (∃ c ∈ demoRising.col, demoWorld.isNull c.2 = false) ∧
    OrderSpec.Expected ((demoRising.col.filter fun c => !demoWorld.isNull c.2).filterMap fun c => demoWorld.number c.2) .ascending := by
  have hv : ∀ k, (demoOpts.calcs k).valid = true := fun _ => rfl
  have e : ((demoRising.col.filter fun c => !demoWorld.isNull c.2).filterMap fun c => demoWorld.number c.2) = [-2, 1, 5] := by
    decide +kernel
  refine ⟨⟨hv, ⟨by decide, by decide, by decide, by decide, by decide⟩, by decide⟩, ⟨trivial, by decide, by decide⟩, by decide,
    rfl, ⟨(0, "-2"), by decide, by decide⟩, ?_⟩
  rw [e]
  refine ⟨?_, fun c => ?_⟩
  · simp [OrderSpec.Asc]; norm_num
  · have := c 1 (by simp) 5 (by simp)
    norm_num at this

/-! ## Where the English claim fails -/

/-- Rows that share an index label: the counts do not add up. -/
theorem C97_duplicate_labels_fails : ∃ (w : World) (h : History) (s : State) (p : Profs),
    (∀ l, (w.setOrder l).Perm l) ∧ Whole h ∧ run w h = .ok s ∧ s.profs = some p ∧
      s.base.sampleSize = 2 ∧ s.base.nullCount = 1 ∧ (p.num .text).sampleSize = 2 := by
  let b : Batch := ⟨⟨[(0, "a"), (0, "b")], 2, 0, true, [[0, 1]]⟩, List.take 50⟩
  obtain ⟨q, q1, q2⟩ := (Parts.new demoWorld demoOpts (fun _ => rfl)).update b
    (vals := ["a", "b"]) (rows := ["a", "b"]) (by decide)
  have hc : Nulls.clean demoWorld.isNull id b.col b.sampleSize b.minTrue b.given b.chunks =
      .ok (["a", "b"], ⟨2, 1, [], some (0, 0)⟩) := by rfl
  refine ⟨{ demoWorld with setOrder := id }, .update (.new demoOpts) b, ⟨demoOpts, ⟨2, 1, some (1 / 2), [], [], some (0, 0)⟩, some q⟩, q,
    fun l => .refl _, ⟨trivial, by decide, by decide⟩, ?_, rfl, rfl, rfl, ?_⟩
  · have q1' : (Profs.new { demoWorld with setOrder := id } demoOpts).update { demoWorld with setOrder := id } b.draw ["a", "b"] =
        .ok q := q1
    have hu : Nulls.updateBase Nulls.ColState.new ⟨2, 1, [], some (0, 0)⟩ =
        .ok ⟨2, 1, some (1 / 2), [], [], some (0, 0)⟩ := by
      rfl
    simp only [run, update]
    simp only [hc, hu, Option.getD_none, q1']
  · have := (describes_of (k := .text) q2).1
    rw [this]
    decide

end Verif.Props.Column
