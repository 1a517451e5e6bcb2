import Verif.Lemmas.ColumnHist

/-!
# C97: histograms and precision of a column are about the same cells

The histogram of every kind of numeric profile and the precision of decimals, run inside a column profile with nulls, sampling, updates
and merges, describe the very cells the other parts are about (`Props/Column`).
-/

namespace Verif.Props.ColumnHist

open Verif Verif.Column Verif.HistColumn Verif.Spec.Column Verif.Spec.ColumnHist Verif.Spec.HistColumn

variable {w : World} {e : Env}

/-- **C97** The histogram reported for the numbers of a kind counts every number of that kind among the cells looked at, as many as the
profile says it has, whatever the nulls, the sampling, the batches and the merges, if no profile was updated after a merge and numbers
were not merged with none.  It goes from the smallest to the greatest number if there were no merges or no number is zero. -/
theorem C97_histogram (k : Kind) (hset : ∀ l, (w.setOrder l).Perm l) (h : History) (hs : Sensible h) (hf : Fed h)
    (hsome : ∀ q, e.bins k ≠ some ⟨.methods [], q⟩) (hest : ∀ m vs, vs ≠ [] → 0 < e.est m vs) (hsug : ∀ h m, 0 < e.suggest h m)
    (hmin : On k Numeric.Calcs.min h) (hmax : On k Numeric.Calcs.max h) (hst : Straight w.isNull w.number k h)
    (hw : ¬ Updated h → Wanted (e.bins k) = none) (H0 : Heap) :
    ∃ s p H c cs, runHist w e k h H0 = .ok (s, H, some c) ∧ run w h = .ok s ∧ s.profs = some p ∧ Looked w.isNull h cs ∧
      (rationals w.number k (cs.filter fun x => !w.isNull x) = [] → c.histogram H = none) ∧
      (rationals w.number k (cs.filter fun x => !w.isNull x) ≠ [] →
        ∃ H' c' d g, report H c = .ok (H', c', d) ∧ asHist d.body = some g ∧ g.counts.sum = (p.num k).matchCount ∧
          Bars g (rationals w.number k (cs.filter fun x => !w.isNull x))
            (Updated h ∨ 0 ∉ rationals w.number k (cs.filter fun x => !w.isNull x))) := by
  obtain ⟨s, H, c, cs, data, r1, r2, r3, r4, K, M⟩ := runHist_known w e k hset hsome h hs hmin hmax hst hw H0
  obtain ⟨x, rfl⟩ := Option.isSome_iff_exists.1 (K.fed.2 hf)
  obtain ⟨s', p, ds, q1, q2, q3, -, -, q4, -⟩ := Props.Column.C97_describes hset h hs hf
  rw [r2] at q1
  cases q1
  obtain rfl := looked_unique q3 r3
  obtain ⟨-, D⟩ := q4 k
  have hcount : ((p.num k).matchCount : ℚ) = data.length := by
    rw [D.matched, rationals_cast, List.length_map, r4.length_eq]
  have move : ∀ {g : Histogram.Hist} {P : Prop}, Bars g data P →
      Bars g (rationals w.number k (ds.filter fun x => !w.isNull x)) P := by
    intro g P B
    refine ⟨B.shape, by rw [B.total, r4.length_eq], fun hP => ?_, fun hP => ?_⟩
    · obtain ⟨lo, a, b, c⟩ := B.first hP
      exact ⟨lo, a, r4.mem_iff.1 b, fun v hv => c v (r4.mem_iff.2 hv)⟩
    · obtain ⟨hi, a, b, c⟩ := B.last hP
      exact ⟨hi, a, r4.mem_iff.1 b, fun v hv => c v (r4.mem_iff.2 hv)⟩
  refine ⟨s, p, H, x, ds, r1, r2, q2, r3, fun he => K.empty x rfl (by rw [he] at r4; exact r4.eq_nil), fun hne => ?_⟩
  have hd : data ≠ [] := fun hc => hne (by rw [hc] at r4; exact r4.nil_eq.symm)
  have h0 : 0 ∉ rationals w.number k (ds.filter fun x => !w.isNull x) ↔ 0 ∉ data := by rw [r4.mem_iff]
  rw [h0]
  by_cases hu : Updated h
  · obtain ⟨G, -, -, hn, -⟩ := K.good hu x rfl
    obtain ⟨H', m, d, g, a1, -, -, a4, a5, -⟩ := Props.HistColumn.good_report e.est H x data hd G hest
      (by rw [hn]; exact binNames_ne hsome)
    exact ⟨H', _, d, g, a1, a4, by rw [a5.total, hcount], move (bars_of a5)⟩
  · cases h with
    | new => exact hf.elim
    | update h b => exact absurd hst hu
    | merge h1 h2 =>
      obtain ⟨H2, c1, c2, y, g1, g2, lo, hi, m1, m2, m3, m4, m5, m6, m7, m8, m9, m10⟩ := M h1 h2 rfl hd
      cases m1
      obtain ⟨H', c, H'', c', d, g, m, t1, t2, t3, t4, t5, t6, -, -, t7, t8, -⟩ :=
        Props.HistColumn.C75_merge (e.suggest (.merge h1 h2)) H2 c1 c2 g1 g2 lo hi m2 m3 m4 m5 m6 m7 (hsug _)
      rw [m8] at t1
      cases t1
      refine ⟨H'', c', d, g, t2, t3, by rw [t4, m9, hcount], move ⟨by rw [t8, t7], by rw [t4, m9], ?_, ?_⟩⟩
      · rintro (hc | hz)
        · exact hc.elim
        · exact ⟨lo, t5, (m10 hz).1⟩
      · rintro (hc | hz)
        · exact hc.elim
        · exact ⟨hi, t6, (m10 hz).2⟩

/-- **C97** is false of the histogram when a merged profile is updated: the batch is counted by everything else, but the histogram stays
that of the numbers before. -/
theorem C97_histogram_fails (k : Kind) (hset : ∀ l, (w.setOrder l).Perm l) (h1 h2 : History) (b : Batch)
    (hs : Sensible (.update (.merge h1 h2) b)) (hsome : ∀ q, e.bins k ≠ some ⟨.methods [], q⟩) (hsug : ∀ h m, 0 < e.suggest h m)
    (hmin : On k Numeric.Calcs.min (.merge h1 h2)) (hmax : On k Numeric.Calcs.max (.merge h1 h2))
    (hst : Straight w.isNull w.number k (.merge h1 h2)) (hw : Wanted (e.bins k) = none)
    (hh : Holds w.isNull w.number k (.merge h1 h2)) (H0 : Heap) :
    ∃ s H c cs H' c' d g, runHist w e k (.update (.merge h1 h2) b) H0 = .ok (s, H, some c) ∧
      run w (.update (.merge h1 h2) b) = .ok s ∧ Looked w.isNull (.merge h1 h2) cs ∧
      report H c = .ok (H', c', d) ∧ asHist d.body = some g ∧
      g.counts.sum = (rationals w.number k (cs.filter fun x => !w.isNull x)).length := by
  obtain ⟨s, H, c, cs, data, r1, r2, r3, r4, K, M⟩ := runHist_known w e k hset hsome (.merge h1 h2) hs.1 hmin hmax hst (fun _ => hw) H0
  have hd : data ≠ [] := by
    obtain ⟨cs', l, n⟩ := hh
    obtain rfl := looked_unique l r3
    exact fun hc => n (by rw [hc] at r4; exact r4.nil_eq.symm)
  obtain ⟨H2, c1, c2, y, g1, g2, lo, hi, m1, m2, m3, m4, m5, m6, m7, m8, m9, m10⟩ := M h1 h2 rfl hd
  subst m1
  obtain ⟨H', c, H'', c', d, g, m, t1, t2, t3, t4, t5, t6, -, -, t7, t8, -⟩ :=
    Props.HistColumn.C75_merge (e.suggest (.merge h1 h2)) H2 c1 c2 g1 g2 lo hi m2 m3 m4 m5 m6 m7 (hsug _)
  rw [m8] at t1
  cases t1
  obtain ⟨j, vals, base, b1, b2, -, -, -, b6, -⟩ := Nulls.C17_partition (isNull := w.isNull) hset hs.2.1
  obtain ⟨s', -, u1, -⟩ := run_parts w hset (.update (.merge h1 h2) b) hs
  have hup : Column.update w s b = .ok s' := by
    rw [run, r2] at u1
    exact u1
  obtain ⟨H3, c3, f1, f2⟩ := Props.HistColumn.C75_merged_frozen_fails e.est (e.suggest (.merge h1 h2)) H2 c1 c2 g1 g2 lo hi m2 m3 m4 m5 m6
    [vals.filterMap (w.rational k)]
  rw [m8] at f1
  cases f1
  simp only [updates] at f2
  have hfeed : feed e (H, y) (vals.filterMap (w.rational k)) = (H, y) := by
    unfold feed
    split_ifs
    · rfl
    · exact f2
  refine ⟨s', H, y, cs, H'', c', d, g, ?_, u1, r3, t2, t3, by rw [t4, m9, r4.length_eq]⟩
  rw [runHist, r1]
  simp only [b2, hup, histOf, hfeed]

/-- **C97** The precision of decimals is that of decimals among the cells looked at: of all of them if no batch has more than 20000
cells, in any case of some if there are any; merging profiles with data never fails. -/
theorem C97_precision (hset : ∀ l, (w.setOrder l).Perm l) (h : History) (hs : Sensible h) (hf : Fed h)
    (hr : e.ratio = none) (he : Samples e) :
    ∃ s cs ys, runPrec w e h = .ok (some s) ∧ Looked w.isNull h cs ∧
      ys.Subperm (written w.number (cs.filter fun x => !w.isNull x)) ∧
      (ys = [] ↔ written w.number (cs.filter fun x => !w.isNull x) = []) ∧
      (Small h → ys.Perm (written w.number (cs.filter fun x => !w.isNull x))) ∧
      (ys = [] → s.prec = none) ∧
      (ys ≠ [] → ∃ p, s.prec = some p ∧ PrecisionSpec.Describes (PrecisionSpec.counts ys) p) := by
  obtain ⟨ps, cs, hp, r1, r2, r3, r4, r5, r6, r7, r8⟩ := runPrec_parts w e hset hr he h hs
  obtain ⟨s, rfl⟩ := Option.isSome_iff_exists.1 (r3.2 hf)
  obtain ⟨s', u1, -, u3, u4⟩ := Precision.run_spec hp r5 (Precision.C36_default_drawn hp r5 r6)
  rw [r4] at u1
  cases u1
  have hsub : ∀ hp : Precision.History, Precision.Valid hp → (PrecisionSpec.drawn hp).Subperm (PrecisionSpec.values hp) := by
    intro hp hv
    induction hp with
    | new => exact List.Subperm.refl _
    | update hp b ih => exact (ih hv.1).append hv.2.1
    | merge a b ia ib => exact (ia hv.1).append (ib hv.2)
  have hnil : ∀ hp : Precision.History, PrecisionSpec.Drawn hp → PrecisionSpec.drawn hp = [] → PrecisionSpec.values hp = [] := by
    intro hp hd
    induction hp with
    | new => exact fun _ => rfl
    | update hp b ih =>
      intro hc
      simp only [PrecisionSpec.drawn, List.append_eq_nil_iff] at hc
      rw [PrecisionSpec.values, ih hd.1 hc.1]
      by_contra hne
      exact hd.2 (by simpa using hne) hc.2
    | merge a b ia ib =>
      intro hc
      simp only [PrecisionSpec.drawn, List.append_eq_nil_iff] at hc
      rw [PrecisionSpec.values, ia hd.1 hc.1, ib hd.2 hc.2]
      rfl
  refine ⟨s, cs, PrecisionSpec.drawn hp, r1, r2, (hsub hp r5).trans r7.subperm, ⟨fun hc => ?_, fun hc => ?_⟩, fun hsm => ?_, u3, fun hne => ?_⟩
  · have := hnil hp (Precision.C36_default_drawn hp r5 r6) hc
    rw [this] at r7
    exact r7.nil_eq.symm
  · rw [hc] at r7
    have := (hsub hp r5).length_le
    rw [r7.eq_nil] at this
    exact List.length_eq_zero_iff.1 (by simpa using this)
  · exact (Precision.drawn_perm hp r5 r6 (r8 hsm)).trans r7
  · obtain ⟨p, a, b, -⟩ := u4 hne
    exact ⟨p, a, b⟩

/-! ### Cases -/

/-- The default methods, each estimating as many bins as there are values. -/
def demoEnv : Env := ⟨fun _ => none, fun _ vs => vs.length, fun _ _ => 4, none, fun l => l.take (if l.length ≤ 20000 then l.length else max 20000 (l.length / 20))⟩

example : Samples demoEnv := by
  intro l
  refine ⟨(List.take_sublist _ l).subperm, ?_⟩
  simp only [demoEnv, List.length_take]
  split_ifs with h
  · simp
  · exact min_eq_left (max_le (by omega) (Nat.div_le_self _ _))

open Props.Column in
/-- The history of `Props/Column` (two batches with nulls, merged with a third) has numbers on both sides. -/
theorem demo_straight : Straight demoWorld.isNull demoWorld.number .int demo ∧ Holds demoWorld.isNull demoWorld.number .int demo := by
  have one : ∃ z : ℤ, (1 : ℚ) = z := ⟨1, by norm_num⟩
  have l1 := Looked.update (isNull := demoWorld.isNull) (k := 1)
    (b := ⟨⟨[(0, "null"), (1, "1")], 2, 0, true, [[1, 0]]⟩, List.take 50⟩)
    (Looked.update (k := 1) (b := ⟨⟨[(0, "1"), (1, ""), (2, "5")], 3, 0, false, [[2, 0, 1]]⟩, List.take 50⟩) (Looked.new demoOpts)
      ⟨by decide, by decide, .inl rfl, fun j _ _ => by omega⟩) ⟨by decide, by decide, .inl rfl, fun j _ _ => by omega⟩
  have l2 := Looked.update (isNull := demoWorld.isNull) (k := 1)
    (b := ⟨⟨[(7, "-2"), (8, "1")], 2, 5, true, [[0, 1]]⟩, List.take 50⟩) (Looked.new demoOpts)
    ⟨by decide, by decide, .inl rfl, fun j _ _ => by omega⟩
  have mem : ∀ cs : List String, "1" ∈ cs →
      rationals demoWorld.number .int (cs.filter fun x => !demoWorld.isNull x) ≠ [] := by
    intro cs h
    refine List.ne_nil_of_mem (a := (1 : ℚ)) (List.mem_filterMap.2 ⟨"1", List.mem_filter.2 ⟨h, by decide⟩, ?_⟩)
    simp [demoWorld, one]
  have h1 : Holds demoWorld.isNull demoWorld.number .int _ := ⟨_, l1, mem _ (by decide)⟩
  have h2 : Holds demoWorld.isNull demoWorld.number .int _ := ⟨_, l2, mem _ (by decide)⟩
  exact ⟨⟨trivial, trivial, fun _ => h2, fun _ => h1⟩, _, Looked.merge l1 l2, mem _ (by decide)⟩

open Props.Column in
example (H0 : Heap) : ∃ s p H c cs, runHist demoWorld demoEnv .int demo H0 = .ok (s, H, some c) ∧ run demoWorld demo = .ok s ∧ s.profs = some p ∧
    Looked demoWorld.isNull demo cs ∧ ∃ H' c' d g, report H c = .ok (H', c', d) ∧ asHist d.body = some g ∧
      g.counts.sum = (p.num .int).matchCount := by
  obtain ⟨s, p, H, c, cs, r1, r2, r3, r4, -, r6⟩ := C97_histogram (w := demoWorld) (e := demoEnv) .int (fun l => List.reverse_perm l) demo
    demo_fits.1 demo_fits.2.1 (by simp [demoEnv]) (fun _ vs h => List.length_pos_iff.2 h) (fun _ _ => by simp [demoEnv])
    ⟨rfl, rfl⟩ ⟨rfl, rfl⟩ demo_straight.1 (fun _ => rfl) H0
  obtain ⟨ds, l, n⟩ := demo_straight.2
  obtain rfl := looked_unique l r4
  obtain ⟨H', c', d, g, a, b, q, -⟩ := r6 n
  exact ⟨s, p, H, c, ds, r1, r2, r3, r4, H', c', d, g, a, b, q⟩

end Verif.Props.ColumnHist
