import Verif.Spec.ColumnLabel
import Verif.Props.Labels
import Verif.Props.ColumnHist

/-!
# C97: the labels of a column are about the same cells
-/

namespace Verif.Props.ColumnLabel

open Verif Verif.Column Verif.Spec.Column Verif.Spec.ColumnLabel Verif.LabelsSpec

variable {w : World} {L : Labeler} {n : ℕ}

/-- The label profile of every sensible history is that of a history of its own. -/
theorem parts (hset : ∀ l, (w.setOrder l).Perm l) (hL : Works L n) (h : History) (hs : Sensible h) :
    ∃ cs ys hl, Looked w.isNull h cs ∧ rows hl = ys.map L.conf ∧ ys.Subperm (cs.filter fun x => !w.isNull x) ∧
      (ys = [] ↔ (cs.filter fun x => !w.isNull x) = []) ∧ (Within n h → ys.Perm (cs.filter fun x => !w.isNull x)) ∧
      (Mergeable hl ↔ Balanced w.isNull h) ∧
      (Mergeable hl → ∃ c, runLabel w L h = .ok c ∧ (c.isSome = true ↔ Fed h) ∧
        Labels.run L.order L.labels L.pick hl = .ok (c.getD Labels.new)) ∧
      (¬ Mergeable hl → runLabel w L h = .error .typeError) := by
  have valid : ∀ (ys : List String) (hl : Labels.History), rows hl = ys.map L.conf → Valid L.labels hl := by
    intro ys hl he row hr
    rw [he] at hr
    obtain ⟨x, -, rfl⟩ := List.mem_map.1 hr
    exact hL.conf x
  induction h with
  | new o =>
    exact ⟨[], [], .new, .new o, rfl, List.Subperm.refl _, Iff.rfl, fun _ => .refl _, Iff.rfl,
      fun _ => ⟨none, rfl, by simp [Fed], rfl⟩, fun h => absurd trivial h⟩
  | update h b ih =>
    obtain ⟨cs, ys, hl, r1, r2, r3, r4, r5, r6, r7, r8⟩ := ih hs.1
    obtain ⟨j, vals, base, b1, b2, -, -, -, b6, -⟩ := Nulls.C17_partition (isNull := w.isNull) hset hs.2.1
    rw [filter_map_snd] at b6
    obtain ⟨d1, d2⟩ := hL.draw vals
    refine ⟨_, ys ++ L.draw vals, .update hl ((L.draw vals).map L.conf), .update r1 b1, ?_, ?_, ?_, ?_, r6, ?_, ?_⟩
    · rw [rows, r2, List.map_append]
    · rw [List.filter_append]
      exact r3.append (d1.trans b6.subperm)
    · rw [List.filter_append, List.append_eq_nil_iff, List.append_eq_nil_iff, r4]
      refine and_congr_right fun _ => ?_
      rw [← List.length_eq_zero_iff, d2, ← List.length_eq_zero_iff (l := List.filter _ _), ← b6.length_eq]
      have := hL.pos
      omega
    · intro hw
      rw [List.filter_append]
      refine (r5 hw.1).append ((d1.perm_of_length_le ?_).trans b6)
      have h2 := b6.length_eq
      have h3 := List.length_filter_le (fun x => !w.isNull x) ((NullsSpec.firstRows b.toBatch j).map Prod.snd)
      have h4 := rows_le hs.2.1 j
      rw [List.length_map] at h3
      have h5 : b.col.length ≤ n := hw.2
      rw [d2, min_eq_left]
      omega
    · intro hm
      obtain ⟨c, c1, -, c3⟩ := r7 hm
      refine ⟨some (L.feed (c.getD Labels.new) vals), ?_, by simp [Fed], ?_⟩
      · rw [runLabel, c1]
        simp only [b2]
      · rw [Labels.run, c3]
        show Except.ok (Labels.update L.labels L.pick (c.getD Labels.new) ((L.draw vals).map L.conf)) = _
        rw [Option.getD_some, Labeler.feed]
        split_ifs with he
        · rw [List.isEmpty_iff] at he
          subst he
          have hd : L.draw [] = [] := List.length_eq_zero_iff.1 (by rw [d2]; simp)
          rw [hd, Labels.update]
          simp
        · rfl
    · intro hm
      rw [runLabel, r8 hm]
  | merge h1 h2 i1 i2 =>
    obtain ⟨cs, ys, hl, r1, r2, r3, r4, r5, r6, r7, r8⟩ := i1 hs.1
    obtain ⟨ds, zs, hm, s1, s2, s3, s4, s5, s6, s7, s8⟩ := i2 hs.2.1
    have vals : ∀ (h : History) (cs ys : List String) (hl : Labels.History), Looked w.isNull h cs → rows hl = ys.map L.conf →
        (ys = [] ↔ (cs.filter fun x => !w.isNull x) = []) → (rows hl = [] ↔ ¬ Valued w.isNull h) := by
      intro h cs ys hl a1 a2 a3
      rw [a2, List.map_eq_nil_iff, a3, List.filter_eq_nil_iff]
      constructor
      · rintro hc ⟨cs', l, x, hx, hn⟩
        obtain rfl := looked_unique l a1
        exact hc x hx (by simp [hn])
      · intro hc x hx hn
        exact hc ⟨cs, a1, x, hx, by simpa using hn⟩
    have hboth : Mergeable (.merge hl hm) ↔ Balanced w.isNull (.merge h1 h2) := by
      rw [Mergeable, Balanced, r6, s6, vals h1 cs ys hl r1 r2 r4, vals h2 ds zs hm s1 s2 s4, not_iff_not]
    have hrows : rows (.merge hl hm) = (ys ++ zs).map L.conf := by rw [rows, r2, s2, List.map_append]
    obtain ⟨q1, q2⟩ := LabelsProps.run_inv (pick := L.pick) hL.order hL.labels (.merge hl hm) (valid _ _ hrows)
    refine ⟨cs ++ ds, ys ++ zs, .merge hl hm, .merge r1 s1, hrows, ?_, ?_, ?_, hboth, ?_, ?_⟩
    · rw [List.filter_append]; exact r3.append s3
    · rw [List.filter_append, List.append_eq_nil_iff, List.append_eq_nil_iff, r4, s4]
    · intro hw
      rw [List.filter_append]; exact (r5 hw.1).append (s5 hw.2)
    · intro hM
      obtain ⟨c, c1, c2, c3⟩ := r7 hM.1
      obtain ⟨d, d1, d2, d3⟩ := s7 hM.2.1
      obtain ⟨x, hx, -⟩ := q1 hM
      obtain ⟨c, rfl⟩ := Option.isSome_iff_exists.1 (c2.2 hs.2.2.1)
      obtain ⟨d, rfl⟩ := Option.isSome_iff_exists.1 (d2.2 hs.2.2.2)
      have hxm : Labels.merge L.order c d = .ok x := by
        rw [Labels.run, c3, d3] at hx
        exact hx
      refine ⟨some x, ?_, by simp [Fed, hs.2.2], hx⟩
      rw [runLabel, c1, d1]
      simp only [hxm]
      rfl
    · intro hM
      by_cases m1 : Mergeable hl
      · obtain ⟨c, c1, c2, c3⟩ := r7 m1
        by_cases m2 : Mergeable hm
        · obtain ⟨d, d1, d2, d3⟩ := s7 m2
          obtain ⟨c, rfl⟩ := Option.isSome_iff_exists.1 (c2.2 hs.2.2.1)
          obtain ⟨d, rfl⟩ := Option.isSome_iff_exists.1 (d2.2 hs.2.2.2)
          have hx := q2 hM
          have hxm : Labels.merge L.order c d = .error .typeError := by
            rw [Labels.run, c3, d3] at hx
            exact hx
          rw [runLabel, c1, d1]
          simp only [hxm]
          rfl
        · rw [runLabel, c1, s8 m2]
      · rw [runLabel, r8 m1]

/-- What the label profile of a history says about the values behind its rows. -/
theorem tells_of (hL : Works L n) {hl : Labels.History} {ys : List String} {c : Labels.Col}
    (c3 : Labels.run L.order L.labels L.pick hl = .ok c) (r2 : rows hl = ys.map L.conf) (hv : Valid L.labels hl) (hm : Mergeable hl) :
    (ys = [] → Labels.representation L.labels c = none ∧ Labels.average L.labels c = none ∧ Labels.dataLabel L.labels c = none) ∧
      (ys ≠ [] → Tells L ys c) := by
  have hrows : rows (once L ys) = rows hl := by rw [r2]; rfl
  have hvotes : ∀ i, votes L.pick (once L ys) i = votes L.pick hl i := fun i => by rw [votes, votes, hrows]
  have hshare : ∀ i, share L.pick (once L ys) i = share L.pick hl i :=
    fun i => by rw [share, share, hvotes, LabelsSpec.cast, LabelsSpec.cast, hrows]
  have hmean : ∀ i, LabelsSpec.mean (once L ys) i = LabelsSpec.mean hl i := fun i => by rw [LabelsSpec.mean, LabelsSpec.mean, hrows]
  have hnil : rows hl = [] ↔ ys = [] := by rw [r2, List.map_eq_nil_iff]
  obtain ⟨d, e1, f1, f2⟩ := LabelsProps.C38_representation_partial hL.order hL.labels hL.pick hl hv hm
  rw [c3] at e1; cases e1
  obtain ⟨d, e1, g1, g2⟩ := LabelsProps.C38_average_partial (pick := L.pick) hL.order hL.labels hl hv hm
  rw [c3] at e1; cases e1
  obtain ⟨d, e1, k1, k2, k3⟩ := LabelsProps.C38_data_label_partial hL.order hL.labels hL.some hL.pick hl hv hm
  rw [c3] at e1; cases e1
  refine ⟨fun he => ⟨f1 (hnil.2 he), g1 (hnil.2 he), k1.2 (hnil.2 he)⟩, fun he => ?_⟩
  have hne : rows hl ≠ [] := fun hc => he (hnil.1 hc)
  obtain ⟨rep, a1, a2, a3, -⟩ := f2 hne
  obtain ⟨avg, b1, b2, b3⟩ := g2 hne
  refine ⟨⟨rep, a1, a2, fun i l hi => ?_⟩, ⟨avg, b1, b2, fun i l hi => ?_⟩, ?_, fun ls hls => ?_⟩
  · rw [hshare]; exact a3 i l hi
  · rw [hmean]; exact b3 i l hi
  · simp only [shareOf, hshare]; exact k2 hne
  · obtain ⟨-, l2, -, -, first, rest, l5, l6, l7, -⟩ := k3 ls hls
    refine ⟨first, rest, l5, l2, ?_, ?_⟩
    · simp only [votesOf, hvotes]; exact l6
    · simp only [shareOf, hshare]; exact l7

/-- **C97** The labels of a column are about the cells the other parts are about: of each batch all non-null cells looked at, or as
many as the maximum allows.  Shares, mean confidences and the label are those of these values, whatever the batches and merges. -/
theorem C97_labels (hset : ∀ l, (w.setOrder l).Perm l) (hL : Works L n) (h : History) (hs : Sensible h) (hf : Fed h)
    (hb : Balanced w.isNull h) :
    ∃ c cs ys, runLabel w L h = .ok (some c) ∧ Looked w.isNull h cs ∧ ys.Subperm (cs.filter fun x => !w.isNull x) ∧
      (ys = [] ↔ (cs.filter fun x => !w.isNull x) = []) ∧ (Within n h → ys.Perm (cs.filter fun x => !w.isNull x)) ∧
      c.sampleSize = ys.length ∧
      (ys = [] → Labels.representation L.labels c = none ∧ Labels.average L.labels c = none ∧ Labels.dataLabel L.labels c = none) ∧
      (ys ≠ [] → Tells L ys c) := by
  obtain ⟨cs, ys, hl, r1, r2, r3, r4, r5, r6, r7, -⟩ := parts hset hL h hs
  have hm := r6.2 hb
  obtain ⟨c, c1, c2, c3⟩ := r7 hm
  obtain ⟨c, rfl⟩ := Option.isSome_iff_exists.1 (c2.2 hf)
  rw [Option.getD_some] at c3
  have hv : Valid L.labels hl := by
    intro row hr
    rw [r2] at hr
    obtain ⟨x, -, rfl⟩ := List.mem_map.1 hr
    exact hL.conf x
  obtain ⟨d, e1, e2⟩ := (LabelsProps.run_inv (pick := L.pick) hL.order hL.labels hl hv).1 hm
  rw [c3] at e1; cases e1
  obtain ⟨t1, t2⟩ := tells_of hL c3 r2 hv hm
  exact ⟨c, cs, ys, c1, r1, r3, r4, r5, by rw [e2.size, r2, List.length_map], t1, t2⟩

/-- **C97** is false of labels when a column that had only nulls is merged with one that had values: this raises. -/
theorem C97_labels_fails (hset : ∀ l, (w.setOrder l).Perm l) (hL : Works L n) (h : History) (hs : Sensible h)
    (hb : ¬ Balanced w.isNull h) : runLabel w L h = .error .typeError := by
  obtain ⟨cs, ys, hl, -, -, -, -, -, r6, -, r8⟩ := parts hset hL h hs
  exact r8 fun hm => hb (r6.1 hm)

/-! ### Cases -/

/-- Two labels; the text "1" is surely the first of them. -/
def demoLabeler : Labeler := ⟨["A", "B"], List.reverse, LabelsProps.firstMax, fun x => if x = "1" then [3 / 4, 1 / 4] else [1 / 2, 1 / 2], List.take 2⟩

theorem demo_works : Works demoLabeler 2 := by
  refine ⟨by decide, by decide, fun l => List.reverse_perm l, LabelsProps.firstMax_picks, fun x => ?_, by decide, fun l => ?_⟩
  · by_cases h : x = "1" <;> simp [demoLabeler, h]
  · exact ⟨(List.take_sublist _ l).subperm, by simp [demoLabeler, min_comm]⟩

open Props.Column in
/-- A column of nulls. -/
def nulls : History := .update (.new demoOpts) ⟨⟨[(0, ""), (1, "null")], 2, 0, false, [[0, 1]]⟩, List.take 50⟩

open Props.Column in
/-- The history of `Props/Column` is balanced, and is not any more when merged with a column of nulls. -/
theorem demo_balanced : Balanced demoWorld.isNull demo ∧ Sensible (.merge demo nulls) ∧ ¬ Balanced demoWorld.isNull (.merge demo nulls) := by
  have hv : ∀ k, (demoOpts.calcs k).valid = true := fun _ => rfl
  have of_holds : ∀ h, Spec.ColumnHist.Holds demoWorld.isNull demoWorld.number .int h → Valued demoWorld.isNull h := by
    rintro h ⟨cs, l, hne⟩
    refine ⟨cs, l, ?_⟩
    by_contra hc
    apply hne
    have : (cs.filter fun x => !demoWorld.isNull x) = [] := by
      rw [List.filter_eq_nil_iff]
      intro x hx hn
      exact hc ⟨x, hx, by simpa using hn⟩
    rw [this]; rfl
  have hd := ColumnHist.demo_straight
  have hmm := hd.2
  have l1 := Looked.update (isNull := demoWorld.isNull) (k := 1)
    (b := ⟨⟨[(0, "null"), (1, "1")], 2, 0, true, [[1, 0]]⟩, List.take 50⟩)
    (Looked.update (k := 1) (b := ⟨⟨[(0, "1"), (1, ""), (2, "5")], 3, 0, false, [[2, 0, 1]]⟩, List.take 50⟩) (Looked.new demoOpts)
      ⟨by decide, by decide, .inl rfl, fun j _ _ => by omega⟩) ⟨by decide, by decide, .inl rfl, fun j _ _ => by omega⟩
  have l2 := Looked.update (isNull := demoWorld.isNull) (k := 1)
    (b := ⟨⟨[(7, "-2"), (8, "1")], 2, 5, true, [[0, 1]]⟩, List.take 50⟩) (Looked.new demoOpts)
    ⟨by decide, by decide, .inl rfl, fun j _ _ => by omega⟩
  have l3 : Looked demoWorld.isNull nulls _ := Looked.update (isNull := demoWorld.isNull) (k := 1)
    (b := ⟨⟨[(0, ""), (1, "null")], 2, 0, false, [[0, 1]]⟩, List.take 50⟩) (Looked.new demoOpts)
    ⟨by decide, by decide, .inl rfl, fun j _ _ => by omega⟩
  have v1 : Valued demoWorld.isNull _ := ⟨_, l1, "1", by decide, by decide⟩
  have v2 : Valued demoWorld.isNull _ := ⟨_, l2, "1", by decide, by decide⟩
  refine ⟨⟨trivial, trivial, fun _ => v2, fun _ => v1⟩, ⟨demo_fits.1, ⟨hv, ⟨by decide, by decide, by decide, by decide, by decide⟩,
    by decide⟩, demo_fits.2.1, trivial⟩, fun hb => ?_⟩
  obtain ⟨cs, l, x, hx, hn⟩ := hb.2.2.1 (of_holds _ hmm)
  obtain rfl := looked_unique l l3
  have : x = "" ∨ x = "null" := by revert hx; simp [NullsSpec.firstRows, NullsSpec.cellsAt]
  rcases this with rfl | rfl <;> exact absurd hn (by decide)

open Props.Column in
example : (∃ c, runLabel demoWorld demoLabeler demo = .ok (some c)) ∧
    runLabel demoWorld demoLabeler (.merge demo nulls) = .error .typeError := by
  obtain ⟨c, -, -, h, -⟩ := C97_labels (fun l => List.reverse_perm l) demo_works demo demo_fits.1 demo_fits.2.1 demo_balanced.1
  exact ⟨⟨c, h⟩, C97_labels_fails (fun l => List.reverse_perm l) demo_works _ demo_balanced.2.1 demo_balanced.2.2⟩

end Verif.Props.ColumnLabel
