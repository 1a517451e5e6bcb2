import Verif.Lemmas.HistogramMad
import Verif.Lemmas.HistogramMode

namespace Verif.Histogram

open Verif Verif.HistSpec

theorem segMass_full (cs es : List ℚ) (hs : es.Pairwise (· < ·)) (hlen : es.length = cs.length + 1) (x : ℚ)
    (h : ∀ e ∈ es, e ≤ x) : segMass cs es x = cs.sum := by
  induction cs generalizing es with
  | nil => simp [segMass]
  | cons c cs ih =>
    match es, hlen with
    | [], h => simp at h
    | [_], h => simp at h
    | e0 :: e1 :: es, hlen =>
      have h01 : e0 < e1 := (List.pairwise_cons.1 hs).1 e1 (by simp)
      rw [segMass, ih (e1 :: es) (List.pairwise_cons.1 hs).2 (by simpa using hlen)
        (fun e he => h e (List.mem_cons_of_mem _ he)), List.sum_cons,
        min_eq_left (h e1 (by simp)), max_eq_right (by linarith), mul_div_assoc,
        div_self (by linarith : e1 - e0 ≠ 0), mul_one]

theorem massWithin_shift (cs es : List ℚ) (t m x : ℚ) :
    massWithin (cs.map (· / t)) (es.map (· - m)) (-x) x = massWithin cs es (m - x) (m + x) / t := by
  induction cs generalizing es with
  | nil => simp [massWithin_nil]
  | cons c cs ih =>
    match es with
    | [] => simp [massWithin]
    | [_] => simp [massWithin]
    | e0 :: e1 :: es =>
      have := ih (e1 :: es)
      simp only [List.map_cons] at this ⊢
      rw [massWithin_cons, massWithin_cons, this, add_div]
      congr 1
      have h1 : overlap (e0 - m) (e1 - m) (-x) x = overlap e0 e1 (m - x) (m + x) := by
        unfold overlap
        have a1 : min (e1 - m) x = min e1 (m + x) - m := by
          rcases le_total e1 (m + x) with h | h
          · rw [min_eq_left h, min_eq_left (by linarith)]
          · rw [min_eq_right h, min_eq_right (by linarith)]; ring
        have a2 : max (e0 - m) (-x) = max e0 (m - x) - m := by
          rcases le_total e0 (m - x) with h | h
          · rw [max_eq_right h, max_eq_right (by linarith)]; ring
          · rw [max_eq_left h, max_eq_left (by linarith)]
        rw [a1, a2]; congr 1; ring
      rw [h1]
      have : e1 - m - (e0 - m) = e1 - e0 := by ring
      rw [this]; ring

/-- What the two folds look like when the break point is inside. -/
structure GoodFold (f : Folds) (nc es : List ℚ) (w : ℚ) : Prop where
  wpos : 0 < w
  pos : ∃ p k, 0 < p ∧ p ≤ w ∧ f.posEdges = 0 :: AP p w (k + 1)
  neg : ∃ q k, 0 < q ∧ q ≤ w ∧ f.negEdges = 0 :: AP q w (k + 1)
  posLen : f.posEdges.length = f.posCounts.length + 1
  negLen : f.negEdges.length = f.negCounts.length + 1
  posNonneg : ∀ c ∈ f.posCounts, 0 ≤ c
  negNonneg : ∀ c ∈ f.negCounts, 0 ≤ c
  total : f.posCounts.sum + f.negCounts.sum = nc.sum
  mass : ∀ x, 0 ≤ x → segMass f.posCounts f.posEdges x + segMass f.negCounts f.negEdges x =
    massWithin nc es (-x) x
  edges : ∀ x, (x ∈ f.posEdges ∨ x ∈ f.negEdges) ↔ (x = 0 ∨ (∃ e ∈ es, x = |e|))

theorem AP_mem (s w : ℚ) (k : ℕ) (x : ℚ) : x ∈ AP s w k ↔ ∃ i : ℕ, i < k ∧ x = s + i * w := by
  simp only [AP, List.mem_map, List.mem_range]
  constructor
  · rintro ⟨i, h1, h2⟩; exact ⟨i, h1, h2.symm⟩
  · rintro ⟨i, h1, h2⟩; exact ⟨i, h1, h2.symm⟩

theorem foldAt_good (nc : List ℚ) (a w : ℚ) (n z : ℕ) (hw : 0 < w) (hnc : nc.length = n)
    (hnn : ∀ c ∈ nc, 0 ≤ c) (hz : 2 ≤ z) (hzn : z ≤ n) (hp : 0 < a + z * w)
    (hq : a + (z - 1 : ℚ) * w ≤ 0) :
    GoodFold (foldAt nc (AP a w (n + 1)) z) nc (AP a w (n + 1)) w := by
  set ez := a + (z : ℚ) * w with hez
  set ep := a + (z - 1 : ℚ) * w with hep
  have hzc : ((z - 1 : ℕ) : ℚ) = (z : ℚ) - 1 := by rw [Nat.cast_sub (by omega)]; simp
  have hwez : ez - ep = w := by rw [hez, hep]; ring
  have hgz : (AP a w (n + 1)).getD z 0 = ez := by
    rw [List.getD, AP_get a w (n + 1) z (by omega)]; rfl
  have hgp : (AP a w (n + 1)).getD (z - 1) 0 = ep := by
    rw [List.getD, AP_get a w (n + 1) (z - 1) (by omega)]; simp [hep, hzc]
  have hz1 : z - 1 < nc.length := by omega
  set CL := nc.take (z - 1) with hCL
  set CR := nc.drop z with hCR
  set cz := nc[z - 1] with hcz
  have hgc : nc.getD (z - 1) 0 = cz := by
    rw [List.getD, List.getElem?_eq_getElem hz1]; rfl
  have hsplit : nc = CL ++ cz :: CR := by
    have h1 := (List.take_append_drop (z - 1) nc).symm
    rw [List.drop_eq_getElem_cons hz1] at h1
    have : z - 1 + 1 = z := by omega
    rw [this] at h1
    exact h1
  have hCLl : CL.length = z - 1 := by rw [hCL, List.length_take]; omega
  have hCRl : CR.length = n - z := by rw [hCR, List.length_drop, hnc]
  have hczn : 0 ≤ cz := hnn _ (List.getElem_mem hz1)
  have hCLn : ∀ c ∈ CL, 0 ≤ c := fun c hc => hnn c (List.mem_of_mem_take hc)
  have hCRn : ∀ c ∈ CR, 0 ≤ c := fun c hc => hnn c (List.mem_of_mem_drop hc)
  have hwne : w ≠ 0 := hw.ne'
  set pp := cz * (ez / (ez - ep)) with hpp
  have hpp' : pp = cz * ez / w := by rw [hpp, hwez]; ring
  have hpp0 : 0 ≤ pp := by rw [hpp']; positivity
  have hqq : cz - pp = cz * (-ep) / w := by
    rw [hpp']; have : ep = ez - w := by linarith
    rw [this]; field_simp; ring
  have hqq0 : 0 ≤ cz - pp := by
    rw [hqq]; exact div_nonneg (mul_nonneg hczn (by linarith)) hw.le
  have hdrop : (AP a w (n + 1)).drop z = AP ez w (n - z + 1) := by
    rw [AP_drop]; congr 1; omega
  have htake : ((AP a w (n + 1)).take z).reverse.map (- ·) = AP (-ep) w z := by
    rw [AP_take _ _ _ _ (by omega), AP_reverse_neg]
  -- the edge list, split at the break point
  have hes : AP a w (n + 1) = AP a w (z - 1) ++ ep :: AP ez w (n - z + 1) := by
    have h1 := (List.take_append_drop (z - 1) (AP a w (n + 1))).symm
    rw [AP_take _ _ _ _ (by omega), AP_drop] at h1
    have h2 : n + 1 - (z - 1) = (n - z + 1) + 1 := by omega
    rw [h2, AP_succ (a + _), hzc] at h1
    rw [h1]
    congr 3
    rw [hez]; ring
  have hmass : ∀ x, 0 ≤ x → massWithin nc (AP a w (n + 1)) (-x) x =
      segMass CL.reverse (-ep :: (AP a w (z - 1)).reverse.map (- ·)) x +
      (cz * (min ez x + min (-ep) x) / w) + segMass CR (AP ez w (n - z + 1)) x := by
    intro x hx
    rw [hes, hsplit, massWithin_append CL (cz :: CR) (AP a w (z - 1)) ep _ (by rw [hCLl, AP_length])]
    rw [massWithin_left CL (AP a w (z - 1)) ep (by rw [hCLl, AP_length]) x hx]
    · rw [AP_succ, massWithin_cons, massWithin_right]
      · rw [hwez]
        have : overlap ep ez (-x) x = min ez x + min (-ep) x := by
          unfold overlap
          have h1 : max ep (-x) = - min (-ep) x := by
            rcases le_total ep (-x) with h | h
            · rw [max_eq_right h, min_eq_right (by linarith)]
            · rw [max_eq_left h, min_eq_left (by linarith)]; ring
          rw [h1]
          have h2 : 0 ≤ min ez x := le_min hp.le hx
          have h3 : 0 ≤ min (-ep) x := le_min (by linarith) hx
          rw [max_eq_right (by linarith)]; ring
        rw [this]; ring
      · exact hx
      · intro e he
        rw [← AP_succ, AP_mem] at he
        obtain ⟨i, _, rfl⟩ := he
        positivity
    · intro y hy
      rcases List.mem_append.1 hy with hy | hy
      · rw [AP_mem] at hy
        obtain ⟨i, hi, rfl⟩ := hy
        have : (i : ℚ) ≤ z - 1 := by rw [← hzc]; exact_mod_cast (by omega : i ≤ z - 1)
        have := mul_le_mul_of_nonneg_right this hw.le
        linarith
      · simp only [List.mem_singleton] at hy; rw [hy]; exact hq
  have hrevneg : -ep :: (AP a w (z - 1)).reverse.map (- ·) = AP (-ep) w z := by
    rw [AP_reverse_neg]
    have : z = (z - 1) + 1 := by omega
    conv_rhs => rw [this, AP_succ]
    congr 2
    rw [hep, hzc]; ring
  have hposmass : ∀ x, 0 ≤ x → segMass (pp :: CR) (0 :: AP ez w (n - z + 1)) x =
      cz * min ez x / w + segMass CR (AP ez w (n - z + 1)) x := by
    intro x hx
    rw [AP_succ, segMass]
    have h2 : 0 ≤ min ez x := le_min hp.le hx
    rw [sub_zero, sub_zero, max_eq_right h2, hpp']
    have : ez ≠ 0 := hp.ne'
    congr 1
    field_simp
  have hpos : ∃ p k, 0 < p ∧ p ≤ w ∧ 0 :: AP ez w (n - z + 1) = 0 :: AP p w (k + 1) :=
    ⟨ez, n - z, hp, by linarith, rfl⟩
  have hedges_pos : ∀ x, x ∈ AP ez w (n - z + 1) → ∃ e ∈ AP a w (n + 1), x = |e| := by
    intro x hx
    refine ⟨x, ?_, ?_⟩
    · rw [hes]; simp [hx]
    · rw [AP_mem] at hx
      obtain ⟨i, _, rfl⟩ := hx
      rw [abs_of_nonneg]; positivity
  have hedges_neg : ∀ x, x ∈ AP (-ep) w z → ∃ e ∈ AP a w (n + 1), x = |e| := by
    intro x hx
    rw [← hrevneg] at hx
    have hle : ∀ y ∈ AP a w (z - 1) ++ [ep], y ≤ 0 := by
      intro y hy
      rcases List.mem_append.1 hy with hy | hy
      · rw [AP_mem] at hy
        obtain ⟨i, hi, rfl⟩ := hy
        have : (i : ℚ) ≤ z - 1 := by rw [← hzc]; exact_mod_cast (by omega : i ≤ z - 1)
        have := mul_le_mul_of_nonneg_right this hw.le
        linarith
      · simp only [List.mem_singleton] at hy; rw [hy]; exact hq
    rcases List.mem_cons.1 hx with rfl | hx
    · exact ⟨ep, by rw [hes]; simp, (abs_of_nonpos hq).symm⟩
    · simp only [List.mem_map, List.mem_reverse] at hx
      obtain ⟨y, hy, rfl⟩ := hx
      exact ⟨y, by rw [hes]; simp [hy], (abs_of_nonpos (hle y (by simp [hy]))).symm⟩
  have hedges_conv : ∀ e ∈ AP a w (n + 1), |e| ∈ AP ez w (n - z + 1) ∨ |e| ∈ AP (-ep) w z := by
    intro e he
    rw [hes] at he
    rcases List.mem_append.1 he with he | he
    · right
      rw [← hrevneg]
      have hle : e ≤ 0 := by
        rw [AP_mem] at he
        obtain ⟨i, hi, rfl⟩ := he
        have : (i : ℚ) ≤ z - 1 := by rw [← hzc]; exact_mod_cast (by omega : i ≤ z - 1)
        have := mul_le_mul_of_nonneg_right this hw.le
        linarith
      rw [abs_of_nonpos hle]
      apply List.mem_cons_of_mem
      simp only [List.mem_map, List.mem_reverse]
      exact ⟨e, he, rfl⟩
    · rcases List.mem_cons.1 he with rfl | he
      · right
        rw [← hrevneg, abs_of_nonpos hq]; simp
      · left
        rw [AP_mem] at he ⊢
        obtain ⟨i, hi, rfl⟩ := he
        refine ⟨i, hi, ?_⟩
        rw [abs_of_nonneg]; positivity
  have hcsum : nc.sum = CL.sum + cz + CR.sum := by
    rw [hsplit, List.sum_append, List.sum_cons]; ring
  have hCLrev : CL.reverse.sum = CL.sum := List.sum_reverse _
  unfold foldAt
  rw [hgz, hgp, hgc, hdrop, htake, ← hCL, ← hCR]
  simp only
  rw [← hpp]
  by_cases hzero : ep = 0
  · have hflag : (decide (1 < (0 :: AP (-ep) w z).length) &&
        decide ((0 :: AP (-ep) w z).getD 1 0 = 0)) = true := by
      have h1 : (0 :: AP (-ep) w z)[1]? = some (-ep) := by
        rw [List.getElem?_cons_succ, AP_get _ _ _ 0 (by omega)]; simp
      simp only [List.length_cons, AP_length, Bool.and_eq_true, decide_eq_true_eq]
      refine ⟨by omega, ?_⟩
      rw [List.getD, h1, hzero]; simp
    rw [hflag]
    simp only [if_true, List.tail_cons]
    have hppcz : cz - pp = 0 := by rw [hqq, hzero]; simp
    have hAPz : AP (-ep) w z = 0 :: AP w w (z - 2 + 1) := by
      have : z = (z - 2 + 1) + 1 := by omega
      conv_lhs => rw [this, AP_succ, hzero]
      simp
    refine ⟨hw, hpos, ⟨w, z - 2, hw, le_refl _, hAPz⟩, ?_, ?_, ?_, ?_, ?_, ?_, ?_⟩
    · simp [AP_length, hCRl]
    · simp only [AP_length, List.length_reverse, hCLl]; omega
    · intro c hc
      rcases List.mem_cons.1 hc with rfl | hc
      · exact hpp0
      · exact hCRn c hc
    · intro c hc
      exact hCLn c (List.mem_reverse.1 hc)
    · simp only [List.sum_cons]
      rw [hcsum, hCLrev]; linarith
    · intro x hx
      rw [hposmass x hx, hmass x hx, hrevneg, hzero]
      have : min (-0 : ℚ) x = 0 := by rw [neg_zero]; exact min_eq_left hx
      rw [this]; ring
    · intro x
      constructor
      · rintro (hx | hx)
        · rcases List.mem_cons.1 hx with rfl | hx
          · exact Or.inl rfl
          · exact Or.inr (hedges_pos x hx)
        · exact Or.inr (hedges_neg x hx)
      · rintro (rfl | ⟨e, he, rfl⟩)
        · left; simp
        · rcases hedges_conv e he with h | h
          · left; exact List.mem_cons_of_mem _ h
          · right; exact h
  · have hneg : 0 < -ep := by
      have := lt_of_le_of_ne hq hzero; linarith
    have hflag : (decide (1 < (0 :: AP (-ep) w z).length) &&
        decide ((0 :: AP (-ep) w z).getD 1 0 = 0)) = false := by
      have h1 : (0 :: AP (-ep) w z)[1]? = some (-ep) := by
        rw [List.getElem?_cons_succ, AP_get _ _ _ 0 (by omega)]; simp
      rw [Bool.and_eq_false_iff]
      right
      rw [List.getD, h1]
      simp [hzero]
    rw [hflag]
    simp only [Bool.false_eq_true, if_false]
    have hAPz : AP (-ep) w z = AP (-ep) w (z - 1 + 1) := by
      congr 1; omega
    refine ⟨hw, hpos, ⟨-ep, z - 1, hneg, by linarith, by rw [hAPz]⟩, ?_, ?_, ?_, ?_, ?_, ?_, ?_⟩
    · simp [AP_length, hCRl]
    · simp only [AP_length, List.length_reverse, hCLl, List.length_cons]; omega
    · intro c hc
      rcases List.mem_cons.1 hc with rfl | hc
      · exact hpp0
      · exact hCRn c hc
    · intro c hc
      rcases List.mem_cons.1 hc with rfl | hc
      · exact hqq0
      · exact hCLn c (List.mem_reverse.1 hc)
    · simp only [List.sum_cons]
      rw [hcsum, hCLrev]; linarith
    · intro x hx
      rw [hposmass x hx, hmass x hx]
      have hseg : segMass ((cz - pp) :: CL.reverse) (0 :: AP (-ep) w z) x =
          cz * min (-ep) x / w + segMass CL.reverse (AP (-ep) w z) x := by
        rw [hAPz, AP_succ, segMass]
        have h2 : 0 ≤ min (-ep) x := le_min hneg.le hx
        rw [sub_zero, sub_zero, max_eq_right h2, hqq]
        have : -ep ≠ 0 := hneg.ne'
        congr 1
        field_simp
      rw [hseg, hrevneg]; ring
    · intro x
      constructor
      · rintro (hx | hx)
        · rcases List.mem_cons.1 hx with rfl | hx
          · exact Or.inl rfl
          · exact Or.inr (hedges_pos x hx)
        · rcases List.mem_cons.1 hx with rfl | hx
          · exact Or.inl rfl
          · exact Or.inr (hedges_neg x hx)
      · rintro (rfl | ⟨e, he, rfl⟩)
        · left; simp
        · rcases hedges_conv e he with h | h
          · left; exact List.mem_cons_of_mem _ h
          · right; exact List.mem_cons_of_mem _ h

/-- The superimposed edges start at 0, are strictly increasing and come from the folds. -/
theorem imposed_spec (f : Folds) (nc es : List ℚ) (w : ℚ) (g : GoodFold f nc es w) :
    ∃ I, (0 :: I).Pairwise (· ≤ ·) ∧ (∀ x, x ∈ 0 :: I ↔ (x ∈ f.posEdges ∨ x ∈ f.negEdges)) ∧
      imposedEdges f = 0 :: keepRising 0 I := by
  obtain ⟨p, j, hp0, hpw, hP⟩ := g.pos
  obtain ⟨q, k, hq0, hqw, hN⟩ := g.neg
  have hgp : f.posEdges.getD 1 0 = p := by
    rw [hP, List.getD, List.getElem?_cons_succ, AP_get _ _ _ 0 (by omega)]; simp
  have hgq : f.negEdges.getD 1 0 = q := by
    rw [hN, List.getD, List.getElem?_cons_succ, AP_get _ _ _ 0 (by omega)]; simp
  unfold imposedEdges
  rw [hgp, hgq, hP, hN]
  by_cases h : q < p
  · obtain ⟨s1, s2⟩ := interleave_AP_sorted q p w (k + 1) (j + 1) g.wpos h.le (by linarith)
    refine ⟨interleave (AP q w (k + 1)) (AP p w (j + 1)), ?_, ?_, ?_⟩
    · refine List.pairwise_cons.2 ⟨?_, s1⟩
      intro x hx; have := s2 x hx; linarith
    · intro x
      simp only [List.mem_cons, interleave_mem]; tauto
    · rw [if_pos h, interleave, List.tail_cons]
  · obtain ⟨s1, s2⟩ := interleave_AP_sorted p q w (j + 1) (k + 1) g.wpos (by linarith) (by linarith)
    refine ⟨interleave (AP p w (j + 1)) (AP q w (k + 1)), ?_, ?_, ?_⟩
    · refine List.pairwise_cons.2 ⟨?_, s1⟩
      intro x hx; have := s2 x hx; linarith
    · intro x
      simp only [List.mem_cons, interleave_mem]; tauto
    · rw [if_neg h, interleave, List.tail_cons]

theorem zip_map_rising (F : ℚ → ℚ) (hF : ∀ x y, 0 ≤ x → x ≤ y → F x ≤ F y) (l : List ℚ)
    (hs : l.Pairwise (· < ·)) (h0 : ∀ x ∈ l, 0 ≤ x) : Rising ((l.map F).zip l) := by
  induction l with
  | nil => simp [Rising]
  | cons a l ih =>
    simp only [List.map_cons, List.zip_cons_cons]
    refine List.pairwise_cons.2 ⟨?_, ih (List.pairwise_cons.1 hs).2 fun x hx => h0 x (List.mem_cons_of_mem _ hx)⟩
    intro p hp
    obtain ⟨hp1, hp2⟩ := List.of_mem_zip hp
    have hlt := (List.pairwise_cons.1 hs).1 p.2 hp2
    refine ⟨?_, hlt.le⟩
    have : p.1 = F p.2 := by
      obtain ⟨i, hi⟩ := List.getElem?_of_mem hp
      rw [List.getElem?_zip_eq_some, List.getElem?_map] at hi
      rw [hi.2] at hi
      simpa using hi.1.symm
    rw [this]
    exact hF a p.2 (h0 a (by simp)) hlt.le

theorem interp_mem_range (F : ℚ → ℚ) (hF : ∀ x y, 0 ≤ x → x ≤ y → F x ≤ F y) (a : ℚ) (l : List ℚ)
    (hs : (a :: l).Pairwise (· < ·)) (h0 : ∀ x ∈ a :: l, 0 ≤ x) (b y : ℚ) (hb : ∀ x ∈ a :: l, x ≤ b) :
    a ≤ interp (((a :: l).map F).zip (a :: l)) y ∧ interp (((a :: l).map F).zip (a :: l)) y ≤ b := by
  have hr := zip_map_rising F hF (a :: l) hs h0
  constructor
  · simp only [List.map_cons, List.zip_cons_cons] at hr ⊢
    exact interp_ge_head _ _ hr y
  · have hne : ((a :: l).map F).zip (a :: l) ≠ [] := by simp
    refine le_trans (interp_le_last _ hr _ (List.getLast?_eq_some_getLast hne) y) ?_
    apply hb
    exact (List.of_mem_zip (List.getLast_mem hne)).2

/-- The half of `medianAbsDev` after the folds. -/
def madOfFolds (f : Folds) : ℚ :=
  let es := imposedEdges f
  let mass := es.map fun x => foldMass f.posCounts f.posEdges x + foldMass f.negCounts f.negEdges x
  let half := ((mass.zip es).filter fun p => decide (|p.1 - 1 / 2| < halfTol)).map Prod.snd
  if 1 < half.length then half.sum / half.length
  else interp (mass.zip es) (1 / 2)

theorem AP_cons_sorted (p w : ℚ) (k : ℕ) (hp : 0 < p) (hw : 0 < w) :
    (0 :: AP p w k).Pairwise (· < ·) := by
  refine List.pairwise_cons.2 ⟨?_, AP_sorted p w k hw⟩
  intro x hx
  rw [AP_mem] at hx
  obtain ⟨i, _, rfl⟩ := hx
  positivity

theorem foldMass_eq (cs es : List ℚ) (p w : ℚ) (k : ℕ) (hes : es = 0 :: AP p w k) (hp : 0 < p) (hw : 0 < w)
    (hlen : es.length = cs.length + 1) (x : ℚ) (hx : 0 ≤ x) : foldMass cs es x = segMass cs es x := by
  unfold foldMass
  rw [interp_cum 0 cs es (by rw [hes]; exact AP_cons_sorted p w k hp hw) hlen x (by
    intro e he; rw [hes] at he; simp only [List.head?_cons, Option.some.injEq] at he; rw [← he]; exact hx)]
  simp

theorem madOfFolds_range (f : Folds) (nc es : List ℚ) (w : ℚ) (g : GoodFold f nc es w) (b : ℚ) (hb : 0 ≤ b)
    (hbound : ∀ e ∈ es, |e| ≤ b) : 0 ≤ madOfFolds f ∧ madOfFolds f ≤ b := by
  obtain ⟨p, j, hp0, hpw, hP⟩ := g.pos
  obtain ⟨q, k, hq0, hqw, hN⟩ := g.neg
  obtain ⟨I, hI1, hI2, hI3⟩ := imposed_spec f nc es w g
  have hsorted := keepRising_sorted 0 I hI1
  have hrange : ∀ x ∈ 0 :: keepRising 0 I, 0 ≤ x ∧ x ≤ b := by
    intro x hx
    have hx' : x ∈ 0 :: I := by
      rcases List.mem_cons.1 hx with rfl | hx
      · simp
      · exact List.mem_cons_of_mem _ (keepRising_mem 0 I x hx)
    constructor
    · rcases List.mem_cons.1 hx' with rfl | h
      · exact le_refl _
      · exact (List.pairwise_cons.1 hI1).1 x h
    · rcases (g.edges x).1 ((hI2 x).1 hx') with rfl | ⟨e, he, rfl⟩
      · exact hb
      · exact hbound e he
  have hmono : ∀ x y, 0 ≤ x → x ≤ y →
      foldMass f.posCounts f.posEdges x + foldMass f.negCounts f.negEdges x ≤
      foldMass f.posCounts f.posEdges y + foldMass f.negCounts f.negEdges y := by
    intro x y hx hxy
    rw [foldMass_eq _ _ p w _ hP hp0 g.wpos g.posLen x hx, foldMass_eq _ _ q w _ hN hq0 g.wpos g.negLen x hx,
      foldMass_eq _ _ p w _ hP hp0 g.wpos g.posLen y (by linarith),
      foldMass_eq _ _ q w _ hN hq0 g.wpos g.negLen y (by linarith)]
    have h1 := segMass_mono f.posCounts f.posEdges g.posNonneg
      (by rw [hP]; exact AP_cons_sorted p w _ hp0 g.wpos) x y hxy
    have h2 := segMass_mono f.negCounts f.negEdges g.negNonneg
      (by rw [hN]; exact AP_cons_sorted q w _ hq0 g.wpos) x y hxy
    linarith
  unfold madOfFolds
  rw [hI3]
  simp only
  split_ifs with hl
  · have hmem : ∀ x ∈ ((((0 :: keepRising 0 I).map fun x =>
        foldMass f.posCounts f.posEdges x + foldMass f.negCounts f.negEdges x).zip (0 :: keepRising 0 I)).filter
          fun p => decide (|p.1 - 1 / 2| < halfTol)).map Prod.snd, x ∈ 0 :: keepRising 0 I := by
      intro x hx
      obtain ⟨p, hp, rfl⟩ := List.mem_map.1 hx
      exact (List.of_mem_zip (List.mem_filter.1 hp).1).2
    constructor
    · exact le_avg _ (by omega) _ fun x hx => (hrange x (hmem x hx)).1
    · exact avg_le _ (by omega) _ fun x hx => (hrange x (hmem x hx)).2
  · exact interp_mem_range (fun x => foldMass f.posCounts f.posEdges x + foldMass f.negCounts f.negEdges x)
      hmono 0 (keepRising 0 I) hsorted (fun x hx => (hrange x hx).1) b (1 / 2) fun x hx => (hrange x hx).2

theorem madOfFolds_half (f : Folds) (nc es : List ℚ) (w : ℚ) (g : GoodFold f nc es w) (hsum : nc.sum = 1)
    (hsep : ∀ x, (x = 0 ∨ ∃ e ∈ es, x = |e|) → ∀ y, (y = 0 ∨ ∃ e ∈ es, y = |e|) → x < y →
      1 / 10 ^ 14 < y - x) :
    |massWithin nc es (-madOfFolds f) (madOfFolds f) - 1 / 2| < halfTol := by
  obtain ⟨p, j, hp0, hpw, hP⟩ := g.pos
  obtain ⟨q, k, hq0, hqw, hN⟩ := g.neg
  obtain ⟨I, hI1, hI2, hI3⟩ := imposed_spec f nc es w g
  have hsorted := keepRising_sorted 0 I hI1
  have hPs : f.posEdges.Pairwise (· < ·) := by rw [hP]; exact AP_cons_sorted p w _ hp0 g.wpos
  have hNs : f.negEdges.Pairwise (· < ·) := by rw [hN]; exact AP_cons_sorted q w _ hq0 g.wpos
  set F : ℚ → ℚ := fun x => segMass f.posCounts f.posEdges x + segMass f.negCounts f.negEdges x with hF
  have hFm : ∀ x y, x ≤ y → F x ≤ F y := by
    intro x y hxy
    have h1 := segMass_mono f.posCounts f.posEdges g.posNonneg hPs x y hxy
    have h2 := segMass_mono f.negCounts f.negEdges g.negNonneg hNs x y hxy
    simp only [hF]; linarith
  have hsub : ∀ x ∈ 0 :: keepRising 0 I, x ∈ 0 :: I := by
    intro x hx
    rcases List.mem_cons.1 hx with rfl | hx
    · simp
    · exact List.mem_cons_of_mem _ (keepRising_mem 0 I x hx)
  have hsup : ∀ x ∈ 0 :: I, x ∈ 0 :: keepRising 0 I := by
    intro x hx
    rcases List.mem_cons.1 hx with rfl | hx
    · simp
    · refine keepRising_complete 0 I hI1 ?_ x hx
      intro a ha b hb hab
      exact hsep a ((g.edges a).1 ((hI2 a).1 ha)) b ((g.edges b).1 ((hI2 b).1 hb)) hab
  have hnn : ∀ x ∈ 0 :: keepRising 0 I, 0 ≤ x := by
    intro x hx
    rcases List.mem_cons.1 (hsub x hx) with rfl | h
    · exact le_refl _
    · exact (List.pairwise_cons.1 hI1).1 x h
  have hmassEq : (imposedEdges f).map (fun x => foldMass f.posCounts f.posEdges x +
      foldMass f.negCounts f.negEdges x) = (0 :: keepRising 0 I).map F := by
    rw [hI3]
    apply List.map_congr_left
    intro x hx
    rw [foldMass_eq _ _ p w _ hP hp0 g.wpos g.posLen x (hnn x hx),
      foldMass_eq _ _ q w _ hN hq0 g.wpos g.negLen x (hnn x hx)]
  have htol : (0 : ℚ) < halfTol := by norm_num [halfTol]
  have goal : ∀ x, 0 ≤ x → |F x - 1 / 2| < halfTol → |massWithin nc es (-x) x - 1 / 2| < halfTol := by
    intro x hx h
    rw [← g.mass x hx]; exact h
  have hlin : ∀ u v t, u ∈ 0 :: keepRising 0 I → v ∈ 0 :: keepRising 0 I →
      (∀ e ∈ 0 :: keepRising 0 I, e ≤ u ∨ v ≤ e) → u ≤ t → t ≤ v → u < v →
      F t = F u + (F v - F u) / (v - u) * (t - u) := by
    intro u v t _ _ hno hut htv huv
    have h1 := segMass_linear f.posCounts f.posEdges hPs u v t
      (fun e he => hno e (hsup e ((hI2 e).2 (Or.inl he)))) hut htv huv
    have h2 := segMass_linear f.negCounts f.negEdges hNs u v t
      (fun e he => hno e (hsup e ((hI2 e).2 (Or.inr he)))) hut htv huv
    simp only [hF]
    rw [h1, h2]; ring
  have hF0 : F 0 = 0 := by
    simp only [hF]
    rw [segMass_zero, segMass_zero, add_zero]
    · intro e he
      rcases List.mem_cons.1 ((hI2 e).2 (Or.inr he)) with rfl | h
      · exact le_refl _
      · exact (List.pairwise_cons.1 hI1).1 e h
    · intro e he
      rcases List.mem_cons.1 ((hI2 e).2 (Or.inl he)) with rfl | h
      · exact le_refl _
      · exact (List.pairwise_cons.1 hI1).1 e h
  have hlast : ∀ b, (0 :: keepRising 0 I).getLast? = some b → F b = 1 := by
    intro b hb
    have hall : ∀ e ∈ 0 :: keepRising 0 I, e ≤ b := by
      intro e he
      have hne : (0 :: keepRising 0 I) ≠ [] := by simp
      rw [List.getLast?_eq_some_getLast hne, Option.some.injEq] at hb
      obtain ⟨i, hi, rfl⟩ := List.getElem_of_mem he
      rw [← hb, List.getLast_eq_getElem]
      rcases Nat.lt_or_ge i ((0 :: keepRising 0 I).length - 1) with hlt | hge
      · exact (List.pairwise_iff_getElem.1 hsorted i _ hi (by omega) hlt).le
      · have : i = (0 :: keepRising 0 I).length - 1 := by omega
        subst this; exact le_refl _
    simp only [hF]
    rw [segMass_full _ _ hPs g.posLen b fun e he => hall e (hsup e ((hI2 e).2 (Or.inl he))),
      segMass_full _ _ hNs g.negLen b fun e he => hall e (hsup e ((hI2 e).2 (Or.inr he))), g.total, hsum]
  have hmad : madOfFolds f = if 1 < (((((0 :: keepRising 0 I).map F).zip (0 :: keepRising 0 I)).filter
      fun p => decide (|p.1 - 1 / 2| < halfTol)).map Prod.snd).length
      then (((((0 :: keepRising 0 I).map F).zip (0 :: keepRising 0 I)).filter
        fun p => decide (|p.1 - 1 / 2| < halfTol)).map Prod.snd).sum /
        (((((0 :: keepRising 0 I).map F).zip (0 :: keepRising 0 I)).filter
        fun p => decide (|p.1 - 1 / 2| < halfTol)).map Prod.snd).length
      else interp (((0 :: keepRising 0 I).map F).zip (0 :: keepRising 0 I)) (1 / 2) := by
    unfold madOfFolds
    simp only
    rw [hmassEq, hI3]
  rw [hmad]
  set half := ((((0 :: keepRising 0 I).map F).zip (0 :: keepRising 0 I)).filter
    fun p => decide (|p.1 - 1 / 2| < halfTol)).map Prod.snd with hhalf
  have hhm : ∀ x ∈ half, 0 ≤ x ∧ |F x - 1 / 2| < halfTol := by
    intro x hx
    obtain ⟨p, hp, rfl⟩ := List.mem_map.1 hx
    obtain ⟨hp1, hp2⟩ := List.mem_filter.1 hp
    obtain ⟨i, hi⟩ := List.getElem?_of_mem hp1
    rw [List.getElem?_zip_eq_some, List.getElem?_map] at hi
    rw [hi.2] at hi
    have hpF : F p.2 = p.1 := by simpa using hi.1
    refine ⟨hnn _ (List.of_mem_zip hp1).2, ?_⟩
    rw [hpF]; simpa using hp2
  split_ifs with hl
  · obtain ⟨u, hu, hule⟩ := exists_le_avg half (by omega)
    obtain ⟨v, hv, hvle⟩ := exists_ge_avg half (by omega)
    have hu' := hhm u hu
    have hv' := hhm v hv
    refine goal _ (le_trans hu'.1 hule) ?_
    have a1 := hFm _ _ hule
    have a2 := hFm _ _ hvle
    rw [abs_lt] at hu' hv' ⊢
    constructor <;> linarith [hu'.2.1, hu'.2.2, hv'.2.1, hv'.2.2]
  · have hne : (0 :: keepRising 0 I) ≠ [] := by simp
    have hb := List.getLast?_eq_some_getLast hne
    have hinv := interp_inverse F 0 (keepRising 0 I) hsorted hlin _ (1 / 2) hb (by rw [hF0]; norm_num)
      (by rw [hlast _ hb]; norm_num)
    have hr := (interp_mem_range F (fun x y _ h => hFm x y h) 0 (keepRising 0 I) hsorted hnn _ (1 / 2)
      (fun x hx => by
        have hall : x ≤ (0 :: keepRising 0 I).getLast hne := by
          obtain ⟨i, hi, rfl⟩ := List.getElem_of_mem hx
          rw [List.getLast_eq_getElem]
          rcases Nat.lt_or_ge i ((0 :: keepRising 0 I).length - 1) with hlt | hge
          · exact (List.pairwise_iff_getElem.1 hsorted i _ hi (by omega) hlt).le
          · have : i = (0 :: keepRising 0 I).length - 1 := by omega
            subst this; exact le_refl _
        exact hall)).1
    refine goal _ hr ?_
    rw [hinv]; simpa using htol

/-! ## The break point -/

theorem firstPositive_some (es : List ℚ) (z : ℕ) (h : firstPositive es = some z) :
    ∃ e, es[z]? = some e ∧ 0 < e ∧ ∀ j x, j < z → es[j]? = some x → x ≤ 0 := by
  unfold firstPositive at h
  rw [List.findIdx?_eq_some_iff_getElem] at h
  obtain ⟨hz, h1, h2⟩ := h
  refine ⟨es[z], List.getElem?_eq_getElem hz, by simpa using h1, ?_⟩
  intro j x hj hx
  have hjl : j < es.length := by omega
  have := h2 j hj
  rw [List.getElem?_eq_getElem hjl] at hx
  simp only [Option.some.injEq] at hx
  subst hx
  simpa using this

theorem firstPositive_none (es : List ℚ) (h : firstPositive es = none) : ∀ x ∈ es, x ≤ 0 := by
  unfold firstPositive at h
  rw [List.findIdx?_eq_none_iff] at h
  intro x hx
  simpa using h x hx

/-- `foldHistogram` with the search result as an argument. -/
def foldsOf (nc es : List ℚ) : Option ℕ → Folds
  | none => ⟨[], [], nc, es⟩
  | some 1 => ⟨nc, es, [], []⟩
  | some z => foldAt nc es z

/-- The possible shapes of the result. -/
theorem mad_cases (counts : List ℚ) (lo hi m : ℚ) (n : ℕ) (hn : 0 < n) (hlen : counts.length = n)
    (hc : ∀ c ∈ counts, 0 ≤ c) (ht : 0 < counts.sum) (hlt : lo < hi) (h1 : lo ≤ m) (h2 : m ≤ hi) :
    (medianAbsDev counts (linspace lo hi n) m = 0 ∧ (m = hi ∨ m < lo + (hi - lo) / n)) ∨
    (lo + (hi - lo) / n ≤ m ∧ m < hi ∧
      ∃ f, GoodFold f (counts.map (· / counts.sum)) ((linspace lo hi n).map (· - m)) ((hi - lo) / n) ∧
        medianAbsDev counts (linspace lo hi n) m = madOfFolds f) := by
  have hnq : (0 : ℚ) < n := by exact_mod_cast hn
  have hw : 0 < (hi - lo) / n := div_pos (by linarith) hnq
  have hend : lo + n * ((hi - lo) / n) = hi := by field_simp; ring
  set w := (hi - lo) / n with hwdef
  have hsh := linspace_shift lo hi m n
  rw [← hwdef] at hsh
  have heq : ∀ es, (linspace lo hi n).map (· - m) = es →
      medianAbsDev counts (linspace lo hi n) m =
        if (foldsOf (counts.map (· / counts.sum)) es (firstPositive es)).posCounts.isEmpty ||
          (foldsOf (counts.map (· / counts.sum)) es (firstPositive es)).negCounts.isEmpty then 0
        else madOfFolds (foldsOf (counts.map (· / counts.sum)) es (firstPositive es)) := by
    rintro es rfl; rfl
  rw [heq _ hsh, hsh]
  cases hfp : firstPositive (AP (lo - m) w (n + 1)) with
  | none =>
    left
    simp only [foldsOf, List.isEmpty_nil, Bool.true_or, if_true, true_and]
    left
    have := firstPositive_none _ hfp (lo - m + n * w) (by
      rw [AP_mem]; exact ⟨n, by omega, rfl⟩)
    linarith
  | some z =>
    obtain ⟨e, he, hepos, hbefore⟩ := firstPositive_some _ z hfp
    have hzn : z < n + 1 := by
      have := (List.getElem?_eq_some_iff.1 he).1
      rwa [AP_length] at this
    rw [AP_get _ _ _ z hzn] at he
    simp only [Option.some.injEq] at he
    match z, hfp, hepos, hbefore, hzn, he with
    | 0, _, hepos, _, _, he =>
      exfalso
      simp only [Nat.cast_zero, zero_mul, add_zero] at he
      linarith
    | 1, _, hepos, _, _, he =>
      left
      simp only [foldsOf, List.isEmpty_nil, Bool.or_true, if_true, true_and]
      right
      simp only [Nat.cast_one, one_mul] at he
      linarith
    | z + 2, _, hepos, hbefore, hzn, he =>
      right
      have hq : lo - m + ((z + 2 : ℕ) - 1 : ℚ) * w ≤ 0 := by
        refine hbefore (z + 1) _ (by omega) ?_
        rw [AP_get _ _ _ (z + 1) (by omega)]
        push_cast; congr 1; ring
      have g := foldAt_good (counts.map (· / counts.sum)) (lo - m) w n (z + 2) hw (by simpa using hlen)
        (by
          intro c hcm
          obtain ⟨x, hx, rfl⟩ := List.mem_map.1 hcm
          exact div_nonneg (hc x hx) ht.le) (by omega) (by omega) (by rw [he]; exact hepos) hq
      refine ⟨?_, ?_, _, g, ?_⟩
      · have : lo - m + w ≤ 0 := by
          refine hbefore 1 _ (by omega) ?_
          rw [AP_get _ _ _ 1 (by omega)]; simp
        linarith
      · have h3 : ((z + 2 : ℕ) : ℚ) ≤ n := by exact_mod_cast (by omega : z + 2 ≤ n)
        have := mul_le_mul_of_nonneg_right h3 hw.le
        linarith
      · have hf : foldsOf (counts.map (· / counts.sum)) (AP (lo - m) w (n + 1)) (some (z + 2)) =
            foldAt (counts.map (· / counts.sum)) (AP (lo - m) w (n + 1)) (z + 2) := rfl
        rw [hf]
        have hp : (foldAt (counts.map (· / counts.sum)) (AP (lo - m) w (n + 1)) (z + 2)).posCounts.isEmpty
            = false := by
          simp [foldAt]
        have hng : (foldAt (counts.map (· / counts.sum)) (AP (lo - m) w (n + 1)) (z + 2)).negCounts.isEmpty
            = false := by
          have := g.negLen
          obtain ⟨q, k, _, _, hN⟩ := g.neg
          rw [hN] at this
          simp only [List.length_cons, AP_length] at this
          cases hcn : (foldAt (counts.map (· / counts.sum)) (AP (lo - m) w (n + 1)) (z + 2)).negCounts with
          | nil => rw [hcn] at this; simp at this
          | cons _ _ => rfl
        rw [hp, hng]
        simp only [Bool.or_self, Bool.false_eq_true, if_false]

end Verif.Histogram
