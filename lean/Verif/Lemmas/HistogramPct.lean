import Verif.Lemmas.Histogram

namespace Verif.Histogram

open Verif Verif.HistSpec

/-! ## `np.interp` -/

/-- Sorted in both coordinates. -/
def Rising (l : List (ℚ × ℚ)) : Prop := l.Pairwise fun p q => p.1 ≤ q.1 ∧ p.2 ≤ q.2

theorem interp_ge_head (p : ℚ × ℚ) (l : List (ℚ × ℚ)) (h : Rising (p :: l)) (x : ℚ) :
    p.2 ≤ interp (p :: l) x := by
  induction l generalizing p with
  | nil => simp [interp]
  | cons q l ih =>
    have hpq := (List.pairwise_cons.1 h).1 q (by simp)
    have ht : Rising (q :: l) := (List.pairwise_cons.1 h).2
    rw [interp]
    split_ifs with h1 h2
    · exact le_refl _
    · have : 0 ≤ (q.2 - p.2) / (q.1 - p.1) * (x - p.1) :=
        mul_nonneg (div_nonneg (by linarith [hpq.2]) (by linarith)) (by linarith)
      linarith
    · exact le_trans hpq.2 (ih q ht)

theorem interp_segment (p q : ℚ × ℚ) (x : ℚ) (hpq : p.2 ≤ q.2) (h1 : p.1 ≤ x) (h2 : x < q.1) :
    p.2 + (q.2 - p.2) / (q.1 - p.1) * (x - p.1) ≤ q.2 := by
  have hd : 0 < q.1 - p.1 := by linarith
  have : (q.2 - p.2) / (q.1 - p.1) * (x - p.1) ≤ q.2 - p.2 := by
    rw [div_mul_eq_mul_div, div_le_iff₀ hd]
    exact mul_le_mul_of_nonneg_left (by linarith) (by linarith)
  linarith

theorem interp_le_of_lt (l : List (ℚ × ℚ)) (h : Rising l) (q : ℚ × ℚ) (hq : q ∈ l) (x : ℚ)
    (hx : x < q.1) : interp l x ≤ q.2 := by
  induction l with
  | nil => simp at hq
  | cons p l ih =>
    have hall := (List.pairwise_cons.1 h).1
    have ht : Rising l := (List.pairwise_cons.1 h).2
    cases l with
    | nil =>
      simp only [List.mem_singleton] at hq
      subst hq; simp [interp]
    | cons r l =>
      have hpr := hall r (by simp)
      rw [interp]
      split_ifs with h1 h2
      · rcases List.mem_cons.1 hq with rfl | hq
        · exact le_refl _
        · exact (hall q hq).2
      · rcases List.mem_cons.1 hq with rfl | hq
        · exact absurd hx h1
        · have h3 := interp_segment p r x hpr.2 (by linarith) h2
          rcases List.mem_cons.1 hq with rfl | hq
          · exact h3
          · exact le_trans h3 ((List.pairwise_cons.1 ht).1 q hq).2
      · rcases List.mem_cons.1 hq with rfl | hq
        · exact absurd hx h1
        · exact ih ht hq

theorem interp_ge_of_ge (l : List (ℚ × ℚ)) (h : Rising l) (q : ℚ × ℚ) (hq : q ∈ l) (x : ℚ)
    (hx : q.1 ≤ x) : q.2 ≤ interp l x := by
  induction l with
  | nil => simp at hq
  | cons p l ih =>
    have hall := (List.pairwise_cons.1 h).1
    have ht : Rising l := (List.pairwise_cons.1 h).2
    rcases List.mem_cons.1 hq with rfl | hq
    · exact interp_ge_head _ _ h x
    · cases l with
      | nil => simp at hq
      | cons r l =>
        have hpr := hall r (by simp)
        rw [interp]
        split_ifs with h1 h2
        · have := (hall q hq).1; linarith
        · rcases List.mem_cons.1 hq with rfl | hq
          · linarith
          · have := ((List.pairwise_cons.1 ht).1 q hq).1; linarith
        · exact ih ht hq

theorem interp_le_last (l : List (ℚ × ℚ)) (h : Rising l) (q : ℚ × ℚ) (hq : l.getLast? = some q)
    (x : ℚ) : interp l x ≤ q.2 := by
  induction l with
  | nil => simp at hq
  | cons p l ih =>
    have hall := (List.pairwise_cons.1 h).1
    have ht : Rising l := (List.pairwise_cons.1 h).2
    cases l with
    | nil =>
      simp only [List.getLast?_singleton, Option.some.injEq] at hq
      subst hq; simp [interp]
    | cons r l =>
      have hpr := hall r (by simp)
      have hq' : (r :: l).getLast? = some q := by rwa [List.getLast?_cons_cons] at hq
      have hrq : r.2 ≤ q.2 := by
        have hmem := List.mem_of_getLast? hq'
        rcases List.mem_cons.1 hmem with rfl | hm
        · exact le_refl _
        · exact ((List.pairwise_cons.1 ht).1 q hm).2
      rw [interp]
      split_ifs with h1 h2
      · linarith [hpr.2]
      · exact le_trans (interp_segment p r x hpr.2 (by linarith) h2) hrq
      · exact ih ht hq'

theorem interp_mono (l : List (ℚ × ℚ)) (h : Rising l) (x y : ℚ) (hxy : x ≤ y) :
    interp l x ≤ interp l y := by
  induction l with
  | nil => simp [interp]
  | cons p l ih =>
    have hall := (List.pairwise_cons.1 h).1
    have ht : Rising l := (List.pairwise_cons.1 h).2
    cases l with
    | nil => simp [interp]
    | cons r l =>
      have hpr := hall r (by simp)
      by_cases h1 : x < p.1
      · have : interp (p :: r :: l) x = p.2 := by rw [interp, if_pos h1]
        rw [this]
        exact interp_ge_head _ _ h y
      · have hy1 : ¬ y < p.1 := by linarith
        rw [interp, interp, if_neg h1, if_neg hy1]
        by_cases h2 : x < r.1
        · rw [if_pos h2]
          split_ifs with h3
          · have : 0 ≤ (r.2 - p.2) / (r.1 - p.1) := div_nonneg (by linarith [hpr.2]) (by linarith)
            have := mul_le_mul_of_nonneg_left (by linarith : x - p.1 ≤ y - p.1) this
            linarith
          · exact le_trans (interp_segment p r x hpr.2 (by linarith) h2) (interp_ge_head r l ht y)
        · rw [if_neg h2, if_neg (by linarith)]
          exact ih ht

/-! ## Cumulated counts -/

theorem cumsum_length (acc : ℚ) (l : List ℚ) : (cumsum acc l).length = l.length := by
  induction l generalizing acc with
  | nil => rfl
  | cons x l ih => simp [cumsum, ih]

/-- The points of the distribution function as a recursion, from a starting abscissa. -/
def ptsFrom (acc tot x0 : ℚ) : List ℚ → List ℚ → List (ℚ × ℚ)
  | [], e :: _ => [(x0, e)]
  | c :: cs, e :: es =>
    (x0, e) :: ptsFrom (acc + c / tot) tot
      (if c = 0 then acc + c / tot + tinyStep else acc + c / tot) cs es
  | _, [] => []

theorem cdf_eq_ptsFrom_aux (tot acc x0 : ℚ) (cs es : List ℚ) (h : es.length = cs.length + 1) :
    (x0 :: List.zipWith (fun c x => if c = 0 then x + tinyStep else x) cs
      (cumsum acc (cs.map (· / tot)))).zip es = ptsFrom acc tot x0 cs es := by
  induction cs generalizing acc x0 es with
  | nil =>
    match es, h with
    | [e], _ => simp [ptsFrom]
  | cons c cs ih =>
    match es, h with
    | e :: es, h =>
      simp only [List.map_cons, cumsum, List.zipWith_cons_cons, List.zip_cons_cons, ptsFrom]
      rw [ih]
      simpa using h

theorem cdfPoints_eq (cs es : List ℚ) (h : es.length = cs.length + 1) :
    cdfPoints cs es = ptsFrom 0 cs.sum 0 cs es := by
  unfold cdfPoints
  exact cdf_eq_ptsFrom_aux cs.sum 0 0 cs es h

theorem ptsFrom_snd (acc tot x0 : ℚ) (cs es : List ℚ) (h : es.length = cs.length + 1) :
    (ptsFrom acc tot x0 cs es).map Prod.snd = es := by
  induction cs generalizing acc x0 es with
  | nil =>
    match es, h with
    | [e], _ => simp [ptsFrom]
  | cons c cs ih =>
    match es, h with
    | e :: es, h =>
      simp only [ptsFrom, List.map_cons, List.cons.injEq, true_and]
      exact ih _ _ es (by simpa using h)

theorem tinyStep_pos : 0 < tinyStep := by norm_num [tinyStep]

theorem whole_ge_one {c : ℚ} (h : Whole c) (h0 : c ≠ 0) : 1 ≤ c := by
  obtain ⟨m, rfl⟩ := h
  have : m ≠ 0 := by rintro rfl; exact h0 rfl
  exact_mod_cast Nat.one_le_iff_ne_zero.2 this

/-- A whole count of a total of at most 10¹⁵ is at least the step added for empty bins. -/
theorem share_ge (c tot : ℚ) (hc : Whole c) (h0 : c ≠ 0) (ht : 0 < tot) (hb : tot ≤ 10 ^ 15) :
    tinyStep ≤ c / tot := by
  rw [le_div_iff₀ ht]
  have := whole_ge_one hc h0
  unfold tinyStep
  nlinarith

theorem ptsFrom_fst_ge (acc tot x0 : ℚ) (cs es : List ℚ) (hw : ∀ c ∈ cs, Whole c) (ht : 0 < tot)
    (hb : tot ≤ 10 ^ 15) (hx : x0 ≤ acc + tinyStep) (hx2 : acc ≤ x0) :
    ∀ p ∈ ptsFrom acc tot x0 cs es, x0 ≤ p.1 := by
  induction cs generalizing acc x0 es with
  | nil =>
    cases es with
    | nil => simp [ptsFrom]
    | cons e es => simp [ptsFrom]
  | cons c cs ih =>
    cases es with
    | nil => simp [ptsFrom]
    | cons e es =>
      intro p hp
      simp only [ptsFrom, List.mem_cons] at hp
      rcases hp with rfl | hp
      · exact le_refl _
      · have hcw := hw c (by simp)
        have hpos := tinyStep_pos
        have hle : x0 ≤ (if c = 0 then acc + c / tot + tinyStep else acc + c / tot) := by
          split_ifs with h0
          · simp only [h0, zero_div, add_zero]; exact hx
          · have := share_ge c tot hcw h0 ht hb; linarith
        refine le_trans hle (ih _ _ es (fun x hx => hw x (List.mem_cons_of_mem _ hx)) ?_ ?_ p hp)
        · split_ifs <;> linarith
        · split_ifs <;> linarith

theorem ptsFrom_rising (acc tot x0 : ℚ) (cs es : List ℚ) (hw : ∀ c ∈ cs, Whole c) (ht : 0 < tot)
    (hb : tot ≤ 10 ^ 15) (hes : es.Pairwise (· ≤ ·)) (hlen : es.length = cs.length + 1)
    (hx : x0 ≤ acc + tinyStep) (hx2 : acc ≤ x0) :
    Rising (ptsFrom acc tot x0 cs es) := by
  induction cs generalizing acc x0 es with
  | nil =>
    match es, hlen with
    | [e], _ => simp [ptsFrom, Rising]
  | cons c cs ih =>
    match es, hlen with
    | e :: es, hlen =>
      have hpos := tinyStep_pos
      have hcw := hw c (by simp)
      have hlen' : es.length = cs.length + 1 := by simpa using hlen
      have hw' : ∀ x ∈ cs, Whole x := fun x hx => hw x (List.mem_cons_of_mem _ hx)
      have hge := ptsFrom_fst_ge acc tot x0 (c :: cs) (e :: es) hw ht hb hx hx2
      simp only [ptsFrom] at hge ⊢
      refine List.pairwise_cons.2 ⟨?_, ?_⟩
      · intro p hp
        refine ⟨hge p (List.mem_cons_of_mem _ hp), ?_⟩
        have : p.2 ∈ es := by
          have := List.mem_map_of_mem (f := Prod.snd) hp
          rwa [ptsFrom_snd _ _ _ _ _ hlen'] at this
        exact (List.pairwise_cons.1 hes).1 _ this
      · refine ih _ _ es hw' (List.pairwise_cons.1 hes).2 hlen' ?_ ?_
        · split_ifs <;> linarith
        · split_ifs <;> linarith

theorem cdfPoints_rising (cs es : List ℚ) (hw : ∀ c ∈ cs, Whole c) (ht : 0 < cs.sum)
    (hb : cs.sum ≤ 10 ^ 15) (hes : es.Pairwise (· ≤ ·)) (hlen : es.length = cs.length + 1) :
    Rising (cdfPoints cs es) := by
  rw [cdfPoints_eq cs es hlen]
  exact ptsFrom_rising 0 cs.sum 0 cs es hw ht hb hes hlen (by have := tinyStep_pos; linarith) (le_refl _)

/-! ## How a percentile splits the mass -/

theorem startingBy_nonneg (cs es : List ℚ) (hw : ∀ c ∈ cs, 0 ≤ c) (v : ℚ) : 0 ≤ startingBy cs es v := by
  induction cs generalizing es with
  | nil => simp [startingBy]
  | cons c cs ih =>
    cases es with
    | nil => simp [startingBy]
    | cons e es =>
      rw [startingBy_cons]
      have := ih es (fun x hx => hw x (List.mem_cons_of_mem _ hx))
      have := hw c (by simp)
      split_ifs <;> linarith

theorem endingBefore_eq_zero (cs es : List ℚ) (v : ℚ) (h : ∀ e ∈ es.tail, v ≤ e) :
    endingBefore cs es v = 0 := by
  unfold endingBefore
  have : (cs.zip es.tail).filter (fun p => decide (p.2 < v)) = [] := by
    rw [List.filter_eq_nil_iff]
    intro p hp
    have := h p.2 (List.of_mem_zip hp).2
    simp; exact this
  rw [this]; rfl

theorem ptsFrom_splits (acc tot x0 : ℚ) (cs es : List ℚ) (hw : ∀ c ∈ cs, Whole c) (ht : 0 < tot)
    (hes : es.Pairwise (· ≤ ·)) (hlen : es.length = cs.length + 1) (x : ℚ)
    (hx0 : x0 ≤ x) (hacc : acc ≤ x0) (hub : x ≤ acc + cs.sum / tot) (hris : Rising (ptsFrom acc tot x0 cs es)) :
    acc + endingBefore cs es (interp (ptsFrom acc tot x0 cs es) x) / tot ≤ x ∧
    x ≤ acc + startingBy cs es (interp (ptsFrom acc tot x0 cs es) x) / tot + tinyStep := by
  induction cs generalizing acc x0 es with
  | nil =>
    have hpos := tinyStep_pos
    simp only [List.sum_nil, zero_div, add_zero] at hub
    simp only [endingBefore, startingBy, List.zip_nil_left, List.filter_nil, List.map_nil, List.sum_nil,
      zero_div, add_zero]
    constructor <;> linarith
  | cons c cs ih =>
    match es, hlen with
    | [], h => simp at h
    | [e], h => simp at h
    | e0 :: e1 :: es, hlen =>
      have hpos := tinyStep_pos
      have hcw := hw c (by simp)
      have hc0 := hcw.nonneg
      have hw' : ∀ x ∈ cs, Whole x := fun x hx => hw x (List.mem_cons_of_mem _ hx)
      have hw0 : ∀ x ∈ cs, 0 ≤ x := fun x hx => (hw' x hx).nonneg
      have hlen' : (e1 :: es).length = cs.length + 1 := by simpa using hlen
      have he01 : e0 ≤ e1 := (List.pairwise_cons.1 hes).1 e1 (by simp)
      have hes' := (List.pairwise_cons.1 hes).2
      set x1 : ℚ := if c = 0 then acc + c / tot + tinyStep else acc + c / tot with hx1
      have hx1ub : x1 ≤ acc + c / tot + tinyStep := by rw [hx1]; split_ifs <;> linarith
      have hx1lb : acc + c / tot ≤ x1 := by rw [hx1]; split_ifs <;> linarith
      obtain ⟨rest, hrest⟩ : ∃ rest, ptsFrom (acc + c / tot) tot x1 cs (e1 :: es) = (x1, e1) :: rest := by
        cases cs <;> exact ⟨_, rfl⟩
      have hP : ptsFrom acc tot x0 (c :: cs) (e0 :: e1 :: es) = (x0, e0) :: (x1, e1) :: rest := by
        rw [ptsFrom, ← hx1, hrest]
      have hris' : Rising (ptsFrom (acc + c / tot) tot x1 cs (e1 :: es)) := by
        rw [hP] at hris; rw [hrest]; exact (List.pairwise_cons.1 hris).2
      rw [hP, interp, if_neg (by simpa using hx0)]
      by_cases h1 : x < x1
      · rw [if_pos h1]
        set v := e0 + (e1 - e0) / (x1 - x0) * (x - x0) with hv
        have hv1 : v ≤ e1 := interp_segment (x0, e0) (x1, e1) x he01 hx0 h1
        have hv0 : e0 ≤ v := by
          have : 0 ≤ (e1 - e0) / (x1 - x0) * (x - x0) :=
            mul_nonneg (div_nonneg (by linarith) (by linarith)) (by linarith)
          linarith
        have hz : endingBefore (c :: cs) (e0 :: e1 :: es) v = 0 := by
          refine endingBefore_eq_zero _ _ _ ?_
          intro e he
          simp only [List.tail_cons, List.mem_cons] at he
          rcases he with rfl | he
          · exact hv1
          · exact le_trans hv1 ((List.pairwise_cons.1 hes').1 e he)
        rw [hz, startingBy_cons, if_pos hv0]
        have := startingBy_nonneg cs (e1 :: es) hw0 v
        have h2 : c / tot ≤ (c + startingBy cs (e1 :: es) v) / tot := by
          apply div_le_div_of_nonneg_right _ ht.le; linarith
        constructor
        · simp only [zero_div, add_zero]; linarith
        · linarith
      · rw [if_neg h1]
        have hub' : x ≤ acc + c / tot + cs.sum / tot := by
          rw [List.sum_cons, add_div] at hub; linarith
        obtain ⟨a1, a2⟩ := ih (acc + c / tot) x1 (e1 :: es) hw' hes' hlen' (by linarith) hx1lb hub' hris'
        rw [hrest] at a1 a2 hris'
        have hge : e1 ≤ interp ((x1, e1) :: rest) x := interp_ge_head _ _ hris' x
        set v := interp ((x1, e1) :: rest) x with hv
        rw [endingBefore_cons, startingBy_cons, if_pos (by linarith : e0 ≤ v)]
        have h3 : (if e1 < v then c else 0) ≤ c := by split_ifs <;> linarith
        have h4 : ((if e1 < v then c else 0) + endingBefore cs (e1 :: es) v) / tot ≤
            c / tot + endingBefore cs (e1 :: es) v / tot := by
          rw [← add_div]
          exact div_le_div_of_nonneg_right (by linarith) ht.le
        constructor
        · linarith
        · rw [add_div]; linarith

/-! ## The special treatment of the median -/

/-- The edges whose cumulated share is one half, as a recursion. -/
theorem halfEdges_mem (cs es : List ℚ) (e : ℚ)
    (he : e ∈ halfEdges cs es) :
    ∃ (i : ℕ) (c : ℚ), (es.tail)[i]? = some e ∧ (cumsum 0 (cs.map (· / cs.sum)))[i]? = some c ∧
      |c - 1 / 2| < halfTol := by
  unfold halfEdges at he
  simp only [List.mem_map, List.mem_filter, decide_eq_true_eq] at he
  obtain ⟨p, ⟨hp, hlt⟩, rfl⟩ := he
  obtain ⟨i, hi⟩ := List.getElem?_of_mem hp
  rw [List.getElem?_zip_eq_some] at hi
  exact ⟨i, p.1, hi.2, hi.1, hlt⟩

theorem cumsum_get (acc : ℚ) (l : List ℚ) (i : ℕ) (hi : i < l.length) :
    (cumsum acc l)[i]? = some (acc + (l.take (i + 1)).sum) := by
  induction l generalizing acc i with
  | nil => simp at hi
  | cons x l ih =>
    cases i with
    | zero => simp [cumsum]
    | succ i =>
      simp only [cumsum, List.getElem?_cons_succ, List.take_succ_cons, List.sum_cons]
      rw [ih (acc + x) i (by simpa using hi)]
      congr 1; ring

theorem sum_map_div (l : List ℚ) (t : ℚ) : (l.map (· / t)).sum = l.sum / t := by
  induction l with
  | nil => simp
  | cons x l ih => simp [ih, add_div]

theorem whole_sum (l : List ℚ) (h : ∀ c ∈ l, Whole c) : Whole l.sum := by
  induction l with
  | nil => exact ⟨0, by simp⟩
  | cons x l ih =>
    rw [List.sum_cons]
    exact (h x (by simp)).add (ih fun c hc => h c (List.mem_cons_of_mem _ hc))

/-- With whole counts and a total below 5·10⁹ the tolerance only accepts exactly one half. -/
theorem half_exact (k t : ℚ) (hk : Whole k) (ht : Whole t) (ht0 : 0 < t) (hb : t < 5 * 10 ^ 9)
    (h : |k / t - 1 / 2| < halfTol) : k / t = 1 / 2 := by
  obtain ⟨k, rfl⟩ := hk
  obtain ⟨t, rfl⟩ := ht
  unfold halfTol at h
  have h1 : |2 * (k : ℚ) - t| < 1 := by
    have h2 : (k : ℚ) / t - 1 / 2 = (2 * k - t) / (2 * t) := by field_simp
    rw [h2, abs_div, abs_of_pos (by positivity : (0 : ℚ) < 2 * t), div_lt_iff₀ (by positivity)] at h
    nlinarith
  have h2 : |2 * (k : ℤ) - (t : ℤ)| < 1 := by exact_mod_cast h1
  have h3 : 2 * (k : ℤ) = t := by
    rw [Int.abs_lt_one_iff] at h2; omega
  have h4 : 2 * (k : ℚ) = t := by exact_mod_cast h3
  rw [← h4]
  have : (k : ℚ) ≠ 0 := by
    intro h0; rw [h0] at h4; linarith
  field_simp

/-- Every half edge is a point of the interpolated curve at one half or a step above. -/
theorem halfEdges_point (cs es : List ℚ) (hw : ∀ c ∈ cs, Whole c) (ht : 0 < cs.sum)
    (hb : cs.sum < 5 * 10 ^ 9) (hlen : es.length = cs.length + 1) (e : ℚ) (he : e ∈ halfEdges cs es) :
    ∃ q ∈ cdfPoints cs es, q.2 = e ∧ 1 / 2 ≤ q.1 ∧ q.1 ≤ 1 / 2 + tinyStep := by
  obtain ⟨i, c, h1, h2, h3⟩ := halfEdges_mem cs es e he
  have hi : i < cs.length := by
    have := (List.getElem?_eq_some_iff.1 h2).1
    simpa [cumsum_length] using this
  have h2' := cumsum_get 0 (cs.map (· / cs.sum)) i (by simpa using hi)
  rw [h2'] at h2
  simp only [Option.some.injEq, zero_add, ← List.map_take, sum_map_div] at h2
  have hpos := tinyStep_pos
  have hhalf : c = 1 / 2 := by
    rw [← h2] at h3 ⊢
    exact half_exact _ _ (whole_sum _ fun x hx => hw x (List.mem_of_mem_take hx)) (whole_sum _ hw) ht hb h3
  rw [hhalf] at h2
  have hci : cs[i]? = some cs[i] := List.getElem?_eq_getElem hi
  refine ⟨(if cs[i] = 0 then 1 / 2 + tinyStep else 1 / 2, e), ?_, rfl, ?_, ?_⟩
  · unfold cdfPoints
    apply List.mem_of_getElem? (i := i + 1)
    rw [List.getElem?_zip_eq_some]
    constructor
    · simp only [List.getElem?_cons_succ, List.getElem?_zipWith, hci, h2']
      simp only [zero_add, ← List.map_take, sum_map_div, h2]
    · cases es with
      | nil => simp at hlen
      | cons a es => simpa using h1
  · simp only; split_ifs <;> linarith
  · simp only; split_ifs <;> linarith

theorem sum_le_of_forall (l : List ℚ) (b : ℚ) (h : ∀ x ∈ l, x ≤ b) : l.sum ≤ l.length * b := by
  induction l with
  | nil => simp
  | cons x l ih =>
    have := ih fun y hy => h y (List.mem_cons_of_mem _ hy)
    have := h x (by simp)
    simp only [List.sum_cons, List.length_cons]; push_cast; linarith

theorem le_sum_of_forall (l : List ℚ) (b : ℚ) (h : ∀ x ∈ l, b ≤ x) : l.length * b ≤ l.sum := by
  induction l with
  | nil => simp
  | cons x l ih =>
    have := ih fun y hy => h y (List.mem_cons_of_mem _ hy)
    have := h x (by simp)
    simp only [List.sum_cons, List.length_cons]; push_cast; linarith

theorem avg_le (l : List ℚ) (hl : 0 < l.length) (b : ℚ) (h : ∀ x ∈ l, x ≤ b) : l.sum / l.length ≤ b := by
  rw [div_le_iff₀ (by exact_mod_cast hl)]
  have := sum_le_of_forall l b h
  linarith

theorem le_avg (l : List ℚ) (hl : 0 < l.length) (b : ℚ) (h : ∀ x ∈ l, b ≤ x) : b ≤ l.sum / l.length := by
  rw [le_div_iff₀ (by exact_mod_cast hl)]
  have := le_sum_of_forall l b h
  linarith

theorem medianValue_bounds (cs es : List ℚ) (hw : ∀ c ∈ cs, Whole c) (ht : 0 < cs.sum)
    (hb : cs.sum < 5 * 10 ^ 9) (hlen : es.length = cs.length + 1) (hes : es.Pairwise (· ≤ ·))
    (m : ℚ) (hm : medianValue cs es = some m) :
    (∀ x, x < 1 / 2 → interp (cdfPoints cs es) x ≤ m) ∧
    (∀ x, 1 / 2 + tinyStep ≤ x → m ≤ interp (cdfPoints cs es) x) := by
  have hris := cdfPoints_rising cs es hw ht (by linarith) hes hlen
  simp only [medianValue] at hm
  split_ifs at hm with hl
  simp only [Option.some.injEq] at hm
  subst hm
  constructor
  · intro x hx
    refine le_avg _ (by omega) _ fun e he => ?_
    obtain ⟨q, hq, rfl, h1, _⟩ := halfEdges_point cs es hw ht hb hlen e he
    exact interp_le_of_lt _ hris q hq x (by linarith)
  · intro x hx
    refine avg_le _ (by omega) _ fun e he => ?_
    obtain ⟨q, hq, rfl, _, h2⟩ := halfEdges_point cs es hw ht hb hlen e he
    exact interp_ge_of_ge _ hris q hq x (by linarith)

end Verif.Histogram
