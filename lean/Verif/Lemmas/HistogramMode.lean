import Verif.Lemmas.HistogramPct

namespace Verif.Histogram

open Verif Verif.HistSpec

/-! ## Mass on either side of an edge -/

theorem endingBefore_le_take (cs es : List ℚ) (hw : ∀ c ∈ cs, 0 ≤ c) (hes : es.Pairwise (· ≤ ·))
    (i : ℕ) (e v : ℚ) (he : es[i + 1]? = some e) (hv : v ≤ e) :
    endingBefore cs es v ≤ (cs.take i).sum := by
  induction cs generalizing es i with
  | nil => simp [endingBefore]
  | cons c cs ih =>
    match es, he with
    | [], he => simp at he
    | [_], he => simp at he
    | e0 :: e1 :: es, he =>
      have hes' := (List.pairwise_cons.1 hes).2
      have hw' : ∀ x ∈ cs, 0 ≤ x := fun x hx => hw x (List.mem_cons_of_mem _ hx)
      cases i with
      | zero =>
        simp only [zero_add, List.getElem?_cons_succ, List.getElem?_cons_zero, Option.some.injEq] at he
        subst he
        rw [endingBefore_eq_zero]
        · simp
        · intro x hx
          simp only [List.tail_cons, List.mem_cons] at hx
          rcases hx with rfl | hx
          · exact hv
          · exact le_trans hv ((List.pairwise_cons.1 hes').1 x hx)
      | succ i =>
        simp only [List.getElem?_cons_succ] at he
        rw [endingBefore_cons, List.take_succ_cons, List.sum_cons]
        have := ih (e1 :: es) hw' hes' i (by simpa using he)
        have := hw c (by simp)
        split_ifs <;> linarith

theorem take_le_startingBy (cs es : List ℚ) (hw : ∀ c ∈ cs, 0 ≤ c) (hes : es.Pairwise (· ≤ ·))
    (i : ℕ) (e v : ℚ) (he : es[i]? = some e) (hv : e ≤ v) :
    (cs.take i).sum ≤ startingBy cs es v := by
  induction cs generalizing es i with
  | nil => simp [startingBy]
  | cons c cs ih =>
    have hw' : ∀ x ∈ cs, 0 ≤ x := fun x hx => hw x (List.mem_cons_of_mem _ hx)
    match es, he with
    | [], he => simp at he
    | e0 :: es, he =>
      cases i with
      | zero =>
        simp only [List.take_zero, List.sum_nil]
        exact startingBy_nonneg _ _ hw v
      | succ i =>
        simp only [List.getElem?_cons_succ] at he
        have h0 : e0 ≤ v := le_trans ((List.pairwise_cons.1 hes).1 e (List.mem_of_getElem? he)) hv
        rw [startingBy_cons, if_pos h0, List.take_succ_cons, List.sum_cons]
        have := ih es hw' (List.pairwise_cons.1 hes).2 i he
        linarith

theorem exists_le_avg (l : List ℚ) (hl : 0 < l.length) : ∃ x ∈ l, x ≤ l.sum / l.length := by
  by_contra h
  push Not at h
  have hlt : ∀ l : List ℚ, 0 < l.length → ∀ b : ℚ, (∀ x ∈ l, b < x) → l.length * b < l.sum := by
    intro l hl b hb
    induction l with
    | nil => simp at hl
    | cons x l ih =>
      have hx := hb x (by simp)
      by_cases h0 : 0 < l.length
      · have := ih h0 fun y hy => hb y (List.mem_cons_of_mem _ hy)
        simp only [List.sum_cons, List.length_cons]; push_cast; linarith
      · have : l = [] := List.length_eq_zero_iff.1 (by omega)
        subst this; simpa using hx
  have := hlt l hl _ h
  rw [mul_div_cancel₀ _ (by positivity : (l.length : ℚ) ≠ 0)] at this
  exact lt_irrefl _ this

theorem exists_ge_avg (l : List ℚ) (hl : 0 < l.length) : ∃ x ∈ l, l.sum / l.length ≤ x := by
  by_contra h
  push Not at h
  have hlt : ∀ l : List ℚ, 0 < l.length → ∀ b : ℚ, (∀ x ∈ l, x < b) → l.sum < l.length * b := by
    intro l hl b hb
    induction l with
    | nil => simp at hl
    | cons x l ih =>
      have hx := hb x (by simp)
      by_cases h0 : 0 < l.length
      · have := ih h0 fun y hy => hb y (List.mem_cons_of_mem _ hy)
        simp only [List.sum_cons, List.length_cons]; push_cast; linarith
      · have : l = [] := List.length_eq_zero_iff.1 (by omega)
        subst this; simpa using hx
  have := hlt l hl _ h
  rw [mul_div_cancel₀ _ (by positivity : (l.length : ℚ) ≠ 0)] at this
  exact lt_irrefl _ this

/-- The averaged median leaves at most half the mass strictly below it and at least half in bins that
start by it. -/
theorem medianValue_splits (cs es : List ℚ) (hw : ∀ c ∈ cs, Whole c) (ht : 0 < cs.sum)
    (hb : cs.sum < 5 * 10 ^ 9) (hes : es.Pairwise (· ≤ ·))
    (m : ℚ) (hm : medianValue cs es = some m) :
    endingBefore cs es m / cs.sum ≤ 1 / 2 ∧ 1 / 2 ≤ startingBy cs es m / cs.sum := by
  simp only [medianValue] at hm
  split_ifs at hm with hl
  simp only [Option.some.injEq] at hm
  have hw0 : ∀ c ∈ cs, 0 ≤ c := fun c hc => (hw c hc).nonneg
  have key : ∀ e ∈ halfEdges cs es, ∃ i, es[i + 1]? = some e ∧ i < cs.length ∧
      (cs.take (i + 1)).sum / cs.sum = 1 / 2 := by
    intro e he
    obtain ⟨i, c, h1, h2, h3⟩ := halfEdges_mem cs es e he
    have hi : i < cs.length := by
      have := (List.getElem?_eq_some_iff.1 h2).1
      simpa [cumsum_length] using this
    have h2' := cumsum_get 0 (cs.map (· / cs.sum)) i (by simpa using hi)
    rw [h2'] at h2
    simp only [Option.some.injEq, zero_add, ← List.map_take, sum_map_div] at h2
    rw [← h2] at h3
    refine ⟨i, ?_, hi, half_exact _ _ (whole_sum _ fun x hx => hw x (List.mem_of_mem_take hx))
      (whole_sum _ hw) ht hb h3⟩
    cases es with
    | nil => simp at h1
    | cons a es => simpa using h1
  constructor
  · obtain ⟨e, he, hle⟩ := exists_ge_avg (halfEdges cs es) (by omega)
    rw [hm] at hle
    obtain ⟨i, h1, h2, h3⟩ := key e he
    have h4 := endingBefore_le_take cs es hw0 hes i e m h1 hle
    rw [← h3]
    apply div_le_div_of_nonneg_right _ ht.le
    refine le_trans h4 ?_
    rw [List.take_add_one, List.sum_append]
    have : 0 ≤ (cs[i]?.toList).sum := by
      rw [List.getElem?_eq_getElem h2]
      simpa using hw0 _ (List.getElem_mem h2)
    linarith
  · obtain ⟨e, he, hle⟩ := exists_le_avg (halfEdges cs es) (by omega)
    rw [hm] at hle
    obtain ⟨i, h1, h2, h3⟩ := key e he
    have h4 := take_le_startingBy cs es hw0 hes (i + 1) e m h1 hle
    rw [← h3]
    exact div_le_div_of_nonneg_right h4 ht.le

/-! ## Mode -/

theorem modeLoop_append (k i : ℕ) (pre : List ℚ) (c : ℚ) (s : MState) :
    modeLoop k i (pre ++ [c]) s = modeStep k (modeLoop k i pre s) (i + pre.length) c := by
  induction pre generalizing i s with
  | nil => simp [modeLoop]
  | cons a pre ih =>
    simp only [List.cons_append, modeLoop, ih, List.length_cons]
    congr 1; omega

/-- Indices of the bins with count `m`. -/
def binsWith (cs : List ℚ) (m : ℚ) : List ℕ :=
  (List.range cs.length).filter fun i => decide (cs.getD i 0 = m)

theorem binsWith_append (cs : List ℚ) (c m : ℚ) :
    binsWith (cs ++ [c]) m = binsWith cs m ++ if c = m then [cs.length] else [] := by
  unfold binsWith
  rw [List.length_append, List.length_singleton, List.range_succ, List.filter_append]
  congr 1
  · apply List.filter_congr
    intro i hi
    have hi' : i < cs.length := List.mem_range.1 hi
    rw [Bool.eq_iff_iff, decide_eq_true_eq, decide_eq_true_eq, List.getD, List.getD,
      List.getElem?_append_left hi']
  · simp only [List.filter_cons, List.filter_nil]
    simp [List.getD]

theorem binsWith_nil_of_lt (cs : List ℚ) (m : ℚ) (h : ∀ c ∈ cs, c < m) : binsWith cs m = [] := by
  unfold binsWith
  rw [List.filter_eq_nil_iff]
  intro i hi
  have hi' : i < cs.length := List.mem_range.1 hi
  have := h _ (List.getElem_mem hi')
  simp only [List.getD, List.getElem?_eq_getElem hi', Option.getD_some, decide_eq_true_eq]
  exact ne_of_lt this

theorem binsWith_pos (cs : List ℚ) (m : ℚ) (h : m ∈ cs) : 0 < (binsWith cs m).length := by
  obtain ⟨i, hi, rfl⟩ := List.getElem_of_mem h
  apply List.length_pos_of_mem (a := i)
  unfold binsWith
  simp [List.mem_filter, hi]

theorem modeLoop_inv (k : ℕ) (pre : List ℚ) (hpos : ∀ c ∈ pre, 0 ≤ c) :
    (pre = [] ∧ modeLoop k 0 pre ⟨-1, [], 0⟩ = ⟨-1, [], 0⟩) ∨
    (pre ≠ [] ∧ (∀ c ∈ pre, c ≤ (modeLoop k 0 pre ⟨-1, [], 0⟩).curMax) ∧
      (modeLoop k 0 pre ⟨-1, [], 0⟩).curMax ∈ pre ∧
      (modeLoop k 0 pre ⟨-1, [], 0⟩).idxs =
        (binsWith pre (modeLoop k 0 pre ⟨-1, [], 0⟩).curMax).take (max 1 k) ∧
      (modeLoop k 0 pre ⟨-1, [], 0⟩).count = (modeLoop k 0 pre ⟨-1, [], 0⟩).idxs.length) := by
  induction pre using List.reverseRecOn with
  | nil => left; exact ⟨rfl, rfl⟩
  | append_singleton pre c ih =>
    right
    refine ⟨by simp, ?_⟩
    have hc : 0 ≤ c := hpos c (by simp)
    have hpre : ∀ c ∈ pre, 0 ≤ c := fun x hx => hpos x (by simp [hx])
    rw [modeLoop_append, Nat.zero_add]
    rcases ih hpre with ⟨rfl, hs⟩ | ⟨hne, hle, hmem, hidx, hcnt⟩
    · rw [hs]
      simp only [modeStep, if_pos (by linarith : (-1 : ℚ) < c)]
      refine ⟨by simp, by simp, ?_, by simp⟩
      simp only [binsWith, List.nil_append, List.length_singleton]
      simp
    · generalize modeLoop k 0 pre ⟨-1, [], 0⟩ = s at hle hmem hidx hcnt
      unfold modeStep
      by_cases h1 : s.curMax < c
      · rw [if_pos h1]
        simp only
        refine ⟨?_, by simp, ?_, by simp⟩
        · intro x hx
          rcases List.mem_append.1 hx with hx | hx
          · exact le_trans (hle x hx) h1.le
          · simp only [List.mem_singleton] at hx; rw [hx]
        · rw [binsWith_append, binsWith_nil_of_lt pre c fun x hx => lt_of_le_of_lt (hle x hx) h1]
          simp
      · rw [if_neg h1]
        push Not at h1
        have hall : ∀ x ∈ pre ++ [c], x ≤ s.curMax := by
          intro x hx
          rcases List.mem_append.1 hx with hx | hx
          · exact hle x hx
          · simp only [List.mem_singleton] at hx; rw [hx]; exact h1
        have hbp := binsWith_pos pre s.curMax hmem
        have hlen : s.idxs.length = min (max 1 k) (binsWith pre s.curMax).length := by
          rw [hidx, List.length_take]
        by_cases h2 : c = s.curMax ∧ s.count < k
        · rw [if_pos h2]
          obtain ⟨h2, h3⟩ := h2
          simp only
          refine ⟨hall, by simp [hmem], ?_, by simp [hcnt]⟩
          rw [binsWith_append, if_pos h2, hidx]
          have hshort : (binsWith pre s.curMax).length < max 1 k := by
            rw [hcnt, hlen] at h3
            omega
          rw [List.take_of_length_le (by omega), List.take_of_length_le]
          simp; omega
        · rw [if_neg h2]
          refine ⟨hall, by simp [hmem], ?_, hcnt⟩
          rw [binsWith_append, hidx]
          by_cases h3 : c = s.curMax
          · rw [if_pos h3]
            have h4 : ¬ s.count < k := fun h => h2 ⟨h3, h⟩
            rw [List.take_append_of_le_length]
            rw [hcnt, hlen] at h4
            omega
          · rw [if_neg h3, List.append_nil]

theorem maximalBins_eq (cs : List ℚ) (m : ℚ) (hmem : m ∈ cs) (hle : ∀ c ∈ cs, c ≤ m) :
    maximalBins cs = binsWith cs m := by
  unfold maximalBins binsWith
  apply List.filter_congr
  intro i hi
  have hi' : i < cs.length := List.mem_range.1 hi
  simp only [List.getD, List.getElem?_eq_getElem hi', Option.getD_some]
  rw [Bool.eq_iff_iff]
  simp only [List.all_eq_true, decide_eq_true_eq]
  constructor
  · intro h
    exact le_antisymm (hle _ (List.getElem_mem hi')) (h m hmem)
  · intro h c hc
    rw [h]; exact hle c hc

end Verif.Histogram
