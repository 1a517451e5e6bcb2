import Verif.Model.NumDiff
import Verif.Spec.NumDiff
import Verif.Props.Histogram
import Verif.Lemmas.Psi
import Mathlib.Tactic.Linarith
import Mathlib.Tactic.Positivity
import Mathlib.Tactic.NormNum

/-!
# C78: the stability index in a difference of numeric columns
-/

namespace Verif.Props.NumPsi

open Verif Verif.NumDiff Verif.Histogram Verif.Spec.NumDiff Verif.HistSpec

/-! ## The loop -/

theorem psiLoop_eq (n1 n2 : ℕ) : ∀ (c1 pre c2 : List ℚ) (acc : ℝ), c1.length ≤ c2.length →
    psiLoop n1 n2 (pre ++ c2) pre.length c1 acc = .ok (acc + stability (shares n1 c1) (shares n2 c2)) := by
  intro c1
  induction c1 with
  | nil =>
    intro pre c2 acc _
    simp [psiLoop, shares, stability]
  | cons c cs ih =>
    intro pre c2 acc hle
    cases c2 with
    | nil => simp at hle
    | cons d ds =>
      have hidx : idx (pre ++ d :: ds) pre.length = .ok d := by simp [idx]
      have e : pre ++ d :: ds = (pre ++ [d]) ++ ds := by simp
      have hl : pre.length + 1 = (pre ++ [d]).length := by simp
      rw [psiLoop, hidx]
      show psiLoop n1 n2 (pre ++ d :: ds) (pre.length + 1) cs _ = _
      rw [e, hl, ih (pre ++ [d]) ds _ (by simpa using hle)]
      congr 1
      unfold shares stability term
      simp only [List.map_cons, List.zip_cons_cons, List.filter_cons]
      by_cases h : (c : ℝ) / n1 = 0 ∨ (d : ℝ) / n2 = 0
      · have h' : ¬ ((c : ℝ) / n1 ≠ 0 ∧ (d : ℝ) / n2 ≠ 0) := by
          rintro ⟨a, b⟩
          rcases h with h | h
          · exact a h
          · exact b h
        rw [if_pos h, if_neg (by simpa using h')]
        ring
      · have h' : (c : ℝ) / n1 ≠ 0 ∧ (d : ℝ) / n2 ≠ 0 := by
          rw [not_or] at h
          exact h
        rw [if_neg h, if_pos (by simpa using h')]
        simp only [List.map_cons, List.sum_cons]
        ring

theorem psiLoop_zero (n1 n2 : ℕ) (c1 c2 : List ℚ) (h : c1.length ≤ c2.length) :
    psiLoop n1 n2 c2 0 c1 0 = .ok (stability (shares n1 c1) (shares n2 c2)) := by
  have := psiLoop_eq n1 n2 c1 [] c2 0 h
  simpa using this

theorem psiLoop_short (n1 n2 : ℕ) (c2 : List ℚ) : ∀ (c1 : List ℚ) (i : ℕ) (acc : ℝ), c2.length < i + c1.length → i ≤ c2.length →
    psiLoop n1 n2 c2 i c1 acc = .error .indexError := by
  intro c1
  induction c1 with
  | nil =>
    intro i acc h1 h2
    simp at h1
    omega
  | cons c cs ih =>
    intro i acc h1 h2
    rw [psiLoop]
    by_cases hi : i < c2.length
    · have hidx : idx c2 i = .ok c2[i] := by simp [idx, hi]
      rw [hidx]
      exact ih (i + 1) _ (by simp at h1; omega) (by omega)
    · have hidx : idx c2 i = .error .indexError := by
        unfold idx
        rw [List.getElem?_eq_none (by omega)]
      rw [hidx]
      rfl

/-! ## The index -/

theorem stability_nonneg (p q : List ℝ) (hp : ∀ x ∈ p, 0 ≤ x) (hq : ∀ x ∈ q, 0 ≤ x) : 0 ≤ stability p q := by
  unfold stability
  refine List.sum_nonneg ?_
  intro y hy
  obtain ⟨x, hx, rfl⟩ := List.mem_map.1 hy
  obtain ⟨hmem, hne⟩ := List.mem_filter.1 hx
  have hne' := of_decide_eq_true hne
  obtain ⟨h1, h2⟩ := List.of_mem_zip hmem
  exact Verif.Psi.summand_nonneg (lt_of_le_of_ne (hp _ h1) (Ne.symm hne'.1)) (lt_of_le_of_ne (hq _ h2) (Ne.symm hne'.2))

theorem sum_zero_iff (l : List ℝ) (h : ∀ x ∈ l, 0 ≤ x) : l.sum = 0 ↔ ∀ x ∈ l, x = 0 := by
  induction l with
  | nil => simp
  | cons a l ih =>
    have ha := h a (List.mem_cons_self ..)
    have hl : ∀ x ∈ l, 0 ≤ x := fun x hx => h x (List.mem_cons_of_mem _ hx)
    have hs := List.sum_nonneg hl
    rw [List.sum_cons]
    constructor
    · intro h0
      have e1 : a = 0 := by linarith
      have e2 : l.sum = 0 := by linarith
      intro x hx
      rcases List.mem_cons.1 hx with rfl | hx
      · exact e1
      · exact (ih hl).1 e2 x hx
    · intro h0
      rw [h0 a (List.mem_cons_self ..), (ih hl).2 (fun x hx => h0 x (List.mem_cons_of_mem _ hx))]
      simp

theorem stability_zero (p q : List ℝ) (hp : ∀ x ∈ p, 0 ≤ x) (hq : ∀ x ∈ q, 0 ≤ x) :
    stability p q = 0 ↔ ∀ x ∈ p.zip q, x.1 ≠ 0 → x.2 ≠ 0 → x.1 = x.2 := by
  unfold stability
  rw [sum_zero_iff]
  · constructor
    · intro h x hx h1 h2
      have hm : x ∈ (p.zip q).filter fun x => decide (x.1 ≠ 0 ∧ x.2 ≠ 0) := List.mem_filter.2 ⟨hx, decide_eq_true ⟨h1, h2⟩⟩
      obtain ⟨g1, g2⟩ := List.of_mem_zip hx
      have := h _ (List.mem_map.2 ⟨x, hm, rfl⟩)
      exact ((Verif.Psi.summand_zero_iff (lt_of_le_of_ne (hp _ g1) (Ne.symm h1)) (lt_of_le_of_ne (hq _ g2) (Ne.symm h2))).1 this).symm
    · intro h y hy
      obtain ⟨x, hx, rfl⟩ := List.mem_map.1 hy
      obtain ⟨hmem, hne⟩ := List.mem_filter.1 hx
      have hne' := of_decide_eq_true hne
      rw [h x hmem hne'.1 hne'.2]
      simp
  · intro y hy
    obtain ⟨x, hx, rfl⟩ := List.mem_map.1 hy
    obtain ⟨hmem, hne⟩ := List.mem_filter.1 hx
    have hne' := of_decide_eq_true hne
    obtain ⟨h1, h2⟩ := List.of_mem_zip hmem
    exact Verif.Psi.summand_nonneg (lt_of_le_of_ne (hp _ h1) (Ne.symm hne'.1)) (lt_of_le_of_ne (hq _ h2) (Ne.symm hne'.2))

theorem stability_cons (x y : ℝ) (p q : List ℝ) : stability (x :: p) (y :: q) = term x y + stability p q := by
  unfold stability term
  simp only [List.zip_cons_cons, List.filter_cons]
  by_cases h : x = 0 ∨ y = 0
  · have h' : ¬ (x ≠ 0 ∧ y ≠ 0) := by tauto
    rw [if_pos h, if_neg (by simpa using h')]
    ring
  · have h' : x ≠ 0 ∧ y ≠ 0 := by tauto
    rw [if_neg h, if_pos (by simpa using h')]
    simp

theorem term_symm (x y : ℝ) : term x y = term y x := by
  unfold term
  by_cases h : x = 0 ∨ y = 0
  · rw [if_pos h, if_pos h.symm]
  · rw [if_neg h, if_neg (fun hh => h hh.symm)]
    rw [← inv_div x y, Real.log_inv]
    ring

theorem stability_symm : ∀ p q : List ℝ, stability p q = stability q p
  | [], q => by simp [stability]
  | p, [] => by simp [stability]
  | x :: p, y :: q => by rw [stability_cons, stability_cons, term_symm, stability_symm p q]

theorem shares_nonneg (n : ℕ) (c : List ℚ) (h : ∀ x ∈ c, Whole x) : ∀ x ∈ shares n c, 0 ≤ x := by
  intro x hx
  obtain ⟨y, hy, rfl⟩ := List.mem_map.1 hx
  obtain ⟨m, rfl⟩ := h y hy
  push_cast
  positivity

/-! ## Re-binning -/

theorem pyRound_near (x : ℚ) : |x - (pyRound x : ℚ)| ≤ 1 / 2 := by
  have h1 := Int.floor_le x
  have h2 := Int.lt_floor_add_one x
  unfold pyRound
  split_ifs with a b c
  · rw [abs_le]; constructor <;> linarith
  · push_cast; rw [abs_le]; constructor <;> linarith
  · rw [abs_le]; constructor <;> linarith
  · push_cast; rw [abs_le]; constructor <;> linarith

theorem pyRound_mono {x y : ℚ} (h : x ≤ y) : pyRound x ≤ pyRound y := by
  rcases lt_or_eq_of_le (Int.floor_le_floor h) with hlt | heq
  · have h1 : pyRound x ≤ ⌊x⌋ + 1 := pyRound_le _ _ (by push_cast; exact (Int.lt_floor_add_one x).le)
    have h2 : ⌊y⌋ ≤ pyRound y := le_pyRound _ _ (Int.floor_le y)
    omega
  · unfold pyRound
    rw [← heq]
    split_ifs <;> first | omega | (exfalso; linarith)

/-- The edges used. -/
def used (isFloat : Bool) (es : List ℚ) : List ℚ := if isFloat then es else es.map fun e => (pyRound e : ℚ)

theorem used_rounded (isFloat : Bool) (es : List ℚ) : Rounded isFloat es (used isFloat es) := by
  unfold Rounded used
  cases isFloat
  · simp only [Bool.false_eq_true, if_false]
    induction es with
    | nil => exact List.Forall₂.nil
    | cons e es ih => exact List.Forall₂.cons ⟨⟨_, rfl⟩, pyRound_near e⟩ ih
  · simp

theorem used_length (isFloat : Bool) (es : List ℚ) : (used isFloat es).length = es.length := by
  unfold used
  split_ifs <;> simp

theorem used_sorted (isFloat : Bool) (es : List ℚ) (h : es.Pairwise (· ≤ ·)) : (used isFloat es).Pairwise (· ≤ ·) := by
  unfold used
  split_ifs
  · exact h
  · rw [List.pairwise_map]
    refine h.imp ?_
    intro a b hab
    exact_mod_cast pyRound_mono hab

theorem regenerate_spec (isFloat : Bool) (h : Hist) (lo hi : ℚ) (V : Valid h.counts h.edges) (hlh : lo ≤ hi) :
    ∃ out loss, regenerate h.counts h.edges 10 isFloat (some (lo, hi)) = .ok (⟨out, linspace lo hi 10⟩, loss) ∧
      Rebinned h.counts (used isFloat h.edges) (linspace lo hi 10) out := by
  have hl : (used isFloat h.edges).length = h.counts.length + 1 := by rw [used_length, V.length]
  obtain ⟨out, loss, h1, h2, h3⟩ := C07_mass h.counts (used isFloat h.edges) (List.replicate 10 0) (linspace lo hi 10) 10 (by norm_num) hl
    (by simp) (linspace_length _ _ _)
  have hne : h.edges ≠ [] := by
    intro h0
    have := V.length
    rw [h0] at this
    simp at this
  refine ⟨out, loss, ?_, ?_⟩
  · unfold regenerate
    rw [firstLast_ok h.edges _ _ (List.head?_eq_some_head hne) (List.getLast?_eq_some_getLast hne)]
    show (do
      let r ← assimilate h.counts (used isFloat h.edges) (List.replicate 10 0) (linspace lo hi 10) 10
      (Except.ok (⟨r.1, linspace lo hi 10⟩, r.2) : Except Err (Hist × ℚ))) = _
    rw [h1]
    rfl
  · refine ⟨by rw [h2, linspace_length], by rw [h3]; simp, ?_, ?_⟩
    · intro c hc
      exact ((C07_whole h.counts _ _ _ 10 (by norm_num) hl (by simp) (linspace_length _ _ _) V.whole
        (fun c hc => ⟨0, by simpa using (List.mem_replicate.1 hc).2⟩) out loss h1).1 c hc).1
    · intro j x hj hjn hx
      rw [h2] at hjn
      have := C07_local h.counts (used isFloat h.edges) (List.replicate 10 0) (linspace lo hi 10) 10 (by norm_num) hl (by simp)
        (linspace_length _ _ _) V.whole (used_sorted isFloat _ V.sorted) (linspace_sorted _ _ _ hlh) out loss h1 j x hj hjn hx
      have hz : ((List.replicate 10 (0 : ℚ)).take j).sum = 0 := by rw [List.take_replicate, List.sum_replicate, nsmul_zero]
      rw [hz, zero_add, zero_add] at this
      exact this

theorem prepare_eq (isFloat : Bool) (h1 h2 : Hist) (a1 b1 a2 b2 : ℚ) (e1 : firstLast h1.edges = .ok (a1, b1))
    (e2 : firstLast h2.edges = .ok (a2, b2)) (hne : min a1 a2 ≠ max b1 b2) :
    prepare isFloat (some h1) (some h2) = (do
      let c1 ← selfCounts isFloat h1 (min a1 a2) (max b1 b2)
      let c2 ← otherCounts isFloat h1 h2 (min a1 a2) (max b1 b2)
      .ok (.counts c1 c2)) := by
  unfold prepare
  simp only [e1, e2]
  show (if min a1 a2 = max b1 b2 then _ else _) = _
  rw [if_neg hne]

/-- C78: unless the first column has ten bins or the edges agree, both histograms are re-binned to the same ten bins, from the least first edge to the
greatest last one, and the index is that of the shares of these bins: not negative, and zero exactly if the shares agree in every bin that both use. -/
theorem C78_psi_partial (isFloat : Bool) (h1 h2 : Hist) (n1 n2 : ℕ) (a1 b1 a2 b2 : ℚ) (V1 : Valid h1.counts h1.edges) (V2 : Valid h2.counts h2.edges)
    (f1 : h1.edges.head? = some a1) (l1 : h1.edges.getLast? = some b1) (f2 : h2.edges.head? = some a2) (l2 : h2.edges.getLast? = some b2)
    (hlt : min a1 a2 < max b1 b2) (hten : h1.counts.length ≠ 10) (hedges : h2.edges ≠ h1.edges) :
    ∃ de es1 es2 c1 c2 x, Even (min a1 a2) (max b1 b2) 10 de ∧ Rounded isFloat h1.edges es1 ∧ Rounded isFloat h2.edges es2 ∧
      Rebinned h1.counts es1 de c1 ∧ Rebinned h2.counts es2 de c2 ∧ psi isFloat n1 (some h1) n2 (some h2) = .ok (some x) ∧
      x = stability (shares n1 c1) (shares n2 c2) ∧ 0 ≤ x ∧
      (x = 0 ↔ ∀ s ∈ (shares n1 c1).zip (shares n2 c2), s.1 ≠ 0 → s.2 ≠ 0 → s.1 = s.2) := by
  obtain ⟨c1, loss1, r1, R1⟩ := regenerate_spec isFloat h1 (min a1 a2) (max b1 b2) V1 hlt.le
  obtain ⟨c2, loss2, r2, R2⟩ := regenerate_spec isFloat h2 (min a1 a2) (max b1 b2) V2 hlt.le
  have hlen : c1.length ≤ c2.length := by
    have := R1.length
    have := R2.length
    omega
  refine ⟨linspace (min a1 a2) (max b1 b2) 10, used isFloat h1.edges, used isFloat h2.edges, c1, c2, stability (shares n1 c1) (shares n2 c2),
    ⟨linspace_length _ _ _, fun i hi => linspace_get _ _ _ i hi⟩, used_rounded _ _, used_rounded _ _, R1, R2, ?_, rfl,
    stability_nonneg _ _ (shares_nonneg n1 c1 R1.whole) (shares_nonneg n2 c2 R2.whole),
    stability_zero _ _ (shares_nonneg n1 c1 R1.whole) (shares_nonneg n2 c2 R2.whole)⟩
  unfold psi
  rw [prepare_eq isFloat h1 h2 a1 b1 a2 b2 (firstLast_ok _ _ _ f1 l1) (firstLast_ok _ _ _ f2 l2) hlt.ne]
  unfold selfCounts otherCounts
  rw [if_pos hten, if_pos hedges, r1, r2]
  show (psiLoop n1 n2 c2 0 c1 0).map some = _
  rw [psiLoop_zero n1 n2 c1 c2 hlen]
  rfl

/-- Three bins from 0 to 3 and two from 1 to 5. -/
example : ∃ h1 h2 : Hist, Valid h1.counts h1.edges ∧ Valid h2.counts h2.edges ∧ h1.edges.head? = some 0 ∧ h2.edges.getLast? = some 5 ∧
    h1.counts.length ≠ 10 ∧ h2.edges ≠ h1.edges := by
  refine ⟨⟨[1, 2, 1], [0, 1, 2, 3]⟩, ⟨[2, 2], [1, 3, 5]⟩, ⟨rfl, by decide +kernel, ?_⟩, ⟨rfl, by decide +kernel, ?_⟩, rfl, rfl, by decide, by decide +kernel⟩
  · intro c hc
    simp only [List.mem_cons, List.not_mem_nil, or_false] at hc
    rcases hc with rfl | rfl | rfl
    · exact ⟨1, by norm_num⟩
    · exact ⟨2, by norm_num⟩
    · exact ⟨1, by norm_num⟩
  · intro c hc
    simp only [List.mem_cons, List.not_mem_nil, or_false, or_self] at hc
    subst hc
    exact ⟨2, by norm_num⟩

/-- C78: under the same conditions for both columns the index is the same in both directions. -/
theorem C78_swap_partial (isFloat : Bool) (h1 h2 : Hist) (n1 n2 : ℕ) (a1 b1 a2 b2 : ℚ) (V1 : Valid h1.counts h1.edges) (V2 : Valid h2.counts h2.edges)
    (f1 : h1.edges.head? = some a1) (l1 : h1.edges.getLast? = some b1) (f2 : h2.edges.head? = some a2) (l2 : h2.edges.getLast? = some b2)
    (hlt : min a1 a2 < max b1 b2) (hten1 : h1.counts.length ≠ 10) (hten2 : h2.counts.length ≠ 10) (hedges : h2.edges ≠ h1.edges) :
    psi isFloat n1 (some h1) n2 (some h2) = psi isFloat n2 (some h2) n1 (some h1) := by
  obtain ⟨c1, loss1, r1, R1⟩ := regenerate_spec isFloat h1 (min a1 a2) (max b1 b2) V1 hlt.le
  obtain ⟨c2, loss2, r2, R2⟩ := regenerate_spec isFloat h2 (min a1 a2) (max b1 b2) V2 hlt.le
  have hlen : c1.length = c2.length := by
    have := R1.length
    have := R2.length
    omega
  have x1 : psi isFloat n1 (some h1) n2 (some h2) = .ok (some (stability (shares n1 c1) (shares n2 c2))) := by
    unfold psi
    rw [prepare_eq isFloat h1 h2 a1 b1 a2 b2 (firstLast_ok _ _ _ f1 l1) (firstLast_ok _ _ _ f2 l2) hlt.ne]
    unfold selfCounts otherCounts
    rw [if_pos hten1, if_pos hedges, r1, r2]
    show (psiLoop n1 n2 c2 0 c1 0).map some = _
    rw [psiLoop_zero n1 n2 c1 c2 hlen.le]
    rfl
  have x2 : psi isFloat n2 (some h2) n1 (some h1) = .ok (some (stability (shares n2 c2) (shares n1 c1))) := by
    unfold psi
    rw [prepare_eq isFloat h2 h1 a2 b2 a1 b1 (firstLast_ok _ _ _ f2 l2) (firstLast_ok _ _ _ f1 l1) (by rw [min_comm, max_comm]; exact hlt.ne)]
    unfold selfCounts otherCounts
    rw [if_pos hten2, if_pos (Ne.symm hedges), min_comm a2 a1, max_comm b2 b1, r1, r2]
    show (psiLoop n2 n1 c1 0 c2 0).map some = _
    rw [psiLoop_zero n2 n1 c2 c1 hlen.ge]
    rfl
  rw [x1, x2, stability_symm]

/-- C78: two columns with the same edges of ten bins are compared bin by bin; with the same shares the index is zero. -/
theorem C78_ten (isFloat : Bool) (h1 h2 : Hist) (n1 n2 : ℕ) (a b : ℚ) (hw2 : ∀ c ∈ h2.counts, Whole c)
    (f : h1.edges.head? = some a) (l : h1.edges.getLast? = some b) (hlt : a < b) (hten1 : h1.counts.length = 10) (hten2 : h2.counts.length = 10)
    (hedges : h2.edges = h1.edges) :
    psi isFloat n1 (some h1) n2 (some h2) = .ok (some (stability (shares n1 h1.counts) (shares n2 h2.counts))) ∧
    (shares n1 h1.counts = shares n2 h2.counts → psi isFloat n1 (some h1) n2 (some h2) = .ok (some 0)) := by
  have key : psi isFloat n1 (some h1) n2 (some h2) = .ok (some (stability (shares n1 h1.counts) (shares n2 h2.counts))) := by
    unfold psi
    rw [prepare_eq isFloat h1 h2 a b a b (firstLast_ok _ _ _ f l) (firstLast_ok _ _ _ (by rw [hedges]; exact f) (by rw [hedges]; exact l))
      (by rw [min_self, max_self]; exact hlt.ne)]
    unfold selfCounts otherCounts
    rw [if_neg (fun h => h hten1), if_neg (fun h => h hedges)]
    show (psiLoop n1 n2 h2.counts 0 h1.counts 0).map some = _
    rw [psiLoop_zero n1 n2 h1.counts h2.counts (by rw [hten1, hten2])]
    rfl
  refine ⟨key, ?_⟩
  intro hs
  rw [key, hs]
  congr 2
  rw [stability_zero _ _ (shares_nonneg _ _ hw2) (shares_nonneg _ _ hw2)]
  intro x hx _ _
  obtain ⟨i, hi, rfl⟩ := List.mem_iff_getElem.1 hx
  simp

/-- C78: two columns that hold one and the same value have index zero; without a histogram there is no index. -/
theorem C78_degenerate (isFloat : Bool) (h1 h2 : Hist) (n1 n2 : ℕ) (a : ℚ) (f1 : h1.edges.head? = some a) (l1 : h1.edges.getLast? = some a)
    (f2 : h2.edges.head? = some a) (l2 : h2.edges.getLast? = some a) (h : Option Hist) :
    psi isFloat n1 (some h1) n2 (some h2) = .ok (some 0) ∧ psi isFloat n1 none n2 h = .ok none ∧ psi isFloat n1 h n2 none = .ok none := by
  refine ⟨?_, ?_, ?_⟩
  · unfold psi prepare
    simp only [firstLast_ok _ _ _ f1 l1, firstLast_ok _ _ _ f2 l2]
    show ((if min a a = max a a then Except.ok Prepared.constant else _) >>= psiOf n1 n2) = _
    rw [if_pos (by simp)]
    rfl
  · rfl
  · cases h <;> rfl

/-! ## Failing cases -/

/-- C78 fails: a histogram with fewer than ten bins and different ends cannot be compared with one with the same edges, itself for example: it raises
`IndexError`. So does the difference of text columns, which does not even report the index. -/
theorem C78_few_bins_fails {α : Type} (rest : α) (h1 h2 : Hist) (n1 n2 : ℕ) (a b : ℚ) (V1 : Valid h1.counts h1.edges) (V2 : Valid h2.counts h2.edges)
    (hedges : h2.edges = h1.edges) (f : h1.edges.head? = some a) (l : h1.edges.getLast? = some b) (hlt : a < b) (hfew : h1.counts.length < 10) :
    (∀ isFloat, psi isFloat n1 (some h1) n2 (some h2) = .error .indexError) ∧ textDiff rest n1 (some h1) n2 (some h2) = .error .indexError := by
  have key : ∀ isFloat, psi isFloat n1 (some h1) n2 (some h2) = .error .indexError := by
    intro isFloat
    obtain ⟨c1, loss1, r1, R1⟩ := regenerate_spec isFloat h1 (min a a) (max b b) V1 (by rw [min_self, max_self]; exact hlt.le)
    have hlen : c1.length = 10 := by
      have := R1.length
      rw [linspace_length] at this
      omega
    unfold psi
    rw [prepare_eq isFloat h1 h2 a b a b (firstLast_ok _ _ _ f l) (firstLast_ok _ _ _ (by rw [hedges]; exact f) (by rw [hedges]; exact l))
      (by rw [min_self, max_self]; exact hlt.ne)]
    unfold selfCounts otherCounts
    rw [if_pos (by omega), if_neg (fun h => h hedges), r1]
    show (psiLoop n1 n2 h2.counts 0 c1 0).map some = _
    have hl2 : h2.counts.length = h1.counts.length := by
      have e1 := V1.length
      have e2 := V2.length
      rw [hedges] at e2
      omega
    rw [psiLoop_short n1 n2 h2.counts c1 0 0 (by omega) (Nat.zero_le _)]
    rfl
  refine ⟨key, ?_⟩
  unfold textDiff
  rw [key]
  rfl

/-- A histogram with `k` values in each of `m` bins of width one. -/
def flat (m : ℕ) (k : ℚ) : Hist := ⟨List.replicate m k, (List.range (m + 1)).map fun i : ℕ => (i : ℚ)⟩

theorem flat_regenerated : (regenerate (flat 1000 1).counts (flat 1000 1).edges 10 true (some (0, 1000))).map (fun r => r.1.counts) =
    .ok (List.replicate 10 100) := by
  decide +kernel

theorem stability_replicate (x y : ℝ) (hx : x ≠ 0) (hy : y ≠ 0) : ∀ (k m : ℕ), k ≤ m →
    stability (List.replicate k x) (List.replicate m y) = k * ((y - x) * Real.log (y / x))
  | 0, m, _ => by simp [stability]
  | k + 1, 0, h => by omega
  | k + 1, m + 1, h => by
    rw [List.replicate_succ, List.replicate_succ, stability_cons, stability_replicate x y hx hy k m (by omega)]
    have : ¬ (x = 0 ∨ y = 0) := by tauto
    unfold term
    rw [if_neg this]
    push_cast
    ring

/-- C78 fails: with the usual number of bins, a thousand, a column compared with itself (here the values spread evenly) does not have index zero: the
ten bins of the one are compared with the first ten of the thousand bins of the other. -/
theorem C78_itself_fails : ∃ x : ℝ, psi true 1000 (some (flat 1000 1)) 1000 (some (flat 1000 1)) = .ok (some x) ∧ x = 99 / 100 * Real.log 100 ∧ 0 < x := by
  refine ⟨99 / 100 * Real.log 100, ?_, rfl, ?_⟩
  · have e : firstLast (flat 1000 1).edges = .ok (0, 1000) := by decide +kernel
    unfold psi
    rw [prepare_eq true (flat 1000 1) (flat 1000 1) 0 1000 0 1000 e e (by norm_num)]
    unfold selfCounts otherCounts
    rw [min_self, max_self, if_pos (by rw [flat, List.length_replicate]; norm_num), if_neg (fun h => h rfl), flat_regenerated]
    show (psiLoop 1000 1000 (List.replicate 1000 1) 0 (List.replicate 10 100) 0).map some = _
    rw [psiLoop_zero _ _ _ _ (by rw [List.length_replicate, List.length_replicate]; norm_num)]
    have : stability (shares 1000 (List.replicate 10 100)) (shares 1000 (List.replicate 1000 1)) = 99 / 100 * Real.log 100 := by
      unfold shares
      rw [List.map_replicate, List.map_replicate, stability_replicate _ _ (by norm_num) (by norm_num) 10 1000 (by norm_num)]
      have h2 : ((1 : ℚ) : ℝ) / (1000 : ℕ) / (((100 : ℚ) : ℝ) / (1000 : ℕ)) = (100 : ℝ)⁻¹ := by norm_num
      rw [h2, Real.log_inv]
      push_cast
      ring
    rw [this]
    rfl
  · have := Real.log_pos (show (1 : ℝ) < 100 by norm_num)
    linarith

/-- Ten values in ten bins from 0 to 10, and the same distribution in ten bins from 0 to 20. -/
def narrow : Hist := flat 10 1
def wide : Hist := ⟨[2, 2, 2, 2, 2, 0, 0, 0, 0, 0], [0, 2, 4, 6, 8, 10, 12, 14, 16, 18, 20]⟩

/-- C78 fails: a histogram with ten bins is never moved to the common range, so that two columns with the same distribution have a positive index in one
direction and zero in the other. -/
theorem C78_ten_bins_fails : (∃ x : ℝ, psi true 10 (some narrow) 10 (some wide) = .ok (some x) ∧ 0 < x) ∧
    psi true 10 (some wide) 10 (some narrow) = .ok (some 0) := by
  have en : firstLast narrow.edges = .ok (0, 10) := by decide +kernel
  have ew : firstLast wide.edges = .ok (0, 20) := by decide +kernel
  have hmax1 : max (10 : ℚ) 20 = 20 := by norm_num
  have hmax2 : max (20 : ℚ) 10 = 20 := by norm_num
  have r1 : (regenerate wide.counts wide.edges 10 true (some (0, 20))).map (fun r => r.1.counts) = .ok wide.counts := by decide +kernel
  have r2 : (regenerate narrow.counts narrow.edges 10 true (some (0, 20))).map (fun r => r.1.counts) = .ok wide.counts := by decide +kernel
  have hne : wide.edges ≠ narrow.edges := by decide +kernel
  constructor
  · refine ⟨stability (shares 10 narrow.counts) (shares 10 wide.counts), ?_, ?_⟩
    · unfold psi
      rw [prepare_eq true narrow wide 0 10 0 20 en ew (by rw [hmax1]; norm_num)]
      unfold selfCounts otherCounts
      rw [min_self, hmax1, if_neg (fun h => h rfl), if_pos hne, r1]
      show (psiLoop 10 10 wide.counts 0 narrow.counts 0).map some = _
      rw [psiLoop_zero _ _ _ _ (by decide)]
      rfl
    · have hl := Real.log_pos (show (1 : ℝ) < 2 by norm_num)
      have hw1 : ∀ c ∈ narrow.counts, Whole c := by
        intro c hc
        have : c = 1 := (List.mem_replicate.1 hc).2
        exact ⟨1, by rw [this]; norm_num⟩
      have hw2 : ∀ c ∈ wide.counts, Whole c := by
        intro c hc
        have : ∀ c ∈ wide.counts, c = 2 ∨ c = 0 := by decide +kernel
        rcases this c hc with rfl | rfl
        · exact ⟨2, by norm_num⟩
        · exact ⟨0, by norm_num⟩
      refine lt_of_le_of_ne (stability_nonneg _ _ (shares_nonneg _ _ hw1) (shares_nonneg _ _ hw2)) ?_
      intro h0
      have := (stability_zero _ _ (shares_nonneg _ _ hw1) (shares_nonneg _ _ hw2)).1 h0.symm ((1 : ℝ) / 10, 2 / 10)
        (by simp [shares, narrow, flat, wide]) (by norm_num) (by norm_num)
      norm_num at this
  · unfold psi
    rw [prepare_eq true wide narrow 0 20 0 10 ew en (by rw [hmax2]; norm_num)]
    unfold selfCounts otherCounts
    rw [min_self, hmax2, if_neg (fun h => h rfl), if_pos (Ne.symm hne), r2]
    show (psiLoop 10 10 wide.counts 0 wide.counts 0).map some = _
    rw [psiLoop_zero _ _ _ _ (le_refl _)]
    have : stability (shares 10 wide.counts) (shares 10 wide.counts) = 0 := by
      unfold stability
      refine List.sum_eq_zero ?_
      intro y hy
      obtain ⟨x, hx, rfl⟩ := List.mem_map.1 hy
      obtain ⟨hmem, -⟩ := List.mem_filter.1 hx
      obtain ⟨i, hi, rfl⟩ := List.mem_iff_getElem.1 hmem
      simp
    rw [this]
    rfl

/-- C78 fails: columns that share no bin have index zero, like columns with the same distribution. -/
theorem C78_disjoint_fails (n1 n2 : ℕ) (c1 c2 : List ℚ) (hlen : c1.length = c2.length) (h : ∀ x ∈ c1.zip c2, x.1 = 0 ∨ x.2 = 0) :
    psiOf n1 n2 (.counts c1 c2) = .ok (some 0) := by
  show (psiLoop n1 n2 c2 0 c1 0).map some = _
  rw [psiLoop_zero _ _ _ _ hlen.le]
  have : stability (shares n1 c1) (shares n2 c2) = 0 := by
    unfold stability
    rw [List.filter_eq_nil_iff.2]
    · rfl
    · intro x hx
      unfold shares at hx
      rw [List.zip_map] at hx
      obtain ⟨y, hy, rfl⟩ := List.mem_map.1 hx
      rcases h y hy with h0 | h0 <;> simp [h0]
  rw [this]
  rfl

example : ∀ x ∈ ([3, 0] : List ℚ).zip [0, 2], x.1 = 0 ∨ x.2 = 0 := by simp

end Verif.Props.NumPsi
