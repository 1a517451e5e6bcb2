import Verif.Model.BatchBins
import Verif.Spec.BatchBins
import Verif.Props.BinWidth
import Mathlib.Algebra.Order.Floor.Semifield

/-!
# Extremes, moments and quartiles of a list of values
-/

namespace Verif.Lemmas.BatchBins

open Verif Verif.BatchBins Verif.Spec.BinWidth Verif.Spec.BatchBins

theorem foldl_min (l : List ℝ) (a : ℝ) : (l.foldl min a = a ∨ l.foldl min a ∈ l) ∧ l.foldl min a ≤ a ∧ ∀ x ∈ l, l.foldl min a ≤ x := by
  induction l generalizing a with
  | nil => simp
  | cons y l ih =>
    obtain ⟨h1, h2, h3⟩ := ih (min a y)
    refine ⟨?_, ?_, ?_⟩
    · rcases h1 with h | h
      · rw [List.foldl_cons, h]
        rcases min_choice a y with e | e
        · exact Or.inl e
        · right; rw [e]; simp
      · right; exact List.mem_cons_of_mem _ h
    · exact h2.trans (min_le_left _ _)
    · intro x hx
      rcases List.mem_cons.1 hx with rfl | hx
      · exact h2.trans (min_le_right _ _)
      · exact h3 x hx

theorem foldl_max (l : List ℝ) (a : ℝ) : (l.foldl max a = a ∨ l.foldl max a ∈ l) ∧ a ≤ l.foldl max a ∧ ∀ x ∈ l, x ≤ l.foldl max a := by
  induction l generalizing a with
  | nil => simp
  | cons y l ih =>
    obtain ⟨h1, h2, h3⟩ := ih (max a y)
    refine ⟨?_, ?_, ?_⟩
    · rcases h1 with h | h
      · rw [List.foldl_cons, h]
        rcases max_choice a y with e | e
        · exact Or.inl e
        · right; rw [e]; simp
      · right; exact List.mem_cons_of_mem _ h
    · exact (le_max_left _ _).trans h2
    · intro x hx
      rcases List.mem_cons.1 hx with rfl | hx
      · exact (le_max_right _ _).trans h2
      · exact h3 x hx

theorem extremes (vs : List ℝ) (h : vs ≠ []) : Extremes (least vs) (greatest vs) vs := by
  obtain ⟨a, l, rfl⟩ := List.exists_cons_of_ne_nil h
  obtain ⟨h1, h2, h3⟩ := foldl_min (a :: l) a
  obtain ⟨g1, g2, g3⟩ := foldl_max (a :: l) a
  refine ⟨⟨?_, h3⟩, ?_, g3⟩
  · rcases h1 with e | e
    · unfold least; rw [List.headD_cons, e]; simp
    · exact e
  · rcases g1 with e | e
    · unfold greatest; rw [List.headD_cons, e]; simp
    · exact e

theorem extremes_unique (vs : List ℝ) (low high : ℝ) (h : Extremes low high vs) : least vs = low ∧ greatest vs = high := by
  have hne : vs ≠ [] := fun e => by rw [e] at h; simp [Extremes] at h
  have g := extremes vs hne
  exact ⟨le_antisymm (g.1.2 _ h.1.1) (h.1.2 _ g.1.1), le_antisymm (h.2.2 _ g.2.1) (g.2.2 _ h.2.1)⟩

theorem spread_eq (vs : List ℝ) (low high : ℝ) (h : Extremes low high vs) : spread vs = high - low := by
  unfold spread
  rw [(extremes_unique vs low high h).1, (extremes_unique vs low high h).2]

theorem same_iff (vs : List ℝ) (low high : ℝ) (h : Extremes low high vs) : Same vs ↔ low = high := by
  constructor
  · intro hs
    exact hs _ h.1.1 _ h.2.1
  · rintro rfl x hx y hy
    rw [le_antisymm (h.2.2 x hx) (h.1.2 x hx), le_antisymm (h.2.2 y hy) (h.1.2 y hy)]

theorem average_eq (vs : List ℝ) : average vs = mean vs := rfl

theorem sigma_eq (vs : List ℝ) : sigma vs = std vs := by
  unfold sigma std moment
  simp only [average_eq, pow_two]

theorem std_nonneg (vs : List ℝ) : 0 ≤ std vs := Real.sqrt_nonneg _

theorem std_same (vs : List ℝ) (hne : vs ≠ []) (hs : Same vs) : std vs = 0 := by
  rcases (std_nonneg vs).eq_or_lt with h | h
  · exact h.symm
  · have e := extremes vs hne
    have hlt := Verif.Props.BinWidth.extremes_std vs _ _ e h
    exact absurd ((same_iff vs _ _ e).1 hs) hlt.ne

theorem std_pos (vs : List ℝ) (hne : vs ≠ []) (hs : ¬ Same vs) : 0 < std vs := by
  unfold std
  rw [Real.sqrt_pos]
  have h0 := Verif.Props.BinWidth.moment_two_nonneg vs
  rcases h0.eq_or_lt with h | h
  · exfalso
    apply hs
    unfold moment mean at h
    have hlen : (vs.length : ℝ) ≠ 0 := by
      have := List.length_pos_iff.2 hne
      positivity
    rw [List.length_map, eq_comm, div_eq_zero_iff] at h
    have hsum := h.resolve_right hlen
    have key : ∀ (l : List ℝ) (c : ℝ), (l.map fun x => (x - c) ^ 2).sum = 0 → ∀ x ∈ l, x = c := by
      intro l c
      induction l with
      | nil => simp
      | cons y l ih =>
        intro hz x hx
        have hn : 0 ≤ (l.map fun x => (x - c) ^ 2).sum := by
          refine List.sum_nonneg ?_
          intro z hz
          obtain ⟨w, -, rfl⟩ := List.mem_map.1 hz
          exact sq_nonneg _
        have hy := sq_nonneg (y - c)
        rw [List.map_cons, List.sum_cons] at hz
        rcases List.mem_cons.1 hx with rfl | hx
        · have : (x - c) ^ 2 = 0 := by linarith
          have := pow_eq_zero_iff (two_ne_zero) |>.1 this
          linarith
        · exact ih (by linarith) x hx
    intro x hx y hy
    rw [key vs _ hsum x hx, key vs _ hsum y hy]
  · exact h

/-! ## Quartiles -/

open Classical in
theorem sorted_eq (s vs : List ℝ) (h : Ascending s vs) : vs.mergeSort (fun x y => decide (x ≤ y)) = s := by
  have h1 : (vs.mergeSort (fun x y => decide (x ≤ y))).Pairwise (· ≤ ·) := by
    have := List.pairwise_mergeSort (le := fun x y : ℝ => decide (x ≤ y)) (by
      intro a b c hab hbc
      simp only [decide_eq_true_eq] at *
      linarith) (by
      intro a b
      simp only [Bool.or_eq_true, decide_eq_true_eq]
      exact le_total a b) vs
    exact this.imp (by simp)
  exact List.Perm.eq_of_pairwise (fun a b _ _ hab hba => le_antisymm hab hba) h1 h.2 ((List.mergeSort_perm _ _).trans h.1.symm)

theorem floor_div4 (t : ℕ) : ⌊(t : ℝ) / ((4 : ℕ) : ℝ)⌋₊ = t / 4 := by
  exact Nat.floor_div_eq_div t 4

theorem percentile_eq (s vs : List ℝ) (hne : vs ≠ []) (h : Ascending s vs) (k : ℕ) (hk : k ≤ 3) (q : ℝ) (hq : q = 25 * k) :
    percentile q vs = quartile k s := by
  have hlen : vs.length = s.length := h.1.length_eq.symm
  have hpos : 0 < vs.length := List.length_pos_iff.2 hne
  unfold percentile quartile
  simp only
  rw [sorted_eq s vs h, hlen]
  rw [hlen] at hpos
  obtain ⟨n, hn⟩ : ∃ n, s.length = n + 1 := ⟨s.length - 1, by omega⟩
  rw [hn]
  have e1 : q / 100 * (((n + 1 : ℕ) : ℝ) - 1) = ((k * n : ℕ) : ℝ) / ((4 : ℕ) : ℝ) := by
    rw [hq]
    push_cast
    ring
  rw [e1, floor_div4]
  simp only [Nat.add_sub_cancel]
  have e2 : ((k * n : ℕ) : ℝ) = 4 * ((k * n / 4 : ℕ) : ℝ) + ((k * n % 4 : ℕ) : ℝ) := by
    exact_mod_cast (Nat.div_add_mod (k * n) 4).symm
  by_cases hr : k * n % 4 = 0
  · rw [hr] at e2 ⊢
    rw [e2]
    push_cast
    ring
  · have hle : k * n / 4 + 1 ≤ n := by
      have : k * n ≤ 3 * n := Nat.mul_le_mul_right _ hk
      omega
    rw [Nat.min_eq_left hle, e2]
    push_cast
    ring

theorem getD_mono (s : List ℝ) (h : s.Pairwise (· ≤ ·)) {i j : ℕ} (hij : i ≤ j) (hj : j < s.length) : s.getD i 0 ≤ s.getD j 0 := by
  rw [List.getD_eq_getElem?_getD, List.getD_eq_getElem?_getD, List.getElem?_eq_getElem hj, List.getElem?_eq_getElem (lt_of_le_of_lt hij hj)]
  simp only [Option.getD_some]
  rcases hij.eq_or_lt with rfl | hlt
  · exact le_refl _
  · exact List.pairwise_iff_getElem.1 h i j _ hj hlt

theorem quartiles_le (s : List ℝ) (h : s.Pairwise (· ≤ ·)) : quartile 1 s ≤ quartile 3 s := by
  unfold quartile
  simp only
  rcases Nat.eq_zero_or_pos s.length with h0 | hpos
  · rw [List.length_eq_zero_iff] at h0
    subst h0
    simp
  obtain ⟨n, hn⟩ : ∃ n, s.length = n + 1 := ⟨s.length - 1, by omega⟩
  rw [hn]
  simp only [Nat.add_sub_cancel, one_mul]
  have key : ∀ t : ℕ, t ≤ 3 * n → ∀ (x : ℝ), x = ((4 - ((t % 4 : ℕ) : ℝ)) * s.getD (t / 4) 0 + ((t % 4 : ℕ) : ℝ) * s.getD (t / 4 + 1) 0) / 4 →
      s.getD (t / 4) 0 ≤ x ∧ (t % 4 ≠ 0 → x ≤ s.getD (t / 4 + 1) 0) ∧ (t % 4 = 0 → x = s.getD (t / 4) 0) := by
    intro t ht x hx
    have hr : t % 4 < 4 := Nat.mod_lt _ (by norm_num)
    have hr' : ((t % 4 : ℕ) : ℝ) ≤ 4 := by exact_mod_cast hr.le
    have hr0 : (0 : ℝ) ≤ ((t % 4 : ℕ) : ℝ) := Nat.cast_nonneg _
    by_cases h0 : t % 4 = 0
    · rw [h0] at hx
      refine ⟨?_, fun h => absurd h0 h, fun _ => ?_⟩ <;> rw [hx] <;> push_cast <;> linarith
    · have hm := getD_mono s h (Nat.le_succ (t / 4)) (by omega)
      refine ⟨?_, fun _ => ?_, fun h => absurd h h0⟩
      · rw [hx]
        nlinarith
      · rw [hx]
        nlinarith
  obtain ⟨a1, a2, a3⟩ := key n (by omega) _ rfl
  obtain ⟨b1, b2, b3⟩ := key (3 * n) (le_refl _) _ rfl
  by_cases hd : n / 4 = 3 * n / 4
  · -- both in the same gap: only for at most two values
    have hn2 : n ≤ 1 := by omega
    interval_cases n
    · simp
    · simp only [Nat.reduceDiv, Nat.reduceMod, Nat.reduceMul]
      have hm := getD_mono s h (Nat.zero_le 1) (by omega)
      push_cast
      linarith
  · have hlt : n / 4 + 1 ≤ 3 * n / 4 := by omega
    have hin : 3 * n / 4 < s.length := by omega
    by_cases h0 : n % 4 = 0
    · exact (a3 h0).le.trans ((getD_mono s h (by omega) hin).trans b1)
    · exact (a2 h0).trans ((getD_mono s h hlt hin).trans b1)

theorem exists_ascending (vs : List ℝ) : ∃ s, Ascending s vs := by
  classical
  refine ⟨vs.insertionSort (· ≤ ·), List.perm_insertionSort _ _, ?_⟩
  exact List.pairwise_insertionSort _ _

end Verif.Lemmas.BatchBins
