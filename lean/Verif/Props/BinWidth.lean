import Verif.Spec.BinWidth
import Mathlib.Analysis.Real.Pi.Bounds
import Mathlib.Tactic.FieldSimp
import Mathlib.Tactic.Linarith
import Mathlib.Tactic.Positivity
import Mathlib.Tactic.NormNum
import Mathlib.Tactic.IntervalCases

/-!
# C76: the number of bins a merged profile suggests
-/

namespace Verif.Props.BinWidth

open Verif Verif.BinWidth Verif.Spec.BinWidth

/-! ## Widths that divide the range -/

theorem binsOf_div (p : Prof) (r d : ℝ) (hp : ptp p = .fin r) (hr : 0 < r) (hd : 0 < d) :
    binsOf p ((ptp p).div (.fin d)) = .ok ⌈d⌉ := by
  have h1 : (Fl.fin r).div (.fin d) = .fin (r / d) := by simp [Fl.div, hd.ne']
  have h2 : r / d ≠ 0 := (div_pos hr hd).ne'
  unfold binsOf
  rw [hp, h1, if_pos ⟨h2, fun h => h⟩]
  have h3 : (Fl.fin r).div (.fin (r / d)) = .fin d := by
    simp only [Fl.div, if_neg h2]
    congr 1
    field_simp
  rw [h3]
  rfl

theorem binsOf_zero (p : Prof) : binsOf p (.fin 0) = .ok 1 := by
  unfold binsOf
  rw [if_neg (fun h => h.1 rfl)]

theorem ptp_eq (p : Prof) (low high : ℝ) (hl : lo p = .fin low) (hh : hi p = .fin high) : ptp p = .fin (high - low) := by
  unfold ptp
  rw [hl, hh]
  rfl

theorem least_ceil (d : ℝ) (hd : 0 ≤ d) (P : ℕ → Prop) (h : ∀ j : ℕ, P j ↔ d ≤ j) : LeastWith ⌈d⌉ P := by
  refine ⟨⌈d⌉₊, ?_, ?_, ?_⟩
  · exact (Int.natCast_ceil_eq_ceil hd).symm
  · rw [h]
    exact Nat.le_ceil d
  · intro i hi
    exact Nat.ceil_le.2 ((h i).1 hi)

theorem one_le_cast {n : ℕ} (h : n ≠ 0) : (1 : ℝ) ≤ n := by
  have : 1 ≤ n := by omega
  exact_mod_cast this

theorem two_pow_pred {j : ℕ} (hj : 1 ≤ j) : (2 : ℝ) ^ ((j : ℝ) - 1) = ((2 ^ (j - 1) : ℕ) : ℝ) := by
  obtain ⟨i, rfl⟩ : ∃ i, j = i + 1 := ⟨j - 1, by omega⟩
  have : ((i + 1 : ℕ) : ℝ) - 1 = (i : ℝ) := by
    push_cast
    ring
  rw [this, Real.rpow_natCast]
  simp

theorem log_nonneg {n : ℕ} (h : n ≠ 0) : 0 ≤ Real.logb 2 n := Real.logb_nonneg (by norm_num) (one_le_cast h)

theorem cbrt_pos {n : ℕ} (h : n ≠ 0) : 0 < 2 * (n : ℝ) ^ (1 / 3 : ℝ) := by
  have := one_le_cast h
  positivity

/-- C76: for finite, different extremes the rules that only use the number of values give: Sturges the least `k` with `n ≤ 2 ^ (k - 1)`, Rice the least
with `8 n ≤ k ^ 3`, the square root rule the least with `n ≤ k ^ 2`; the values themselves do not matter. -/
theorem C76_counts (p : Prof) (low high : ℝ) (hl : lo p = .fin low) (hh : hi p = .fin high) (hlt : low < high) (hn : p.n ≠ 0) :
    (∃ k, bins p "sturges" = .ok k ∧ LeastWith k fun j => 1 ≤ j ∧ p.n ≤ 2 ^ (j - 1)) ∧
    (∃ k, bins p "rice" = .ok k ∧ LeastWith k fun j => 8 * p.n ≤ j ^ 3) ∧
    (∃ k, bins p "sqrt" = .ok k ∧ LeastWith k fun j => p.n ≤ j ^ 2) := by
  have hp := ptp_eq p low high hl hh
  have hr : 0 < high - low := sub_pos.2 hlt
  have h1 := one_le_cast hn
  refine ⟨⟨⌈Real.logb 2 p.n + 1⌉, ?_, ?_⟩, ⟨⌈2 * (p.n : ℝ) ^ (1 / 3 : ℝ)⌉, ?_, ?_⟩, ⟨⌈Real.sqrt p.n⌉, ?_, ?_⟩⟩
  · have : bins p "sturges" = binsOf p (sturges p) := by simp [bins, selector, hn]
    rw [this]
    exact binsOf_div p _ _ hp hr (by have := log_nonneg hn; linarith)
  · refine least_ceil _ (by have := log_nonneg hn; linarith) _ fun j => ?_
    have hlog := log_nonneg hn
    constructor
    · rintro ⟨hj, hle⟩
      have hle' : (p.n : ℝ) ≤ 2 ^ ((j : ℝ) - 1) := by
        rw [two_pow_pred hj]
        exact_mod_cast hle
      have := (Real.logb_le_iff_le_rpow (b := 2) (by norm_num) (by linarith)).2 hle'
      linarith
    · intro hd
      have hj : 1 ≤ j := by
        have : (1 : ℝ) ≤ j := by linarith
        exact_mod_cast this
      refine ⟨hj, ?_⟩
      have := (Real.logb_le_iff_le_rpow (b := 2) (x := p.n) (y := (j : ℝ) - 1) (by norm_num) (by linarith)).1 (by linarith)
      rw [two_pow_pred hj] at this
      exact_mod_cast this
  · have : bins p "rice" = binsOf p (rice p) := by simp [bins, selector, hn]
    rw [this]
    exact binsOf_div p _ _ hp hr (cbrt_pos hn)
  · refine least_ceil _ (cbrt_pos hn).le _ fun j => ?_
    have hc := cbrt_pos hn
    have h3 : (2 * (p.n : ℝ) ^ (1 / 3 : ℝ)) ^ 3 = 8 * p.n := by
      rw [mul_pow, ← Real.rpow_natCast, ← Real.rpow_natCast, ← Real.rpow_mul (by linarith)]
      norm_num
    have : (2 * (p.n : ℝ) ^ (1 / 3 : ℝ)) ≤ j ↔ (2 * (p.n : ℝ) ^ (1 / 3 : ℝ)) ^ 3 ≤ (j : ℝ) ^ 3 :=
      (pow_le_pow_iff_left₀ hc.le (Nat.cast_nonneg j) (by norm_num)).symm
    rw [this, h3]
    exact_mod_cast Iff.rfl
  · have : bins p "sqrt" = binsOf p (sqrtWidth p) := by simp [bins, selector, hn]
    rw [this]
    exact binsOf_div p _ _ hp hr (Real.sqrt_pos.2 (by linarith))
  · refine least_ceil _ (Real.sqrt_nonneg _) _ fun j => ?_
    rw [Real.sqrt_le_iff]
    constructor
    · intro h
      exact ⟨Nat.cast_nonneg j, by exact_mod_cast h⟩
    · rintro ⟨-, h⟩
      exact_mod_cast h

/-- Ten values between 0 and 1: five bins by Sturges's rule and by Rice's, four by the square root. -/
example : LeastWith 5 (fun j => 1 ≤ j ∧ 10 ≤ 2 ^ (j - 1)) ∧ LeastWith 5 (fun j => 8 * 10 ≤ j ^ 3) ∧ LeastWith 4 (fun j => 10 ≤ j ^ 2) := by
  refine ⟨⟨5, rfl, by norm_num, ?_⟩, ⟨5, rfl, by norm_num, ?_⟩, ⟨4, rfl, by norm_num, ?_⟩⟩
  · rintro i ⟨h1, h2⟩
    by_contra h
    have : i ≤ 4 := by omega
    interval_cases i <;> simp at h2
  · intro i h2
    by_contra h
    have : i ≤ 4 := by omega
    interval_cases i <;> simp at h2
  · intro i h2
    by_contra h
    have : i ≤ 3 := by omega
    interval_cases i <;> simp at h2

/-! ## Agreement with numpy -/

theorem moment_two_nonneg (d : List ℝ) : 0 ≤ moment 2 d := by
  unfold moment mean
  refine div_nonneg ?_ (Nat.cast_nonneg _)
  refine List.sum_nonneg ?_
  intro x hx
  obtain ⟨y, -, rfl⟩ := List.mem_map.1 hx
  exact sq_nonneg _

theorem sampleStd_pos_iff (d : List ℝ) (h : 2 ≤ d.length) : 0 < sampleStd d ↔ 0 < std d := by
  have h2 : (2 : ℝ) ≤ d.length := by exact_mod_cast h
  unfold sampleStd std
  rw [Real.sqrt_pos, Real.sqrt_pos]
  have hq : 0 < (d.length : ℝ) / (d.length - 1) := by
    apply div_pos <;> linarith
  rw [mul_div_assoc]
  exact ⟨fun hm => (pos_iff_pos_of_mul_pos hm).2 hq, fun hm => mul_pos hm hq⟩

theorem binsOf_general (p : Prof) (r w : ℝ) (hp : ptp p = .fin r) :
    binsOf p (.fin w) = .ok (if w = 0 then 1 else ⌈r / w⌉) := by
  by_cases hw : w = 0
  · subst hw
    rw [if_pos rfl, binsOf_zero]
  · rw [if_neg hw]
    unfold binsOf
    rw [if_pos ⟨hw, fun h => h⟩, hp]
    simp [Fl.div, hw, Fl.ceilInt]

theorem div_fin (r d : ℝ) (hd : d ≠ 0) : (Fl.fin r).div (.fin d) = .fin (r / d) := by simp [Fl.div, hd]

theorem sg1_pos {n : ℕ} (h : 2 < n) : 0 < sg1 n := by
  unfold sg1
  have h2 : (2 : ℝ) < n := by exact_mod_cast h
  rw [Real.sqrt_pos]
  apply div_pos
  · linarith
  · apply mul_pos <;> linarith

/-- C76: for a profile with the statistics of its data the suggestion is numpy's for these data, by the rules of Sturges, Rice, the square root and
Doane. -/
theorem C76_numpy (p : Prof) (d : List ℝ) (low high : ℝ) (F : Faithful p d low high) (hd : d ≠ []) (m : String)
    (hm : m ∈ ["sturges", "rice", "sqrt", "doane"]) : bins p m = .ok (numpyBins low high d m) := by
  have hp := ptp_eq p low high F.lo F.hi
  have hn : p.n ≠ 0 := by
    rw [F.n]
    intro h
    exact hd (List.length_eq_zero_iff.1 h)
  have h1 := one_le_cast hn
  have hlen : (p.n : ℝ) = d.length := by rw [F.n]
  simp only [List.mem_cons, List.not_mem_nil, or_false] at hm
  have hlog := log_nonneg hn
  rcases hm with rfl | rfl | rfl | rfl
  · have : bins p "sturges" = binsOf p (sturges p) := by simp [bins, selector, hn]
    rw [this]
    unfold sturges
    rw [hp, div_fin _ _ (by linarith), binsOf_general p _ _ hp, hlen]
    rfl
  · have : bins p "rice" = binsOf p (rice p) := by simp [bins, selector, hn]
    rw [this]
    unfold rice
    rw [hp, div_fin _ _ (cbrt_pos hn).ne', binsOf_general p _ _ hp, hlen]
    rfl
  · have : bins p "sqrt" = binsOf p (sqrtWidth p) := by simp [bins, selector, hn]
    rw [this]
    unfold sqrtWidth
    rw [hp, div_fin _ _ (Real.sqrt_pos.2 (by linarith)).ne', binsOf_general p _ _ hp, hlen]
    rfl
  · have : bins p "doane" = binsOf p (doane p) := by simp [bins, selector, hn]
    rw [this]
    unfold doane numpyBins numpyWidth
    rw [F.std]
    by_cases hc : 2 < d.length ∧ 0 < std d
    · have hc' : 2 < p.n ∧ Fl.lt (.fin 0) (.fin (sampleStd d)) := by
        rw [F.n]
        exact ⟨hc.1, (sampleStd_pos_iff d (by omega)).2 hc.2⟩
      rw [if_pos hc', if_pos hc]
      have hs : 0 < sg1 p.n := sg1_pos hc'.1
      have hden : doaneDenominator p.n p.skew = .fin (1 + Real.logb 2 p.n + Real.logb 2 (1 + |skewness d| / sg1 p.n)) := by
        unfold doaneDenominator
        rw [F.skew]
        simp only [Fl.abs]
        rw [div_fin _ _ hs.ne']
      have hpos : 0 < 1 + Real.logb 2 p.n + Real.logb 2 (1 + |skewness d| / sg1 p.n) := by
        have : 0 ≤ Real.logb 2 (1 + |skewness d| / sg1 p.n) := by
          apply Real.logb_nonneg (by norm_num)
          have : 0 ≤ |skewness d| / sg1 p.n := by positivity
          linarith
        linarith
      rw [hp, hden, div_fin _ _ hpos.ne', binsOf_general p _ _ hp]
      unfold sg1
      rw [hlen]
      rfl
    · have hc' : ¬ (2 < p.n ∧ Fl.lt (.fin 0) (.fin (sampleStd d))) := by
        rw [F.n]
        rintro ⟨a, b⟩
        exact hc ⟨a, (sampleStd_pos_iff d (by omega)).1 b⟩
      rw [if_neg hc', if_neg hc, binsOf_zero]
      simp

/-! ## Scott's rule -/

theorem extremes_std (d : List ℝ) (low high : ℝ) (h : Extremes low high d) (hs : 0 < std d) : low < high := by
  rcases lt_or_eq_of_le (h.2.2 low h.1.1) with hlt | heq
  · exact hlt
  · exfalso
    have hall : ∀ x ∈ d, x = low := fun x hx => le_antisymm (by rw [heq]; exact h.2.2 x hx) (h.1.2 x hx)
    have hrep : d = List.replicate d.length low := List.eq_replicate_iff.2 ⟨rfl, hall⟩
    have hlen : (d.length : ℝ) ≠ 0 := by
      intro h0
      have : d = [] := List.length_eq_zero_iff.1 (by exact_mod_cast h0)
      rw [this] at h
      exact absurd h.1.1 (by simp)
    have hmean : mean d = low := by
      unfold mean
      conv_lhs => rw [hrep]
      rw [List.sum_replicate, List.length_replicate, nsmul_eq_mul]
      field_simp
    have : moment 2 d = 0 := by
      unfold moment
      have : (d.map fun x => (x - mean d) ^ 2) = List.replicate d.length 0 := by
        rw [List.eq_replicate_iff]
        refine ⟨by simp, ?_⟩
        intro y hy
        obtain ⟨x, hx, rfl⟩ := List.mem_map.1 hy
        rw [hmean, hall x hx]
        simp
      rw [this]
      unfold mean
      simp
    unfold std at hs
    rw [this] at hs
    simp at hs

/-- C76: by Scott's rule a profile suggests at least one bin and at most as many as numpy, whose standard deviation is smaller. -/
theorem C76_scott (p : Prof) (d : List ℝ) (low high : ℝ) (F : Faithful p d low high) (hd : 2 ≤ d.length) (hs : 0 < std d) :
    ∃ k, bins p "scott" = .ok k ∧ 1 ≤ k ∧ k ≤ numpyBins low high d "scott" := by
  have hp := ptp_eq p low high F.lo F.hi
  have hn : p.n ≠ 0 := by rw [F.n]; omega
  have hlt := extremes_std d low high F.ends hs
  have h2 : (2 : ℝ) ≤ d.length := by exact_mod_cast hd
  have hss := (sampleStd_pos_iff d hd).2 hs
  have hle : std d ≤ sampleStd d := by
    unfold std sampleStd
    apply Real.sqrt_le_sqrt
    rw [mul_div_assoc]
    have : 1 ≤ (d.length : ℝ) / (d.length - 1) := by
      rw [le_div_iff₀ (by linarith)]
      linarith
    have := mul_le_mul_of_nonneg_left this (moment_two_nonneg d)
    linarith
  set c : ℝ := (24 * Real.sqrt Real.pi / d.length) ^ (1 / 3 : ℝ) with hc
  have hcpos : 0 < c := by
    apply Real.rpow_pos_of_pos
    have : 0 < Real.sqrt Real.pi := Real.sqrt_pos.2 Real.pi_pos
    apply div_pos <;> linarith
  have hw : scott p = .fin (c * sampleStd d) := by
    unfold scott
    rw [F.std, F.n, ← Real.sqrt_eq_rpow]
    rfl
  have hbins : bins p "scott" = .ok ⌈(high - low) / (c * sampleStd d)⌉ := by
    have : bins p "scott" = binsOf p (scott p) := by simp [bins, selector, hn]
    rw [this, hw, binsOf_general p _ _ hp, if_neg (mul_pos hcpos hss).ne']
  have hnp : numpyBins low high d "scott" = ⌈(high - low) / (c * std d)⌉ := by
    unfold numpyBins
    have : numpyWidth (high - low) d "scott" = c * std d := rfl
    rw [this, if_neg (mul_pos hcpos hs).ne']
  refine ⟨_, hbins, ?_, ?_⟩
  · have : 0 < ⌈(high - low) / (c * sampleStd d)⌉ := Int.ceil_pos.2 (div_pos (sub_pos.2 hlt) (mul_pos hcpos hss))
    omega
  · rw [hnp]
    apply Int.ceil_le_ceil
    apply div_le_div_of_nonneg_left (sub_pos.2 hlt).le (mul_pos hcpos hs)
    exact mul_le_mul_of_nonneg_left hle hcpos.le

/-- Nine zeros and a one. -/
def outlier : List ℝ := [0, 0, 0, 0, 0, 0, 0, 0, 0, 1]

theorem outlier_moment : moment 2 outlier = 9 / 100 := by
  unfold moment mean outlier
  norm_num

/-- A faithful profile of them. -/
noncomputable def outlierProfile : Prof :=
  ⟨10, some (.fin 0), some (.fin 1), .fin 0, .fin 1, .fin (sampleStd outlier), .fin (skewness outlier), .fin 0, .fin 0⟩

theorem outlier_faithful : Faithful outlierProfile outlier 0 1 := by
  refine ⟨rfl, ⟨⟨by simp [outlier], ?_⟩, by simp [outlier], ?_⟩, rfl, rfl, rfl, rfl⟩ <;>
  · intro x hx
    simp only [outlier, List.mem_cons, List.not_mem_nil, or_false] at hx
    rcases hx with h | h | h | h | h | h | h | h | h | h <;> rw [h] <;> norm_num

/-- C76 fails for Scott's rule: from the same data a merged profile suggests two bins, numpy three. -/
theorem C76_scott_fails : bins outlierProfile "scott" = .ok 2 ∧ numpyBins 0 1 outlier "scott" = 3 := by
  have hlen : (outlier.length : ℝ) = 10 := by
    have : outlier.length = 10 := rfl
    rw [this]
    norm_num
  have hstd : std outlier = 3 / 10 := by
    unfold std
    rw [outlier_moment, show (9 / 100 : ℝ) = (3 / 10) ^ 2 by norm_num, Real.sqrt_sq (by norm_num)]
  have hsq : sampleStd outlier ^ 2 = 1 / 10 := by
    unfold sampleStd
    rw [Real.sq_sqrt, outlier_moment, hlen]
    · norm_num
    · rw [outlier_moment, hlen]; norm_num
  have hspos : 0 < sampleStd outlier := (sampleStd_pos_iff outlier (by simp [outlier])).2 (by rw [hstd]; norm_num)
  set x : ℝ := 24 * Real.sqrt Real.pi / 10 with hx
  have hpi1 : (1.7 : ℝ) < Real.sqrt Real.pi := by
    apply Real.lt_sqrt_of_sq_lt
    have := Real.pi_gt_three
    norm_num
    linarith
  have hpi2 : Real.sqrt Real.pi < 1.8 := by
    rw [Real.sqrt_lt' (by norm_num)]
    have := Real.pi_lt_d2
    norm_num
    norm_num at this
    linarith
  have hx0 : 0 < x := by rw [hx]; linarith
  set c : ℝ := x ^ (1 / 3 : ℝ) with hc
  have hc0 : 0 < c := Real.rpow_pos_of_pos hx0 _
  have hc3 : c ^ 3 = x := by
    rw [hc, ← Real.rpow_natCast, ← Real.rpow_mul hx0.le]
    norm_num
  have hx1 : x < (5 / 3) ^ 3 := by
    rw [hx]
    norm_num
    linarith
  have hx2 : (1.59 : ℝ) ^ 3 < x := by
    rw [hx]
    norm_num
    linarith
  have hcu : c < 5 / 3 := by
    rw [← hc3] at hx1
    exact lt_of_pow_lt_pow_left₀ 3 (by norm_num) hx1
  have hcl : 1.59 < c := by
    rw [← hc3] at hx2
    exact lt_of_pow_lt_pow_left₀ 3 hc0.le hx2
  constructor
  · have hp : ptp outlierProfile = .fin (1 - 0) := ptp_eq outlierProfile 0 1 rfl rfl
    have hw : scott outlierProfile = .fin (c * sampleStd outlier) := by
      unfold scott outlierProfile
      rw [← Real.sqrt_eq_rpow]
      simp only [Fl.scale]
      rw [hc, hx]
      norm_num
    have : bins outlierProfile "scott" = binsOf outlierProfile (scott outlierProfile) := by simp [bins, selector, outlierProfile]
    rw [this, hw, binsOf_general _ _ _ hp, if_neg (mul_pos hc0 hspos).ne']
    congr 1
    rw [Int.ceil_eq_iff]
    have hlow : 1 / 2 ≤ c * sampleStd outlier := by
      have h4 : (1 / 2 : ℝ) ^ 2 ≤ (c * sampleStd outlier) ^ 2 := by
        rw [mul_pow, hsq]
        nlinarith
      exact le_of_sq_le_sq h4 (mul_pos hc0 hspos).le
    have hup : c * sampleStd outlier < 1 := by
      have h4 : (c * sampleStd outlier) ^ 2 < 1 ^ 2 := by
        rw [mul_pow, hsq]
        nlinarith
      exact lt_of_pow_lt_pow_left₀ 2 (by norm_num) h4
    have hpos := mul_pos hc0 hspos
    constructor
    · rw [lt_div_iff₀ hpos]
      push_cast
      linarith
    · rw [div_le_iff₀ hpos]
      push_cast
      linarith
  · unfold numpyBins
    have hw : numpyWidth (1 - 0) outlier "scott" = c * (3 / 10) := by
      show (24 * Real.sqrt Real.pi / (outlier.length : ℝ)) ^ (1 / 3 : ℝ) * std outlier = _
      rw [hlen, hstd]
    rw [hw, if_neg (by positivity)]
    rw [Int.ceil_eq_iff]
    have hpos : 0 < c * (3 / 10) := by positivity
    constructor
    · rw [lt_div_iff₀ hpos]
      push_cast
      linarith
    · rw [div_le_iff₀ hpos]
      push_cast
      linarith

theorem bins_congr (p q : Prof) (m : String) (hn : p.n = q.n) (hp : ptp p = ptp q) (hs : p.stddev = q.stddev)
    (hk : p.skew = q.skew) (h1 : p.p25 = q.p25) (h3 : p.p75 = q.p75) : bins p m = bins q m := by
  have e1 : doane p = doane q := by unfold doane; rw [hn, hp, hs, hk]
  have e2 : rice p = rice q := by unfold rice; rw [hn, hp]
  have e3 : sturges p = sturges q := by unfold sturges; rw [hn, hp]
  have e4 : sqrtWidth p = sqrtWidth q := by unfold sqrtWidth; rw [hn, hp]
  have e5 : fd p = fd q := by unfold fd; rw [hn, h1, h3]
  have e6 : auto p = auto q := by unfold auto; rw [e3, e5]
  have e7 : scott p = scott q := by unfold scott; rw [hn, hs]
  have e8 : ∀ f, selector m = some f → f p = f q := by
    intro f hf
    unfold selector at hf
    split_ifs at hf <;> cases hf <;> assumption
  unfold bins
  cases hf : selector m with
  | none => rfl
  | some f =>
    have := e8 f hf
    simp only [hn, binsOf, hp]
    rw [this]

/-- C76: recorded extremes are used whatever the edges of the histogram; without a recorded extreme the edge of the histogram
takes its place. -/
theorem C76_extremes (p : Prof) (m : String) :
    (p.maxAttr ≠ none → ∀ x, bins { p with lastEdge := x } m = bins p m) ∧
    (p.minAttr ≠ none → ∀ x, bins { p with firstEdge := x } m = bins p m) ∧
    (p.maxAttr = none → bins p m = bins { p with maxAttr := some p.lastEdge } m) ∧
    (p.minAttr = none → bins p m = bins { p with minAttr := some p.firstEdge } m) := by
  refine ⟨fun h x => bins_congr _ _ _ rfl ?_ rfl rfl rfl rfl, fun h x => bins_congr _ _ _ rfl ?_ rfl rfl rfl rfl,
    fun h => bins_congr _ _ _ rfl ?_ rfl rfl rfl rfl, fun h => bins_congr _ _ _ rfl ?_ rfl rfl rfl rfl⟩
  · obtain ⟨a, ha⟩ := Option.ne_none_iff_exists'.1 h
    simp [ptp, hi, lo, ha]
  · obtain ⟨a, ha⟩ := Option.ne_none_iff_exists'.1 h
    simp [ptp, hi, lo, ha]
  · simp [ptp, hi, lo, h]
  · simp [ptp, hi, lo, h]

/-- A profile without recorded extremes whose histogram has the edges 0 and 8. -/
example (p : Prof) (h : p.maxAttr = none ∧ p.minAttr = none ∧ p.lastEdge = .fin 8 ∧ p.firstEdge = .fin 0) (hn : p.n = 8) :
    ∃ k, bins p "sturges" = .ok k ∧ LeastWith k fun j => 1 ≤ j ∧ p.n ≤ 2 ^ (j - 1) := by
  have := (C76_counts { p with maxAttr := some p.lastEdge, minAttr := some p.firstEdge } 0 8 (by simp [lo, h]) (by simp [hi, h])
    (by norm_num) (by simp [hn])).1
  rw [(C76_extremes p _).2.2.1 h.1, (C76_extremes { p with maxAttr := some p.lastEdge } _).2.2.2 h.2.1]
  exact this

/-! ## The automatic rule, and all rules together -/

/-- The statistics of a profile of `n ≥ 1` finite values that are not all equal. -/
structure Regular (p : Prof) (low high sd g q1 q3 : ℝ) : Prop where
  n : p.n ≠ 0
  lo : lo p = .fin low
  hi : hi p = .fin high
  lt : low < high
  std : p.stddev = .fin sd
  sd_pos : 0 < sd
  skew : p.skew = .fin g
  p25 : p.p25 = .fin q1
  p75 : p.p75 = .fin q3
  quartiles : q1 ≤ q3

theorem fd_eq {p : Prof} {low high sd g q1 q3 : ℝ} (R : Regular p low high sd g q1 q3) :
    fd p = .fin (2 * (p.n : ℝ) ^ (-1 / 3 : ℝ) * (q3 - q1)) := by
  unfold fd
  rw [R.p25, R.p75]
  rfl

theorem sturges_eq {p : Prof} {low high sd g q1 q3 : ℝ} (R : Regular p low high sd g q1 q3) :
    sturges p = .fin ((high - low) / (Real.logb 2 p.n + 1)) := by
  unfold sturges
  rw [ptp_eq p low high R.lo R.hi, div_fin _ _ (by have := log_nonneg R.n; linarith)]

theorem rice_eq {p : Prof} {low high sd g q1 q3 : ℝ} (R : Regular p low high sd g q1 q3) :
    rice p = .fin ((high - low) / (2 * (p.n : ℝ) ^ (1 / 3 : ℝ))) := by
  unfold rice
  rw [ptp_eq p low high R.lo R.hi, div_fin _ _ (cbrt_pos R.n).ne']

theorem sqrt_eq {p : Prof} {low high sd g q1 q3 : ℝ} (R : Regular p low high sd g q1 q3) :
    sqrtWidth p = .fin ((high - low) / Real.sqrt p.n) := by
  unfold sqrtWidth
  rw [ptp_eq p low high R.lo R.hi, div_fin _ _ (Real.sqrt_pos.2 (by have := one_le_cast R.n; linarith)).ne']

theorem scott_eq {p : Prof} {low high sd g q1 q3 : ℝ} (R : Regular p low high sd g q1 q3) :
    scott p = .fin ((24 * Real.pi ^ (1 / 2 : ℝ) / p.n) ^ (1 / 3 : ℝ) * sd) := by
  unfold scott
  rw [R.std]
  rfl

/-- Doane's number of bins for more than two values. -/
noncomputable def doaneCount (n : ℕ) (g : ℝ) : ℝ := 1 + Real.logb 2 n + Real.logb 2 (1 + |g| / sg1 n)

theorem doaneCount_pos {n : ℕ} (h : 2 < n) (g : ℝ) : 0 < doaneCount n g := by
  have h1 := log_nonneg (n := n) (by omega)
  have hs := sg1_pos h
  have : 0 ≤ Real.logb 2 (1 + |g| / sg1 n) := by
    apply Real.logb_nonneg (by norm_num)
    have : 0 ≤ |g| / sg1 n := by positivity
    linarith
  unfold doaneCount
  linarith

theorem doane_eq {p : Prof} {low high sd g q1 q3 : ℝ} (R : Regular p low high sd g q1 q3) :
    doane p = .fin (if 2 < p.n then (high - low) / doaneCount p.n g else 0) := by
  unfold doane
  rw [R.std]
  by_cases h : 2 < p.n
  · have hd : doaneDenominator p.n p.skew = .fin (doaneCount p.n g) := by
      unfold doaneDenominator
      rw [R.skew]
      simp only [Fl.abs]
      rw [div_fin _ _ (sg1_pos h).ne']
      rfl
    rw [if_pos ⟨h, R.sd_pos⟩, if_pos h, ptp_eq p low high R.lo R.hi, hd, div_fin _ _ (doaneCount_pos h g).ne']
  · rw [if_neg (fun hh => h hh.1), if_neg h]

theorem auto_eq {p : Prof} {low high sd g q1 q3 : ℝ} (R : Regular p low high sd g q1 q3) :
    auto p = .fin (if q1 = q3 then (high - low) / (Real.logb 2 p.n + 1)
      else min (2 * (p.n : ℝ) ^ (-1 / 3 : ℝ) * (q3 - q1)) ((high - low) / (Real.logb 2 p.n + 1))) := by
  have h1 := one_le_cast R.n
  have hc : 0 < 2 * (p.n : ℝ) ^ (-1 / 3 : ℝ) := by
    have : 0 < (p.n : ℝ) ^ (-1 / 3 : ℝ) := Real.rpow_pos_of_pos (by linarith) _
    linarith
  unfold auto
  rw [fd_eq R, sturges_eq R]
  by_cases hq : q1 = q3
  · have ht : ¬ (Fl.fin (2 * (p.n : ℝ) ^ (-1 / 3 : ℝ) * (q3 - q1))).truthy := by
      intro h
      apply h
      rw [hq]
      simp
    rw [if_neg ht, if_pos hq]
  · have ht : (Fl.fin (2 * (p.n : ℝ) ^ (-1 / 3 : ℝ) * (q3 - q1))).truthy := by
      have : 0 < q3 - q1 := sub_pos.2 (lt_of_le_of_ne R.quartiles hq)
      exact (mul_pos hc this).ne'
    rw [if_pos ht, if_neg hq]
    by_cases hl : Fl.lt (.fin ((high - low) / (Real.logb 2 p.n + 1))) (.fin (2 * (p.n : ℝ) ^ (-1 / 3 : ℝ) * (q3 - q1)))
    · rw [if_pos hl, min_eq_right (le_of_lt hl)]
    · rw [if_neg hl, min_eq_left (not_lt.1 hl)]

/-- C76: the automatic rule takes the larger of the suggestions of Freedman and Diaconis and of Sturges, the latter alone when the quartiles agree; so
it never suggests fewer bins than Sturges. -/
theorem C76_auto (p : Prof) (low high sd g q1 q3 : ℝ) (R : Regular p low high sd g q1 q3) :
    ∃ ks k, bins p "sturges" = .ok ks ∧ bins p "auto" = .ok k ∧ ks ≤ k ∧ (q1 = q3 → k = ks) ∧
      (q1 ≠ q3 → ∃ kf, bins p "fd" = .ok kf ∧ k = max kf ks) := by
  have hp := ptp_eq p low high R.lo R.hi
  have h1 := one_le_cast R.n
  have hr : 0 < high - low := sub_pos.2 R.lt
  have hlog := log_nonneg R.n
  have hs : bins p "sturges" = .ok ⌈(high - low) / ((high - low) / (Real.logb 2 p.n + 1))⌉ := by
    have : bins p "sturges" = binsOf p (sturges p) := by simp [bins, selector, R.n]
    rw [this, sturges_eq R, binsOf_general p _ _ hp, if_neg (div_pos hr (by linarith)).ne']
  have ha : bins p "auto" = binsOf p (auto p) := by simp [bins, selector, R.n]
  have hf : bins p "fd" = binsOf p (fd p) := by simp [bins, selector, R.n]
  rw [ha, hf, auto_eq R, fd_eq R, binsOf_general p _ _ hp, binsOf_general p _ _ hp]
  have hw : 0 < (high - low) / (Real.logb 2 p.n + 1) := div_pos hr (by linarith)
  by_cases hq : q1 = q3
  · refine ⟨_, _, hs, rfl, ?_, ?_, fun h => absurd hq h⟩
    · rw [if_pos hq, if_neg hw.ne']
    · intro _
      rw [if_pos hq, if_neg hw.ne']
  · have hqp : 0 < q3 - q1 := sub_pos.2 (lt_of_le_of_ne R.quartiles hq)
    have hc : 0 < 2 * (p.n : ℝ) ^ (-1 / 3 : ℝ) := by
      have : 0 < (p.n : ℝ) ^ (-1 / 3 : ℝ) := Real.rpow_pos_of_pos (by linarith) _
      linarith
    have hfp := mul_pos hc hqp
    have key : ⌈(high - low) / min (2 * (p.n : ℝ) ^ (-1 / 3 : ℝ) * (q3 - q1)) ((high - low) / (Real.logb 2 p.n + 1))⌉ =
        max ⌈(high - low) / (2 * (p.n : ℝ) ^ (-1 / 3 : ℝ) * (q3 - q1))⌉ ⌈(high - low) / ((high - low) / (Real.logb 2 p.n + 1))⌉ := by
      rcases le_total (2 * (p.n : ℝ) ^ (-1 / 3 : ℝ) * (q3 - q1)) ((high - low) / (Real.logb 2 p.n + 1)) with hle | hle
      · rw [min_eq_left hle, max_eq_left]
        exact Int.ceil_le_ceil (div_le_div_of_nonneg_left hr.le hfp hle)
      · rw [min_eq_right hle, max_eq_right]
        exact Int.ceil_le_ceil (div_le_div_of_nonneg_left hr.le hw hle)
    have hm : min (2 * (p.n : ℝ) ^ (-1 / 3 : ℝ) * (q3 - q1)) ((high - low) / (Real.logb 2 p.n + 1)) ≠ 0 := (lt_min hfp hw).ne'
    refine ⟨_, _, hs, rfl, ?_, fun h => absurd h hq, fun _ => ⟨_, rfl, ?_⟩⟩
    · rw [if_neg hq, if_neg hm, key]
      exact le_max_right _ _
    · rw [if_neg hq, if_neg hm, if_neg hfp.ne', key]

/-- The names of the rules. -/
def rules : List String := ["auto", "fd", "doane", "scott", "rice", "sturges", "sqrt"]

theorem bins_of (p : Prof) (hn : p.n ≠ 0) (w : ℝ) (r : ℝ) (hp : ptp p = .fin r) (hr : 0 < r) (hw : 0 ≤ w) (m : String) (f : Prof → Fl)
    (hs : selector m = some f) (hf : f p = .fin w) : ∃ k, bins p m = .ok k ∧ 1 ≤ k := by
  have : bins p m = binsOf p (f p) := by
    unfold bins
    rw [hs]
    simp [hn]
  rw [this, hf, binsOf_general p _ _ hp]
  refine ⟨_, rfl, ?_⟩
  split_ifs with h0
  · exact le_refl 1
  · have : 0 < ⌈r / w⌉ := Int.ceil_pos.2 (div_pos hr (lt_of_le_of_ne hw (Ne.symm h0)))
    omega

/-- C76: every rule suggests at least one bin for finite values that are not all equal. -/
theorem C76_positive (p : Prof) (low high sd g q1 q3 : ℝ) (R : Regular p low high sd g q1 q3) (m : String) (hm : m ∈ rules) :
    ∃ k, bins p m = .ok k ∧ 1 ≤ k := by
  have hp := ptp_eq p low high R.lo R.hi
  have h1 := one_le_cast R.n
  have hr : 0 < high - low := sub_pos.2 R.lt
  have hlog := log_nonneg R.n
  have hst : 0 ≤ (high - low) / (Real.logb 2 p.n + 1) := div_nonneg hr.le (by linarith)
  have hq : 0 ≤ q3 - q1 := sub_nonneg.2 R.quartiles
  have hfd : 0 ≤ 2 * (p.n : ℝ) ^ (-1 / 3 : ℝ) * (q3 - q1) := by
    have : 0 < (p.n : ℝ) ^ (-1 / 3 : ℝ) := Real.rpow_pos_of_pos (by linarith) _
    positivity
  simp only [rules, List.mem_cons, List.not_mem_nil, or_false] at hm
  rcases hm with rfl | rfl | rfl | rfl | rfl | rfl | rfl
  · refine bins_of p R.n _ _ hp hr ?_ "auto" auto (by simp [selector]) (auto_eq R)
    split_ifs
    · exact hst
    · exact le_min hfd hst
  · exact bins_of p R.n _ _ hp hr hfd "fd" fd (by simp [selector]) (fd_eq R)
  · refine bins_of p R.n _ _ hp hr ?_ "doane" doane (by simp [selector]) (doane_eq R)
    split_ifs with h
    · exact div_nonneg hr.le (doaneCount_pos h g).le
    · exact le_refl 0
  · refine bins_of p R.n _ _ hp hr ?_ "scott" scott (by simp [selector]) (scott_eq R)
    have := R.sd_pos
    have hpi := Real.pi_pos
    positivity
  · refine bins_of p R.n _ _ hp hr ?_ "rice" rice (by simp [selector]) (rice_eq R)
    exact div_nonneg hr.le (cbrt_pos R.n).le
  · exact bins_of p R.n _ _ hp hr hst "sturges" sturges (by simp [selector]) (sturges_eq R)
  · refine bins_of p R.n _ _ hp hr ?_ "sqrt" sqrtWidth (by simp [selector]) (sqrt_eq R)
    exact div_nonneg hr.le (Real.sqrt_nonneg _)

/-- Scaling the values scales the width. -/
theorem bins_scale (p q : Prof) (hn : p.n ≠ 0) (hnq : q.n = p.n) (a r w : ℝ) (ha : 0 < a) (hp : ptp p = .fin r) (hq : ptp q = .fin (a * r))
    (m : String) (f : Prof → Fl) (hs : selector m = some f) (hf : f p = .fin w) (hfq : f q = .fin (a * w)) : bins q m = bins p m := by
  have e1 : bins p m = binsOf p (f p) := by
    unfold bins
    rw [hs]
    simp [hn]
  have e2 : bins q m = binsOf q (f q) := by
    unfold bins
    rw [hs]
    simp [hnq, hn]
  rw [e1, e2, hf, hfq, binsOf_general p _ _ hp, binsOf_general q _ _ hq]
  congr 1
  by_cases hw : w = 0
  · rw [if_pos hw, if_pos (by rw [hw, mul_zero])]
  · rw [if_neg hw, if_neg (mul_ne_zero ha.ne' hw), mul_div_mul_left _ _ ha.ne']

/-- C76: no rule depends on the unit of the values or on their origin: if every value is multiplied by `a > 0` and shifted by `b`, so that the
statistics change as they do under such a map, the suggestion is the same. -/
theorem C76_units (p q : Prof) (low high sd g q1 q3 a b : ℝ) (ha : 0 < a) (R : Regular p low high sd g q1 q3)
    (S : Regular q (a * low + b) (a * high + b) (a * sd) g (a * q1 + b) (a * q3 + b)) (hn : q.n = p.n) (m : String) : bins q m = bins p m := by
  have hp := ptp_eq p low high R.lo R.hi
  have hq : ptp q = .fin (a * (high - low)) := by
    rw [ptp_eq q _ _ S.lo S.hi]
    congr 1
    ring
  have hd : (a * high + b) - (a * low + b) = a * (high - low) := by ring
  have hd3 : (a * q3 + b) - (a * q1 + b) = a * (q3 - q1) := by ring
  by_cases h1 : m = "auto"
  · refine bins_scale p q R.n hn a _ _ ha hp hq m auto (by simp [selector, h1]) (auto_eq R) ?_
    rw [auto_eq S, hn, hd, hd3]
    by_cases hqq : q1 = q3
    · rw [if_pos hqq, if_pos (by rw [hqq]), mul_div_assoc]
    · have : a * q1 + b ≠ a * q3 + b := by
        intro h
        exact hqq (mul_left_cancel₀ ha.ne' (add_right_cancel h))
      rw [if_neg hqq, if_neg this, mul_div_assoc, mul_min_of_nonneg _ _ ha.le]
      congr 2
      ring
  by_cases h2 : m = "doane"
  · refine bins_scale p q R.n hn a _ _ ha hp hq m doane (by simp [selector, h2]) (doane_eq R) ?_
    rw [doane_eq S, hn, hd]
    by_cases h : 2 < p.n
    · rw [if_pos h, if_pos h, mul_div_assoc]
    · rw [if_neg h, if_neg h, mul_zero]
  by_cases h3 : m = "fd"
  · refine bins_scale p q R.n hn a _ _ ha hp hq m fd (by simp [selector, h3]) (fd_eq R) ?_
    rw [fd_eq S, hn, hd3]
    congr 1
    ring
  by_cases h4 : m = "rice"
  · refine bins_scale p q R.n hn a _ _ ha hp hq m rice (by simp [selector, h4]) (rice_eq R) ?_
    rw [rice_eq S, hn, hd, mul_div_assoc]
  by_cases h5 : m = "scott"
  · refine bins_scale p q R.n hn a _ _ ha hp hq m scott (by simp [selector, h5]) (scott_eq R) ?_
    rw [scott_eq S, hn]
    congr 1
    ring
  by_cases h6 : m = "sqrt"
  · refine bins_scale p q R.n hn a _ _ ha hp hq m sqrtWidth (by simp [selector, h6]) (sqrt_eq R) ?_
    rw [sqrt_eq S, hn, hd, mul_div_assoc]
  by_cases h7 : m = "sturges"
  · refine bins_scale p q R.n hn a _ _ ha hp hq m sturges (by simp [selector, h7]) (sturges_eq R) ?_
    rw [sturges_eq S, hn, hd, mul_div_assoc]
  simp [bins, selector, h1, h2, h3, h4, h5, h6, h7]

/-- Four values from 0 to 6, and the same in other units. -/
example : ∃ p q : Prof, Regular p 0 6 2 1 1 3 ∧ Regular q (10 * 0 + 5) (10 * 6 + 5) (10 * 2) 1 (10 * 1 + 5) (10 * 3 + 5) ∧ q.n = p.n := by
  refine ⟨⟨4, some (.fin 0), some (.fin 6), .nan, .nan, .fin 2, .fin 1, .fin 1, .fin 3⟩,
    ⟨4, some (.fin (10 * 0 + 5)), some (.fin (10 * 6 + 5)), .nan, .nan, .fin (10 * 2), .fin 1, .fin (10 * 1 + 5), .fin (10 * 3 + 5)⟩, ?_, ?_, rfl⟩
  · exact ⟨by norm_num, rfl, rfl, by norm_num, rfl, by norm_num, rfl, rfl, rfl, by norm_num⟩
  · exact ⟨by norm_num, rfl, rfl, by norm_num, rfl, by norm_num, rfl, rfl, rfl, by norm_num⟩

/-- C76: no values, one bin; a rule that does not exist is refused, whatever the values. -/
theorem C76_edges (p : Prof) (m : String) : (m ∉ rules → bins p m = .error .valueError) ∧ (m ∈ rules → p.n = 0 → bins p m = .ok 1) := by
  constructor
  · intro h
    simp only [rules, List.mem_cons, List.not_mem_nil, or_false, not_or] at h
    obtain ⟨h1, h2, h3, h4, h5, h6, h7⟩ := h
    simp [bins, selector, h1, h2, h3, h4, h5, h6, h7]
  · intro h hn
    simp only [rules, List.mem_cons, List.not_mem_nil, or_false] at h
    rcases h with rfl | rfl | rfl | rfl | rfl | rfl | rfl <;> simp [bins, selector, hn]

/-! ## What the rules do not guarantee -/

/-- C76 fails at infinity: if the greatest value is infinite, the least finite and the quartiles of the stored histogram finite and different (a batch
of finite values, then one with an infinity), five of the rules, the default among them, raise an error, and so does the merge that asks for their
suggestions. -/
theorem C76_infinite_fails (p : Prof) (low q1 q3 : ℝ) (hl : lo p = .fin low) (hh : hi p = .pinf) (hn : p.n ≠ 0) (h25 : p.p25 = .fin q1)
    (h75 : p.p75 = .fin q3) (hq : q1 < q3) (m : String) (hm : m ∈ ["auto", "fd", "sturges", "rice", "sqrt"]) : ∃ e, bins p m = .error e := by
  have hp : ptp p = .pinf := by
    unfold ptp
    rw [hl, hh]
    rfl
  have h1 := one_le_cast hn
  have hlog := log_nonneg hn
  have hinf : ∀ d : ℝ, 0 ≤ d → Fl.pinf.div (.fin d) = .pinf := fun d hd => by simp [Fl.div, hd]
  have key : ∀ d : ℝ, 0 ≤ d → binsOf p ((ptp p).div (.fin d)) = .error .valueError := by
    intro d hd
    unfold binsOf
    rw [hp, hinf d hd, if_pos ⟨trivial, fun h => h⟩]
    rfl
  have hw : 0 < 2 * (p.n : ℝ) ^ (-1 / 3 : ℝ) * (q3 - q1) := by
    have : 0 < (p.n : ℝ) ^ (-1 / 3 : ℝ) := Real.rpow_pos_of_pos (by linarith) _
    have := sub_pos.2 hq
    positivity
  have hfd : fd p = .fin (2 * (p.n : ℝ) ^ (-1 / 3 : ℝ) * (q3 - q1)) := by
    unfold fd
    rw [h25, h75]
    rfl
  have hfb : binsOf p (fd p) = .error .exception := by
    unfold binsOf
    rw [hfd, if_pos ⟨hw.ne', fun h => h⟩, hp, hinf _ hw.le]
    rfl
  simp only [List.mem_cons, List.not_mem_nil, or_false] at hm
  rcases hm with rfl | rfl | rfl | rfl | rfl
  · have : bins p "auto" = binsOf p (auto p) := by simp [bins, selector, hn]
    refine ⟨.exception, ?_⟩
    have ha : auto p = fd p := by
      have hst : sturges p = .pinf := by
        unfold sturges
        rw [hp, hinf _ (by linarith)]
      unfold auto
      have ht : (Fl.fin (2 * (p.n : ℝ) ^ (-1 / 3 : ℝ) * (q3 - q1))).truthy := hw.ne'
      have hf : ¬ Fl.lt .pinf (.fin (2 * (p.n : ℝ) ^ (-1 / 3 : ℝ) * (q3 - q1))) := fun h => h
      rw [hst, hfd, if_pos ht, if_neg hf]
    rw [this, ha, hfb]
  · have : bins p "fd" = binsOf p (fd p) := by simp [bins, selector, hn]
    exact ⟨.exception, by rw [this, hfb]⟩
  · have : bins p "sturges" = binsOf p (sturges p) := by simp [bins, selector, hn]
    exact ⟨.valueError, by rw [this]; exact key _ (by linarith)⟩
  · have : bins p "rice" = binsOf p (rice p) := by simp [bins, selector, hn]
    exact ⟨.valueError, by rw [this]; exact key _ (cbrt_pos hn).le⟩
  · have : bins p "sqrt" = binsOf p (sqrtWidth p) := by simp [bins, selector, hn]
    exact ⟨.valueError, by rw [this]; exact key _ (Real.sqrt_nonneg _)⟩

/-- C76 fails for collapsed extremes: if the recorded least and greatest value agree although the deviation is positive, Scott's rule suggests no bin
at all. -/
theorem C76_collapsed_fails (p : Prof) (x sd : ℝ) (hl : lo p = .fin x) (hh : hi p = .fin x) (hs : p.stddev = .fin sd) (hsd : 0 < sd) (hn : p.n ≠ 0) :
    bins p "scott" = .ok 0 := by
  have hp := ptp_eq p x x hl hh
  have h1 := one_le_cast hn
  have hpi := Real.pi_pos
  have hw : scott p = .fin ((24 * Real.pi ^ (1 / 2 : ℝ) / p.n) ^ (1 / 3 : ℝ) * sd) := by
    unfold scott
    rw [hs]
    rfl
  have hpos : 0 < (24 * Real.pi ^ (1 / 2 : ℝ) / p.n) ^ (1 / 3 : ℝ) * sd := by
    have : 0 < (p.n : ℝ) := by linarith
    positivity
  have : bins p "scott" = binsOf p (scott p) := by simp [bins, selector, hn]
  rw [this, hw, binsOf_general p _ _ hp, if_neg hpos.ne']
  simp

/-- C76 fails for large columns: updates never use more than 100000 bins, but the square root rule suggests `k` bins for `k ^ 2` values whatever
`k`. -/
theorem C76_uncapped_fails (k : ℕ) (hk : 100000 < k) (p : Prof) (low high : ℝ) (hl : lo p = .fin low) (hh : hi p = .fin high) (hlt : low < high)
    (hn : p.n = k ^ 2) : bins p "sqrt" = .ok (k : ℤ) ∧ (100000 : ℤ) < k := by
  have hn0 : p.n ≠ 0 := by
    rw [hn]
    exact pow_ne_zero 2 (by omega)
  obtain ⟨-, -, j, hj, i, rfl, hi, hmin⟩ := C76_counts p low high hl hh hlt hn0
  refine ⟨?_, by exact_mod_cast hk⟩
  rw [hj]
  have h1 : i ≤ k := hmin k (by rw [hn])
  have h2 : k ≤ i := by
    rw [hn] at hi
    exact le_of_pow_le_pow_left₀ (by norm_num) (Nat.zero_le _) hi
  have : i = k := le_antisymm h1 h2
  rw [this]

/-- Profiles that meet these hypotheses. -/
example : ∃ p₁ p₂ p₃ : Prof, (lo p₁ = .fin 0 ∧ hi p₁ = .pinf ∧ p₁.n ≠ 0 ∧ p₁.p25 = .fin 1 ∧ p₁.p75 = .fin 2) ∧ (lo p₂ = .fin 0 ∧ hi p₂ = .fin 0 ∧ p₂.stddev = .fin 1 ∧ p₂.n ≠ 0) ∧
    (lo p₃ = .fin 0 ∧ hi p₃ = .fin 1 ∧ p₃.n = 100001 ^ 2) :=
  ⟨⟨2, some (.fin 0), some .pinf, .nan, .nan, .nan, .nan, .fin 1, .fin 2⟩, ⟨2, some (.fin 0), some (.fin 0), .nan, .nan, .fin 1, .nan, .nan, .nan⟩,
    ⟨100001 ^ 2, some (.fin 0), some (.fin 1), .nan, .nan, .nan, .nan, .nan, .nan⟩,
    ⟨rfl, rfl, by norm_num, rfl, rfl⟩, ⟨rfl, rfl, rfl, by norm_num⟩, rfl, rfl, rfl⟩

/-- The same data: the hypotheses of the theorems above hold. -/
example : Faithful outlierProfile outlier 0 1 ∧ 2 ≤ outlier.length ∧ 0 < std outlier := by
  refine ⟨outlier_faithful, by simp [outlier], ?_⟩
  unfold std
  rw [outlier_moment, Real.sqrt_pos]
  norm_num

end Verif.Props.BinWidth
