import Verif.Lemmas.Quantiles
import Mathlib.Data.List.Pairwise
import Mathlib.Data.List.Sort

/-!
# C31: quantile groups of a report
-/

namespace Verif.QuantilesProps

open Verif Quantiles QuantilesSpec

variable {α : Type*} {rnd : ℚ → ℚ}

/-- Doubles round as assumed. -/
theorem C31_doubles : Rounding Double.dbl := ⟨fun _ h => Double.dbl_error h, fun _ h0 h => Double.dbl_nat h0 h⟩

/-- So does exact arithmetic. -/
theorem rounding_id : Rounding (fun x => x) :=
  ⟨fun x h => by rw [sub_self, abs_zero]; positivity, fun _ _ _ => rfl⟩

/-- A number of groups that can be satisfied: one less stored quantiles are reported, at strictly increasing positions, each
being the first stored one not below the requested one, or, only if that one is exact and the groups are not of equal size,
the next one. -/
theorem C31_quantiles (hr : Rounding rnd) {g : ℕ} {qs : List α} (hg : 0 < g) (hgn : g ≤ qs.length + 1)
    (hn : qs.length + 1 ≤ 2 ^ 25) :
    ∃ ks : List ℕ, ∃ r, calculate rnd (some g) qs = .ok r ∧ r.length = g - 1 ∧ ks.Pairwise (· < ·) ∧
      r.map some = ks.map (fun k => qs[k]?) ∧
      ∀ i k, ks[i]? = some k → ∃ b, Best g qs.length i b ∧
        (k = b ∨ (k = b + 1 ∧ ((i + 1 : ℕ) : ℚ) / g = ((b + 1 : ℕ) : ℚ) / ((qs.length + 1 : ℕ) : ℚ) ∧ ¬g ∣ qs.length + 1)) := by
  have e : groups (some (g : ℤ)) qs.length = g := by
    unfold groups
    dsimp only
    rw [if_pos ⟨by exact_mod_cast hg, by exact_mod_cast hgn⟩]
    rfl
  have hlt : ∀ i ∈ List.range (g - 1), (index rnd g qs.length i).toNat < qs.length := by
    intro i hi
    have hi' : i + 1 < g := by have := List.mem_range.1 hi; omega
    have h1 := index_lt hr hg hgn hi' hn
    have h2 := index_nonneg hr hg hgn hi' hn
    omega
  refine ⟨(List.range (g - 1)).map fun i => (index rnd g qs.length i).toNat,
    (List.range (g - 1)).attach.map fun i => qs[(index rnd g qs.length i.1).toNat]'(hlt i.1 i.2), ?_, ?_, ?_, ?_, ?_⟩
  · unfold calculate
    rw [e]
    conv => lhs; rw [← List.attach_map_subtype_val (List.range (g - 1))]
    rw [List.mapM_map]
    refine mapM_ok fun i _ => ?_
    unfold at?
    simp only [Function.comp]
    rw [List.getElem?_eq_getElem (hlt i.1 i.2)]
  · rw [List.length_map, List.length_attach, List.length_range]
  · rw [List.pairwise_map]
    refine List.Pairwise.imp_of_mem ?_ List.pairwise_lt_range
    intro i j hi hj hij
    have hj' : j + 1 < g := by have := List.mem_range.1 hj; omega
    have h1 := index_strict hr hg hgn hn hij hj'
    have h2 := index_nonneg hr hg hgn (by omega : i + 1 < g) hn
    omega
  · rw [List.map_map, List.map_map]
    conv => rhs; rw [← List.attach_map_subtype_val (List.range (g - 1))]
    rw [List.map_map]
    refine List.map_congr_left fun i _ => ?_
    simp only [Function.comp]
    rw [List.getElem?_eq_getElem (hlt i.1 i.2)]
  · intro i k hk
    rw [List.getElem?_map] at hk
    by_cases hi : i < g - 1
    · rw [List.getElem?_range hi] at hk
      simp only [Option.map_some, Option.some.injEq] at hk
      have hi' : i + 1 < g := by omega
      refine ⟨best g qs.length i, best_spec hg, ?_⟩
      rcases index_eq hr hg hgn hi' hn with h | ⟨h, he, hd⟩
      · left; omega
      · refine Or.inr ⟨by omega, ?_, hd⟩
        rw [div_eq_div_iff (by exact_mod_cast hg.ne') (by positivity)]
        exact_mod_cast he
    · rw [List.getElem?_eq_none (by simpa using hi)] at hk
      exact nomatch hk

/-- If the groups are of equal size, exactly the requested quantiles are reported. -/
theorem C31_exact (hr : Rounding rnd) {g m : ℕ} {qs : List α} (hg : 0 < g) (hm : qs.length + 1 = g * m)
    (hn : qs.length + 1 ≤ 2 ^ 25) :
    ∃ r, calculate rnd (some g) qs = .ok r ∧ r.length = g - 1 ∧ ∀ i, i + 1 < g → r[i]? = qs[(i + 1) * m - 1]? := by
  have hm0 : 0 < m := by rcases m with _ | m <;> omega
  have hgn : g ≤ qs.length + 1 := by rw [hm]; exact Nat.le_mul_of_pos_right g hm0
  obtain ⟨ks, r, h1, h2, _, h4, h5⟩ := C31_quantiles hr hg hgn hn
  refine ⟨r, h1, h2, fun i hi => ?_⟩
  have hl : ks.length = g - 1 := by
    rw [← h2, ← List.length_map (f := fun k => qs[k]?) (as := ks), ← h4, List.length_map]
  have hik : i < ks.length := by omega
  obtain ⟨b, hb, hk⟩ := h5 i ks[i] (List.getElem?_eq_getElem hik)
  have hkb : ks[i] = b := by
    rcases hk with h | h
    · exact h
    · exact absurd ⟨m, hm⟩ h.2.2
  have hbest : Best g qs.length i ((i + 1) * m - 1) := by
    have hgq : (0 : ℚ) < (g : ℚ) := by exact_mod_cast hg
    have hnq : (0 : ℚ) < ((qs.length + 1 : ℕ) : ℚ) := by positivity
    have hpos : 0 < (i + 1) * m := by positivity
    refine ⟨?_, fun j hj => ?_⟩
    · rw [div_le_div_iff₀ hgq hnq]
      have : (i + 1) * (qs.length + 1) ≤ ((i + 1) * m - 1 + 1) * g := by
        rw [Nat.sub_add_cancel hpos, hm]; nlinarith
      exact_mod_cast this
    · rw [div_le_div_iff₀ hgq hnq] at hj
      have hj' : (i + 1) * (qs.length + 1) ≤ (j + 1) * g := by exact_mod_cast hj
      rw [hm, Nat.mul_left_comm, Nat.mul_comm g] at hj'
      have := Nat.le_of_mul_le_mul_right hj' hg
      omega
  have e : b = (i + 1) * m - 1 := Best.unique hb hbest
  have h6 : (r.map some)[i]? = (ks.map fun k => qs[k]?)[i]? := by rw [h4]
  rw [List.getElem?_map, List.getElem?_map, List.getElem?_eq_getElem hik,
    List.getElem?_eq_getElem (by omega : i < r.length)] at h6
  simp only [Option.map_some, Option.some.injEq] at h6
  rw [List.getElem?_eq_getElem (by omega : i < r.length), h6, hkb, e]

/-- 999 stored quantiles, four groups. -/
example : calculate Double.dbl (some 4) (List.range 999) = .ok [249, 499, 749] := by decide +kernel

example : calculate Double.dbl (some 3) ["a", "b", "c", "d"] = .ok ["b", "d"] := by decide +kernel

/-- Sorted quantiles stay sorted. -/
theorem C31_sorted (hr : Rounding rnd) {g : ℕ} {qs r : List ℚ} (hg : 0 < g) (hgn : g ≤ qs.length + 1)
    (hn : qs.length + 1 ≤ 2 ^ 25) (hs : qs.Pairwise (· ≤ ·)) (h : calculate rnd (some g) qs = .ok r) :
    r.Pairwise (· ≤ ·) := by
  obtain ⟨ks, r', h1, h2, h3, h4, _⟩ := C31_quantiles hr hg hgn hn
  rw [h] at h1
  obtain rfl : r = r' := Except.ok.inj h1
  have hl : ks.length = r.length := by
    rw [← List.length_map (f := fun k => qs[k]?) (as := ks), ← h4, List.length_map]
  rw [List.pairwise_iff_getElem] at hs h3 ⊢
  have key : ∀ i (hi : i < r.length), ∃ hk : ks[i]'(hl ▸ hi) < qs.length, r[i] = qs[ks[i]'(hl ▸ hi)] := by
    intro i hi
    have h6 : (r.map some)[i]? = (ks.map fun k => qs[k]?)[i]? := by rw [h4]
    rw [List.getElem?_map, List.getElem?_map, List.getElem?_eq_getElem (hl ▸ hi : i < ks.length),
      List.getElem?_eq_getElem hi] at h6
    simp only [Option.map_some, Option.some.injEq] at h6
    obtain ⟨hk, e⟩ := List.getElem?_eq_some_iff.1 h6.symm
    exact ⟨hk, e.symm⟩
  intro i j hi hj hij
  obtain ⟨hki, ei⟩ := key i hi
  obtain ⟨hkj, ej⟩ := key j hj
  rw [ei, ej]
  exact hs _ _ hki hkj (h3 i j (hl ▸ hi) (hl ▸ hj) hij)

/-- A request that cannot be satisfied is replaced by quartiles. -/
theorem C31_fallback {g : Option ℤ} {qs : List α} (hg : ∀ k : ℤ, g = some k → k ≤ 0 ∨ (qs.length : ℤ) + 1 < k)
    (h3 : 3 ≤ qs.length) : calculate rnd g qs = calculate rnd (some 4) qs := by
  have e : groups g qs.length = groups (some 4) qs.length := by
    have h4 : groups (some 4) qs.length = 4 := by
      unfold groups
      dsimp only
      rw [if_pos ⟨by norm_num, by omega⟩]; rfl
    rw [h4]
    unfold groups
    rcases g with _ | k
    · rfl
    · have := hg k rfl
      simp only
      rw [if_neg (by omega)]
  unfold calculate
  rw [e]

/-- With one or two stored quantiles (an allowed setting), the default report raises an error: it asks for quartiles. -/
theorem C31_small_fails (hr : Rounding rnd) {qs : List α} (hq : qs.length = 1 ∨ qs.length = 2) :
    reported rnd (some 4) qs = .error .indexError := by
  have hne : qs ≠ [] := by rintro rfl; simp at hq
  unfold reported
  rw [if_neg hne]
  have hg : groups (some 4) qs.length = 4 := by
    unfold groups
    dsimp only
    rw [if_neg (by omega)]
  unfold calculate
  rw [hg]
  -- the exact products are `(i + 1) * (n + 1) / 4`
  have close : ∀ x : ℚ, 0 < x → x ≤ 3 → 0 < rnd x ∧ |rnd x - x| ≤ 1 / 1000 := by
    intro x h0 h1
    have := hr.error x h0
    have hb : x / 2 ^ 53 ≤ 1 / 1000 := by
      rw [div_le_div_iff₀ (by norm_num) (by norm_num)]; linarith
    have hb2 : x / 2 ^ 53 < x := by rw [div_lt_iff₀ (by norm_num)]; linarith
    refine ⟨?_, le_trans this hb⟩
    rw [abs_le] at this
    linarith [this.1]
  have prod : ∀ (n i : ℕ), (n = 1 ∨ n = 2) → i ≤ 2 → ∀ k : ℤ,
      (k : ℚ) + 1 / 100 < ((i + 1 : ℕ) : ℚ) * (((n + 1 : ℕ) : ℚ) / 4) →
      ((i + 1 : ℕ) : ℚ) * (((n + 1 : ℕ) : ℚ) / 4) < k + 1 - 1 / 100 → index rnd 4 n i = k := by
    intro n i hn hi k h1 h2
    unfold index
    have hn1 : (0 : ℚ) < ((n + 1 : ℕ) : ℚ) / ((4 : ℕ) : ℚ) ∧ ((n + 1 : ℕ) : ℚ) / ((4 : ℕ) : ℚ) ≤ 3 / 4 := by
      rcases hn with rfl | rfl <;> norm_num
    obtain ⟨a1, a2⟩ := close _ hn1.1 (by linarith [hn1.2])
    have hi1 : (1 : ℚ) ≤ ((i + 1 : ℕ) : ℚ) ∧ ((i + 1 : ℕ) : ℚ) ≤ 3 := by
      have h1 : 1 ≤ i + 1 := by omega
      have h2 : i + 1 ≤ 3 := by omega
      exact ⟨by exact_mod_cast h1, by exact_mod_cast h2⟩
    rw [abs_le] at a2
    have e4 : (((4 : ℕ) : ℚ)) = 4 := by norm_num
    rw [e4] at *
    generalize ((i + 1 : ℕ) : ℚ) = a at *
    generalize ((n + 1 : ℕ) : ℚ) / 4 = x at *
    generalize rnd x = m at *
    have m1 : a * m ≤ a * x + 3 / 1000 := by nlinarith
    have m2 : a * x - 3 / 1000 ≤ a * m := by nlinarith
    have m3 : a * m ≤ 3 := by nlinarith
    obtain ⟨b1, b2⟩ := close (a * m) (by nlinarith) m3
    rw [abs_le] at b2
    have : ⌈rnd (a * m)⌉ = k + 1 := by
      rw [Int.ceil_eq_iff]
      push_cast
      constructor <;> linarith [b2.1, b2.2]
    omega
  rcases hq with hq | hq
  · have i0 : index rnd 4 qs.length 0 = 0 := by rw [hq]; exact prod 1 0 (Or.inl rfl) (by omega) 0 (by norm_num) (by norm_num)
    have i2 : index rnd 4 qs.length 2 = 1 := by rw [hq]; exact prod 1 2 (Or.inl rfl) (by omega) 1 (by norm_num) (by norm_num)
    have hat : ∀ k : ℤ, at? qs k = at? qs 0 ∨ at? qs k = .error .indexError := by
      intro k
      unfold at?
      rcases Nat.eq_zero_or_pos k.toNat with h | h
      · left; rw [h]; rfl
      · right; rw [List.getElem?_eq_none (by omega)]
    obtain ⟨v, hv⟩ : ∃ v, qs = [v] := List.length_eq_one_iff.1 hq
    have h0 : at? qs 0 = .ok v := by rw [hv]; rfl
    have h1 : at? qs (index rnd 4 qs.length 2) = .error .indexError := by
      rw [i2]; unfold at?; rw [List.getElem?_eq_none (by rw [hq]; exact le_refl _)]
    show List.mapM _ [0, 1, 2] = _
    rw [List.mapM_cons, i0, h0, List.mapM_cons]
    rcases hat (index rnd 4 qs.length 1) with h | h
    · rw [h, h0, List.mapM_cons, h1]; rfl
    · rw [h]; rfl
  · have i0 : index rnd 4 qs.length 0 = 0 := by rw [hq]; exact prod 2 0 (Or.inr rfl) (by omega) 0 (by norm_num) (by norm_num)
    have i1 : index rnd 4 qs.length 1 = 1 := by rw [hq]; exact prod 2 1 (Or.inr rfl) (by omega) 1 (by norm_num) (by norm_num)
    have i2 : index rnd 4 qs.length 2 = 2 := by rw [hq]; exact prod 2 2 (Or.inr rfl) (by omega) 2 (by norm_num) (by norm_num)
    obtain ⟨v, w, hv⟩ : ∃ v w, qs = [v, w] := List.length_eq_two.1 hq
    show List.mapM _ [0, 1, 2] = _
    rw [List.mapM_cons, i0, List.mapM_cons, i1, List.mapM_cons, i2, hv]
    rfl

/-- Because of rounding, the median among thirty groups of a default profile is the quantile after the median: 500 instead of
499 (of 0 … 998). -/
theorem C31_rounding_fails : Best 30 999 14 499 ∧ index Double.dbl 30 999 14 = 500 ∧ index (fun x => x) 30 999 14 = 499 := by
  refine ⟨?_, by decide +kernel, by decide +kernel⟩
  have : best 30 999 14 = 499 := by decide
  exact this ▸ best_spec (by norm_num)

end Verif.QuantilesProps
