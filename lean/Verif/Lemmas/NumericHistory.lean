import Verif.Spec.NumericHistory
import Verif.Lemmas.NumericStats

/-! Merge formulas against the specification, and the invariant over all histories. -/

namespace Verif.Numeric

open Verif Verif.Moments

/-- Stored biased variance for data `xs`. -/
noncomputable def fv (xs : List ℝ) : Flt := if xs = [] then none else some (Spec.variance xs)
/-- Stored biased skewness for data `xs`. -/
noncomputable def fs (xs : List ℝ) : Flt := if xs = [] then none else some (Spec.skewness xs)
/-- Stored biased kurtosis `o` is right for data `xs` whenever the data are not constant. -/
def KurtOK (xs : List ℝ) (o : Flt) : Prop :=
  (xs = [] → o = none) ∧
  (xs ≠ [] → ∃ k, o = some k ∧ (Spec.variance xs ≠ 0 → k = Spec.kurtosis xs))

theorem fv_nil : fv [] = none := by simp [fv]
theorem fs_nil : fs [] = none := by simp [fs]
theorem fv_ne {xs} (h : xs ≠ []) : fv xs = some (Spec.variance xs) := by simp [fv, h]
theorem fs_ne {xs} (h : xs ≠ []) : fs xs = some (Spec.skewness xs) := by simp [fs, h]

theorem mergeVar (xs ys : List ℝ) :
    mergeBiasedVariance xs.length (fv xs) (Spec.mean xs) ys.length (fv ys) (Spec.mean ys)
      = fv (xs ++ ys) := by
  unfold mergeBiasedVariance
  by_cases hx : xs = []
  · subst hx; simp
  by_cases hy : ys = []
  · subst hy; simp [hx]
  have h1 : ¬ xs.length < 1 := by
    have := List.length_pos_of_ne_nil hx; omega
  have h2 : ¬ ys.length < 1 := by
    have := List.length_pos_of_ne_nil hy; omega
  have h3 : xs ++ ys ≠ [] := by simp [hx]
  rw [if_neg h1, if_neg h2, fv_ne hx, fv_ne hy, fv_ne h3]
  dsimp only
  congr 1
  have e1 := variance_mul hx
  have e2 := variance_mul hy
  rw [variance_eq (xs ++ ys), M2_append hx hy, ← e1, ← e2, List.length_append]
  push_cast
  congr 1
  ring

theorem mergeM2 {xs ys : List ℝ} (hx : xs ≠ []) (hy : ys ≠ []) :
    (xs.length : ℝ) * Spec.variance xs + ys.length * Spec.variance ys
      + (Spec.mean ys - Spec.mean xs) ^ 2 * xs.length * ys.length / (xs.length + ys.length)
      = M 2 (xs ++ ys) := by
  rw [M2_append hx hy, variance_mul hx, variance_mul hy]

theorem mergeSkew (xs ys : List ℝ) :
    mergeBiasedSkewness xs.length (fs xs) (fv xs) (Spec.mean xs)
      ys.length (fs ys) (fv ys) (Spec.mean ys) = fs (xs ++ ys) := by
  unfold mergeBiasedSkewness
  by_cases hx : xs = []
  · subst hx; simp
  by_cases hy : ys = []
  · subst hy; simp [hx]
  have h1 : ¬ xs.length < 1 := by
    have := List.length_pos_of_ne_nil hx; omega
  have h2 : ¬ ys.length < 1 := by
    have := List.length_pos_of_ne_nil hy; omega
  have h3 : xs ++ ys ≠ [] := by simp [hx]
  rw [if_neg h1, if_neg h2, fv_ne hx, fv_ne hy, fs_ne hx, fs_ne hy, fs_ne h3]
  simp only [bind, Option.bind]
  rw [mergeM2 hx hy]
  split
  · rename_i h; rw [skewness_zero h3 h]
  · rename_i h
    congr 1
    rw [variance_mul hx, variance_mul hy, M3_of_skewness hx, M3_of_skewness hy, skewness_eq h3 h,
      M3_append hx hy, List.length_append]
    push_cast
    rfl

theorem mergeKurt (xs ys : List ℝ) (o1 o2 : Flt) (q1 : KurtOK xs o1) (q2 : KurtOK ys o2) :
    KurtOK (xs ++ ys) (mergeBiasedKurtosis xs.length o1 (fs xs) (fv xs) (Spec.mean xs)
      ys.length o2 (fs ys) (fv ys) (Spec.mean ys)) := by
  unfold mergeBiasedKurtosis
  by_cases hx : xs = []
  · subst hx; simpa using q2
  by_cases hy : ys = []
  · subst hy; simpa [hx] using q1
  have h1 : ¬ xs.length < 1 := by
    have := List.length_pos_of_ne_nil hx; omega
  have h2 : ¬ ys.length < 1 := by
    have := List.length_pos_of_ne_nil hy; omega
  have h3 : xs ++ ys ≠ [] := by simp [hx]
  obtain ⟨k1, rfl, hk1⟩ := q1.2 hx
  obtain ⟨k2, rfl, hk2⟩ := q2.2 hy
  rw [if_neg h1, if_neg h2, fv_ne hx, fv_ne hy, fs_ne hx, fs_ne hy]
  simp only [bind, Option.bind]
  rw [mergeM2 hx hy]
  refine ⟨fun h => absurd h h3, fun _ => ?_⟩
  split
  · rename_i h
    exact ⟨0, rfl, fun hv => absurd ((variance_eq_zero h3).2 h) hv⟩
  · rename_i h
    refine ⟨_, rfl, fun _ => ?_⟩
    have e1 := M4_of_kurtosis hx k1 (fun h => hk1 (fun h' => h ((variance_eq_zero hx).1 h')))
    have e2 := M4_of_kurtosis hy k2 (fun h => hk2 (fun h' => h ((variance_eq_zero hy).1 h')))
    rw [variance_mul hx, variance_mul hy, M3_of_skewness hx, M3_of_skewness hy, e1, e2,
      kurtosis_eq h3 h, M4_append hx hy, List.length_append]
    push_cast
    rfl

theorem tiny_eq : tiny = Spec.resolution := rfl

theorem zeroTiny_of {x : ℝ} (h : x = 0 ∨ Spec.resolution ≤ |x|) : zeroTiny x = x := by
  unfold zeroTiny
  rcases h with h | h
  · simp [h]
  · rw [tiny_eq, if_neg (not_lt.2 h)]

theorem biasedSkew_eq {xs : List ℝ} (hr : Spec.Resolved xs) : biasedSkew xs = fs xs := by
  unfold biasedSkew
  by_cases hx : xs = []
  · subst hx; simp [fs]
  have h1 : ¬ xs.length < 1 := by
    have := List.length_pos_of_ne_nil hx; omega
  have e2 : (List.map (fun d => d ^ 2) (List.map (fun x => x - seriesMean xs) xs)).sum = M 2 xs := by
    simp only [List.map_map]; rfl
  have e3 : (List.map (fun d => d ^ 2 * d) (List.map (fun x => x - seriesMean xs) xs)).sum
      = M 3 xs := by
    simp only [List.map_map, M]
    congr 1
  simp only [if_neg h1, e2, e3]
  have r2 : zeroTiny (M 2 xs) = M 2 xs := zeroTiny_of (hr 2 (by simp))
  have r3 : zeroTiny (M 3 xs) = M 3 xs := zeroTiny_of (hr 3 (by simp))
  rw [r2, r3]
  change (if M 2 xs = 0 then some 0 else some (Real.sqrt xs.length * M 3 xs / M 2 xs ^ (1.5 : ℝ))) = _
  rw [fs_ne hx]
  split
  · rename_i h; rw [skewness_zero hx h]
  · rename_i h
    rw [skewness_eq hx h]
    congr 2
    have hM := M2_nonneg xs
    rw [sqrt_cube hM, Real.sqrt_eq_rpow, ← Real.rpow_natCast, ← Real.rpow_mul hM]
    norm_num

theorem biasedKurt_ok {xs : List ℝ} (hr : Spec.Resolved xs) : KurtOK xs (biasedKurt xs) := by
  unfold biasedKurt
  refine ⟨fun h => by subst h; simp, fun hx => ?_⟩
  have h1 : ¬ xs.length < 1 := by
    have := List.length_pos_of_ne_nil hx; omega
  have e2 : (List.map (fun d => d ^ 2) (List.map (fun x => x - seriesMean xs) xs)).sum = M 2 xs := by
    simp only [List.map_map]; rfl
  have e4 : (List.map (fun d => d * d) (List.map (fun d => d ^ 2)
      (List.map (fun x => x - seriesMean xs) xs))).sum = M 4 xs := by
    simp only [List.map_map, M]
    congr 1
    apply List.map_congr_left
    intro x _
    simp only [Function.comp, seriesMean, Spec.mean]; ring
  simp only [if_neg h1, e2, e4]
  have r2 : zeroTiny (M 2 xs) = M 2 xs := zeroTiny_of (hr 2 (by simp))
  have r4 : zeroTiny (M 4 xs) = M 4 xs := zeroTiny_of (hr 4 (by simp))
  rw [r2, r4]
  change ∃ k, (if M 2 xs = 0 then some (-3) else some (xs.length * M 4 xs / M 2 xs ^ 2 - 3)) = _ ∧ _
  split
  · rename_i h
    exact ⟨_, rfl, fun hv => absurd ((variance_eq_zero hx).2 h) hv⟩
  · rename_i h
    exact ⟨_, rfl, fun _ => (kurtosis_eq hx h).symm⟩

theorem biasedSkew_isSome {xs : List ℝ} (hx : xs ≠ []) : (biasedSkew xs).isSome := by
  unfold biasedSkew
  have h1 : ¬ xs.length < 1 := by
    have := List.length_pos_of_ne_nil hx; omega
  simp only [if_neg h1]
  split <;> simp

theorem biasedKurt_isSome {xs : List ℝ} (hx : xs ≠ []) : (biasedKurt xs).isSome := by
  unfold biasedKurt
  have h1 : ¬ xs.length < 1 := by
    have := List.length_pos_of_ne_nil hx; omega
  simp only [if_neg h1]
  split <;> simp

/-! ### Histories -/

namespace History

theorem values_new (parse c b) : (History.new c b).values parse = [] := by
  simp [values, cells, batches]
theorem values_update (parse h b) :
    (History.update h b).values parse = h.values parse ++ b.filterMap parse := by
  simp [values, cells, batches]
theorem values_add (parse h1 h2) :
    (History.add h1 h2).values parse = h1.values parse ++ h2.values parse := by
  simp [values, cells, batches]

end History

/-- Part of the invariant that needs no numerical hypothesis. -/
structure Inv (parse : String → Option ℝ) (h : History) (s : State) : Prop where
  calcs_on : ∀ f ∈ [Calcs.min, Calcs.max, Calcs.sum, Calcs.variance, Calcs.skewness,
    Calcs.kurtosis, Calcs.numZeros, Calcs.numNegatives], f s.calcs = true ↔ h.on f
  valid : s.calcs.valid = true
  bias : s.biasCorrection = true ↔ h.biasOn
  sampleSize : s.sampleSize = h.cells.length
  matchCount : s.matchCount = (h.values parse).length
  sum : s.calcs.sum = true → s.sum = (h.values parse).sum
  variance : s.calcs.variance = true → s.biasedVariance = fv (h.values parse)
  skewSome : s.calcs.skewness = true → s.matchCount > 0 → s.biasedSkewness.isSome
  skewNone : s.calcs.skewness = true → s.matchCount = 0 → s.biasedSkewness = none
  kurtSome : s.calcs.kurtosis = true → s.matchCount > 0 → s.biasedKurtosis.isSome
  kurtNone : s.calcs.kurtosis = true → s.matchCount = 0 → s.biasedKurtosis = none
  zeros : s.calcs.numZeros = true → s.numZeros = (h.values parse).count 0
  negs : s.calcs.numNegatives = true →
    s.numNegatives = ((h.values parse).filter (fun x => decide (x < 0))).length
  skew : h.ResolvedBatches parse → s.calcs.skewness = true →
    s.biasedSkewness = fs (h.values parse)
  kurt : h.ResolvedBatches parse → s.calcs.kurtosis = true →
    KurtOK (h.values parse) s.biasedKurtosis
  minMem : ∀ m, s.min = some m → m ∈ h.values parse
  minNone : s.calcs.min = true → (s.min = none ↔ h.values parse = [])
  min : h.NoZeroMin parse → s.calcs.min = true →
    ∀ m, s.min = some m → Spec.IsMinOf m (h.values parse)
  maxMem : ∀ m, s.max = some m → m ∈ h.values parse
  maxNone : s.calcs.max = true → (s.max = none ↔ h.values parse = [])
  max : h.NoZeroMax parse → s.calcs.max = true →
    ∀ m, s.max = some m → Spec.IsMaxOf m (h.values parse)

theorem Calcs.valid_sum {c : Calcs} (h : c.valid = true) :
    (c.variance = true → c.sum = true) ∧ (c.skewness = true → c.variance = true) ∧
    (c.kurtosis = true → c.skewness = true) := by
  obtain ⟨a, b, s, v, k, q, z, n⟩ := c
  cases s <;> cases v <;> cases k <;> cases q <;> simp_all [Calcs.valid]

theorem Calcs.merge_all (a b : Calcs) : Calcs.all.merge (a.merge b) = a.merge b := by
  simp [Calcs.merge, Calcs.all]

theorem Calcs.merge_valid {a b : Calcs} (ha : a.valid = true) (hb : b.valid = true) :
    (a.merge b).valid = true := by
  obtain ⟨a1, a2, s, v, k, q, z, n⟩ := a
  obtain ⟨b1, b2, s', v', k', q', z', n'⟩ := b
  cases s <;> cases v <;> cases k <;> cases q <;> simp_all [Calcs.valid, Calcs.merge]

theorem Inv.mean {parse h s} (i : Inv parse h s) (hs : s.calcs.sum = true) :
    s.mean = Spec.mean (h.values parse) := by
  unfold State.mean
  rw [i.matchCount, i.sum hs]
  split
  · rename_i h0
    have : h.values parse = [] := List.length_eq_zero_iff.1 h0
    simp [Spec.mean, this]
  · rfl

theorem min?_isMinOf {xs : List ℝ} {m} (h : xs.min? = some m) : Spec.IsMinOf m xs := by
  have := List.min?_eq_some_iff.1 h
  exact ⟨this.1, fun x hx => this.2 x hx⟩

theorem max?_isMaxOf {xs : List ℝ} {m} (h : xs.max? = some m) : Spec.IsMaxOf m xs := by
  have := List.max?_eq_some_iff.1 h
  exact ⟨this.1, fun x hx => this.2 x hx⟩

theorem Inv.init {parse c b} (hc : c.valid = true) :
    Inv parse (.new c b) (State.init c b) := by
  constructor <;> simp [State.init, History.on, History.biasOn, History.cells, History.batches,
    History.values_new, fv, fs, KurtOK, hc]

theorem Inv.empty_update {parse h s} (i : Inv parse h s) (b : List String)
    (hb : b.filterMap parse = []) :
    Inv parse (.update h b) { s with sampleSize := s.sampleSize + b.length } := by
  have hv : (History.update h b).values parse = h.values parse := by
    rw [History.values_update, hb, List.append_nil]
  have hr : (History.update h b).ResolvedBatches parse → h.ResolvedBatches parse := by
    intro hr b' hb'
    exact hr b' (by simp [History.batches, hb'])
  constructor <;> (try rw [hv]) <;> (try dsimp only)
  · exact i.calcs_on
  · exact i.valid
  · exact i.bias
  · rw [i.sampleSize]; simp [History.cells, History.batches]
  · exact i.matchCount
  · exact i.sum
  · exact i.variance
  · exact i.skewSome
  · exact i.skewNone
  · exact i.kurtSome
  · exact i.kurtNone
  · exact i.zeros
  · exact i.negs
  · exact fun h => i.skew (hr h)
  · exact fun h => i.kurt (hr h)
  · exact i.minMem
  · exact i.minNone
  · exact fun h => i.min h.2
  · exact i.maxMem
  · exact i.maxNone
  · exact fun h => i.max h.2

theorem isMinOf_append {xs ys : List ℝ} {a b : ℝ} (ha : Spec.IsMinOf a xs)
    (hb : Spec.IsMinOf b ys) : Spec.IsMinOf (Min.min a b) (xs ++ ys) := by
  refine ⟨?_, ?_⟩
  · rcases min_choice a b with h | h <;> rw [h] <;> simp [ha.1, hb.1]
  · intro x hx
    rcases List.mem_append.1 hx with hx | hx
    · exact (min_le_left _ _).trans (ha.2 x hx)
    · exact (min_le_right _ _).trans (hb.2 x hx)

theorem isMaxOf_append {xs ys : List ℝ} {a b : ℝ} (ha : Spec.IsMaxOf a xs)
    (hb : Spec.IsMaxOf b ys) : Spec.IsMaxOf (Max.max a b) (xs ++ ys) := by
  refine ⟨?_, ?_⟩
  · rcases max_choice a b with h | h <;> rw [h] <;> simp [ha.1, hb.1]
  · intro x hx
    rcases List.mem_append.1 hx with hx | hx
    · exact (ha.2 x hx).trans (le_max_left _ _)
    · exact (hb.2 x hx).trans (le_max_right _ _)

theorem getMin_cases (s : State) (xs : List ℝ) (hx : xs ≠ []) :
    ∃ m, Spec.IsMinOf m xs ∧ ((s.min = none ∧ (getMin s xs).min = some m) ∨
      (s.min = some 0 ∧ (getMin s xs).min = some m) ∨
      (∃ a, s.min = some a ∧ a ≠ 0 ∧ (getMin s xs).min = some (Min.min a m))) := by
  unfold getMin
  cases hm : xs.min? with
  | none => simp at hm; exact absurd hm hx
  | some m =>
    refine ⟨m, min?_isMinOf hm, ?_⟩
    cases hs : s.min with
    | none => left; simp
    | some a =>
      right
      by_cases h0 : a = 0
      · left; simp [h0]
      · right; exact ⟨a, rfl, h0, by simp [h0]⟩

theorem getMax_cases (s : State) (xs : List ℝ) (hx : xs ≠ []) :
    ∃ m, Spec.IsMaxOf m xs ∧ ((s.max = none ∧ (getMax s xs).max = some m) ∨
      (s.max = some 0 ∧ (getMax s xs).max = some m) ∨
      (∃ a, s.max = some a ∧ a ≠ 0 ∧ (getMax s xs).max = some (Max.max a m))) := by
  unfold getMax
  cases hm : xs.max? with
  | none => simp at hm; exact absurd hm hx
  | some m =>
    refine ⟨m, max?_isMaxOf hm, ?_⟩
    cases hs : s.max with
    | none => left; simp
    | some a =>
      right
      by_cases h0 : a = 0
      · left; simp [h0]
      · right; exact ⟨a, rfl, h0, by simp [h0]⟩

theorem Inv.step {parse h s} (i : Inv parse h s) (b : List String)
    (hb : b.filterMap parse ≠ []) :
    Inv parse (.update h b)
      { stepped s (b.filterMap parse) with
        matchCount := s.matchCount + (b.filterMap parse).length
        sampleSize := s.sampleSize + b.length } := by
  have hr : (History.update h b).ResolvedBatches parse → h.ResolvedBatches parse := by
    intro hr b' hb'
    exact hr b' (by simp [History.batches, hb'])
  have hrb : (History.update h b).ResolvedBatches parse → Spec.Resolved (b.filterMap parse) := by
    intro hr
    exact hr b (by simp [History.batches])
  have hv := History.values_update parse h b
  have hval := i.valid
  have hdep := Calcs.valid_sum hval
  generalize hys : b.filterMap parse = ys at *
  have hlen : 0 < ys.length := List.length_pos_of_ne_nil hb
  have hne : h.values parse ++ ys ≠ [] := by simp [hb]
  constructor <;> (try rw [hv]) <;> (try dsimp only [stepped])
  · exact i.calcs_on
  · exact i.valid
  · exact i.bias
  · rw [i.sampleSize]; simp [History.cells, History.batches]
  · rw [i.matchCount]; simp
  · intro hc; rw [if_pos hc, i.sum hc]; simp
  · intro hc
    rw [if_pos hc, i.variance hc, i.mean (hdep.1 hc), i.matchCount, npVar_eq, ← fv_ne hb]
    exact mergeVar _ _
  · intro hc _
    rw [if_pos hc]
    by_cases h0 : s.matchCount > 0
    · have := i.skewSome hc h0
      obtain ⟨g, hg⟩ := Option.isSome_iff_exists.1 this
      obtain ⟨g', hg'⟩ := Option.isSome_iff_exists.1 (biasedSkew_isSome hb)
      have hxs : h.values parse ≠ [] := by
        intro h'; rw [i.matchCount, h'] at h0; simp at h0
      have h1 : ¬ s.matchCount < 1 := by omega
      have h2 : ¬ ys.length < 1 := by omega
      simp only [hg, hg', mergeBiasedSkewness, i.variance (hdep.2.1 hc), fv_ne hxs, h1, h2, if_false,
        Option.isNone_some, Bool.false_and, Bool.false_eq_true, bind, Option.bind]
      split <;> simp
    · have h0' : s.matchCount = 0 := by omega
      rw [i.skewNone hc h0', h0']
      simp [mergeBiasedSkewness, biasedSkew_isSome hb]
  · intro _ h0; omega
  · intro hc _
    rw [if_pos hc]
    by_cases h0 : s.matchCount > 0
    · obtain ⟨g, hg⟩ := Option.isSome_iff_exists.1 (i.kurtSome hc h0)
      obtain ⟨g', hg'⟩ := Option.isSome_iff_exists.1 (biasedKurt_isSome hb)
      obtain ⟨q, hq⟩ := Option.isSome_iff_exists.1 (i.skewSome (hdep.2.2 hc) h0)
      obtain ⟨q', hq'⟩ := Option.isSome_iff_exists.1 (biasedSkew_isSome hb)
      have hxs : h.values parse ≠ [] := by
        intro h'; rw [i.matchCount, h'] at h0; simp at h0
      have h1 : ¬ s.matchCount < 1 := by omega
      have h2 : ¬ ys.length < 1 := by omega
      simp only [hg, hg', hq, hq', mergeBiasedKurtosis, i.variance (hdep.2.1 (hdep.2.2 hc)),
        fv_ne hxs, h1, h2, if_false,
        Option.isNone_some, Bool.false_and, Bool.false_eq_true, bind, Option.bind]
      split <;> simp
    · have h0' : s.matchCount = 0 := by omega
      rw [i.kurtNone hc h0', h0']
      simp [mergeBiasedKurtosis, biasedKurt_isSome hb]
  · intro _ h0; omega
  · intro hc; rw [if_pos hc, i.zeros hc, List.count_append]
    congr 1
  · intro hc
    rw [if_pos hc, i.negs hc, List.filter_append, List.length_append, List.countP_eq_length_filter]
  · intro hR hc
    have hnn : (s.biasedSkewness.isNone && decide (s.matchCount > 0)) = false := by
      by_cases h0 : s.matchCount > 0
      · have := i.skewSome hc h0
        cases hs : s.biasedSkewness <;> simp_all
      · simp [h0]
    rw [if_pos hc, hnn]
    simp only [Bool.false_eq_true, if_false]
    rw [i.skew (hr hR) hc, i.variance (hdep.2.1 hc), i.mean (hdep.1 (hdep.2.1 hc)), i.matchCount,
      npVar_eq, ← fv_ne hb, biasedSkew_eq (hrb hR)]
    exact mergeSkew _ _
  · intro hR hc
    have hnn : (s.biasedKurtosis.isNone && decide (s.matchCount > 0)) = false := by
      by_cases h0 : s.matchCount > 0
      · have := i.kurtSome hc h0
        cases hs : s.biasedKurtosis <;> simp_all
      · simp [h0]
    rw [if_pos hc, hnn]
    simp only [Bool.false_eq_true, if_false]
    have hc1 := hdep.2.2 hc
    have hc2 := hdep.2.1 hc1
    rw [i.skew (hr hR) hc1, i.variance hc2, i.mean (hdep.1 hc2), i.matchCount,
      npVar_eq, ← fv_ne hb, biasedSkew_eq (hrb hR)]
    exact mergeKurt _ _ _ _ (i.kurt (hr hR) hc) (biasedKurt_ok (hrb hR))
  · intro m hm
    obtain ⟨m', hm', hcase⟩ := getMin_cases s ys hb
    split at hm
    · rcases hcase with ⟨_, e⟩ | ⟨_, e⟩ | ⟨a, ha, _, e⟩ <;> rw [e] at hm <;> cases hm
      · simp [hm'.1]
      · simp [hm'.1]
      · have := i.minMem a ha
        rcases min_choice a m' with e | e <;> rw [e] <;> simp [this, hm'.1]
    · simp [i.minMem m hm]
  · intro hc
    rw [if_pos hc]
    obtain ⟨m', hm', hcase⟩ := getMin_cases s ys hb
    rcases hcase with ⟨_, e⟩ | ⟨_, e⟩ | ⟨a, ha, _, e⟩ <;> rw [e] <;> simp [hb]
  · intro hz hc m
    rw [if_pos hc]
    obtain ⟨m', hm', hcase⟩ := getMin_cases s ys hb
    rcases hcase with ⟨h0, e⟩ | ⟨h0, e⟩ | ⟨a, ha, _, e⟩ <;> rw [e] <;> intro hm <;> cases hm
    · rw [(i.minNone hc).1 h0]; simpa using hm'
    · exact absurd (i.min hz.2 hc 0 h0) hz.1
    · exact isMinOf_append (i.min hz.2 hc a ha) hm'
  · intro m hm
    obtain ⟨m', hm', hcase⟩ := getMax_cases s ys hb
    split at hm
    · rcases hcase with ⟨_, e⟩ | ⟨_, e⟩ | ⟨a, ha, _, e⟩ <;> rw [e] at hm <;> cases hm
      · simp [hm'.1]
      · simp [hm'.1]
      · have := i.maxMem a ha
        rcases max_choice a m' with e | e <;> rw [e] <;> simp [this, hm'.1]
    · simp [i.maxMem m hm]
  · intro hc
    rw [if_pos hc]
    obtain ⟨m', hm', hcase⟩ := getMax_cases s ys hb
    rcases hcase with ⟨_, e⟩ | ⟨_, e⟩ | ⟨a, ha, _, e⟩ <;> rw [e] <;> simp [hb]
  · intro hz hc m
    rw [if_pos hc]
    obtain ⟨m', hm', hcase⟩ := getMax_cases s ys hb
    rcases hcase with ⟨h0, e⟩ | ⟨h0, e⟩ | ⟨a, ha, _, e⟩ <;> rw [e] <;> intro hm <;> cases hm
    · rw [(i.maxNone hc).1 h0]; simpa using hm'
    · exact absurd (i.max hz.2 hc 0 h0) hz.1
    · exact isMaxOf_append (i.max hz.2 hc a ha) hm'

theorem Inv.update {parse h s} (i : Inv parse h s) (b : List String) :
    ∃ s', update parse s b = .ok s' ∧ Inv parse (.update h b) s' := by
  unfold Numeric.update
  by_cases hb0 : b.length = 0
  · refine ⟨s, by simp [hb0], ?_⟩
    have : b = [] := List.length_eq_zero_iff.1 hb0
    subst this
    exact i.empty_update [] rfl
  · rw [if_neg hb0]
    by_cases hb : b.filterMap parse = []
    · refine ⟨{ s with sampleSize := s.sampleSize + b.length }, ?_, i.empty_update b hb⟩
      simp [hb, updateHelper, bind, Except.bind, pure, Except.pure]
    · refine ⟨_, ?_, i.step b hb⟩
      have hvar : s.calcs.variance = true → s.matchCount > 0 → s.biasedVariance.isSome := by
        intro hc h0
        have hxs : h.values parse ≠ [] := by
          intro h'; rw [i.matchCount, h'] at h0; simp at h0
        rw [i.variance hc, fv_ne hxs]; rfl
      have := updateHelper_eq s (b.filterMap parse) hb i.valid hvar i.skewSome
      dsimp only
      rw [this]
      rfl

theorem mergeOpt_cases (f : ℝ → ℝ → ℝ) (a b : Option ℝ) :
    (a = none ∧ b = none ∧ mergeOpt f a b = none) ∨
    (∃ x, a = some x ∧ b = none ∧ mergeOpt f a b = some x) ∨
    (∃ y, a = none ∧ b = some y ∧ mergeOpt f a b = some y) ∨
    (∃ x y, a = some x ∧ b = some y ∧ mergeOpt f a b = some (f x y)) := by
  cases a <;> cases b <;> simp [mergeOpt]

theorem Inv.add {parse h1 h2 s1 s2} (i1 : Inv parse h1 s1) (i2 : Inv parse h2 s2) :
    Inv parse (.add h1 h2) (Numeric.add s1 s2) := by
  have hv := History.values_add parse h1 h2
  have hd1 := Calcs.valid_sum i1.valid
  have hd2 := Calcs.valid_sum i2.valid
  have hr1 : (History.add h1 h2).ResolvedBatches parse → h1.ResolvedBatches parse :=
    fun h b hb => h b (by simp [History.batches, hb])
  have hr2 : (History.add h1 h2).ResolvedBatches parse → h2.ResolvedBatches parse :=
    fun h b hb => h b (by simp [History.batches, hb])
  have pos1 : s1.matchCount > 0 ↔ h1.values parse ≠ [] := by
    rw [i1.matchCount]; exact List.length_pos_iff
  have pos2 : s2.matchCount > 0 ↔ h2.values parse ≠ [] := by
    rw [i2.matchCount]; exact List.length_pos_iff
  unfold Numeric.add
  constructor <;> (try rw [hv]) <;> dsimp only <;> (try rw [Calcs.merge_all])
  · intro f hf
    have e1 := i1.calcs_on f hf
    have e2 := i2.calcs_on f hf
    have : f (s1.calcs.merge s2.calcs) = (f s1.calcs && f s2.calcs) := by
      simp only [List.mem_cons, List.not_mem_nil, or_false] at hf
      rcases hf with rfl | rfl | rfl | rfl | rfl | rfl | rfl | rfl <;> rfl
    rw [this, Bool.and_eq_true, e1, e2]; rfl
  · exact Calcs.merge_valid i1.valid i2.valid
  · rw [Bool.and_eq_true, i1.bias, i2.bias]; rfl
  · rw [i1.sampleSize, i2.sampleSize]; simp [History.cells, History.batches]
  · rw [i1.matchCount, i2.matchCount]; simp
  · intro hc
    rw [if_pos hc]
    simp only [Calcs.merge, Bool.and_eq_true] at hc
    rw [i1.sum hc.1, i2.sum hc.2]; simp
  · intro hc
    rw [if_pos hc]
    simp only [Calcs.merge, Bool.and_eq_true] at hc
    rw [i1.variance hc.1, i2.variance hc.2, i1.mean (hd1.1 hc.1), i2.mean (hd2.1 hc.2),
      i1.matchCount, i2.matchCount]
    exact mergeVar _ _
  · intro hc hpos
    rw [if_pos hc]
    simp only [Calcs.merge, Bool.and_eq_true] at hc
    by_cases p1 : s1.matchCount > 0
    · obtain ⟨g, hg⟩ := Option.isSome_iff_exists.1 (i1.skewSome hc.1 p1)
      by_cases p2 : s2.matchCount > 0
      · obtain ⟨g', hg'⟩ := Option.isSome_iff_exists.1 (i2.skewSome hc.2 p2)
        have n1 : ¬ s1.matchCount < 1 := by omega
        have n2 : ¬ s2.matchCount < 1 := by omega
        simp only [mergeBiasedSkewness, hg, hg', n1, n2, if_false, bind, Option.bind,
          i1.variance (hd1.2.1 hc.1), i2.variance (hd2.2.1 hc.2), fv_ne (pos1.1 p1),
          fv_ne (pos2.1 p2)]
        split <;> simp
      · have n1 : ¬ s1.matchCount < 1 := by omega
        have n2 : s2.matchCount < 1 := by omega
        simp [mergeBiasedSkewness, n1, n2, hg]
    · have n1 : s1.matchCount < 1 := by omega
      simp only [mergeBiasedSkewness, n1, if_true]
      exact i2.skewSome hc.2 (by omega)
  · intro hc h0
    rw [if_pos hc]
    simp only [Calcs.merge, Bool.and_eq_true] at hc
    have n1 : s1.matchCount < 1 := by omega
    simp only [mergeBiasedSkewness, n1, if_true]
    exact i2.skewNone hc.2 (by omega)
  · intro hc hpos
    rw [if_pos hc]
    simp only [Calcs.merge, Bool.and_eq_true] at hc
    by_cases p1 : s1.matchCount > 0
    · obtain ⟨g, hg⟩ := Option.isSome_iff_exists.1 (i1.kurtSome hc.1 p1)
      obtain ⟨q, hq⟩ := Option.isSome_iff_exists.1 (i1.skewSome (hd1.2.2 hc.1) p1)
      by_cases p2 : s2.matchCount > 0
      · obtain ⟨g', hg'⟩ := Option.isSome_iff_exists.1 (i2.kurtSome hc.2 p2)
        obtain ⟨q', hq'⟩ := Option.isSome_iff_exists.1 (i2.skewSome (hd2.2.2 hc.2) p2)
        have n1 : ¬ s1.matchCount < 1 := by omega
        have n2 : ¬ s2.matchCount < 1 := by omega
        simp only [mergeBiasedKurtosis, hg, hg', hq, hq', n1, n2, if_false, bind, Option.bind,
          i1.variance (hd1.2.1 (hd1.2.2 hc.1)), i2.variance (hd2.2.1 (hd2.2.2 hc.2)),
          fv_ne (pos1.1 p1), fv_ne (pos2.1 p2)]
        split <;> simp
      · have n1 : ¬ s1.matchCount < 1 := by omega
        have n2 : s2.matchCount < 1 := by omega
        simp [mergeBiasedKurtosis, n1, n2, hg]
    · have n1 : s1.matchCount < 1 := by omega
      simp only [mergeBiasedKurtosis, n1, if_true]
      exact i2.kurtSome hc.2 (by omega)
  · intro hc h0
    rw [if_pos hc]
    simp only [Calcs.merge, Bool.and_eq_true] at hc
    have n1 : s1.matchCount < 1 := by omega
    simp only [mergeBiasedKurtosis, n1, if_true]
    exact i2.kurtNone hc.2 (by omega)
  · intro hc
    rw [if_pos hc]
    simp only [Calcs.merge, Bool.and_eq_true] at hc
    rw [i1.zeros hc.1, i2.zeros hc.2, List.count_append]
  · intro hc
    rw [if_pos hc]
    simp only [Calcs.merge, Bool.and_eq_true] at hc
    rw [i1.negs hc.1, i2.negs hc.2, List.filter_append, List.length_append]
  · intro hR hc
    rw [if_pos hc]
    simp only [Calcs.merge, Bool.and_eq_true] at hc
    rw [i1.skew (hr1 hR) hc.1, i2.skew (hr2 hR) hc.2, i1.variance (hd1.2.1 hc.1),
      i2.variance (hd2.2.1 hc.2), i1.mean (hd1.1 (hd1.2.1 hc.1)), i2.mean (hd2.1 (hd2.2.1 hc.2)),
      i1.matchCount, i2.matchCount]
    exact mergeSkew _ _
  · intro hR hc
    rw [if_pos hc]
    simp only [Calcs.merge, Bool.and_eq_true] at hc
    have c1 := hd1.2.2 hc.1
    have c2 := hd2.2.2 hc.2
    rw [i1.skew (hr1 hR) c1, i2.skew (hr2 hR) c2, i1.variance (hd1.2.1 c1),
      i2.variance (hd2.2.1 c2), i1.mean (hd1.1 (hd1.2.1 c1)), i2.mean (hd2.1 (hd2.2.1 c2)),
      i1.matchCount, i2.matchCount]
    exact mergeKurt _ _ _ _ (i1.kurt (hr1 hR) hc.1) (i2.kurt (hr2 hR) hc.2)
  · intro m hm
    split at hm
    · rcases mergeOpt_cases Min.min s1.min s2.min with ⟨_, _, e⟩ | ⟨x, e1, _, e⟩ | ⟨y, _, e2, e⟩ |
        ⟨x, y, e1, e2, e⟩ <;> rw [e] at hm <;> cases hm
      · simp [i1.minMem _ e1]
      · simp [i2.minMem _ e2]
      · rcases min_choice x y with e | e <;> rw [e] <;> simp [i1.minMem _ e1, i2.minMem _ e2]
    · cases hm
  · intro hc
    rw [if_pos hc]
    simp only [Calcs.merge, Bool.and_eq_true] at hc
    have q1 := i1.minNone hc.1
    have q2 := i2.minNone hc.2
    rw [List.append_eq_nil_iff, ← q1, ← q2]
    rcases mergeOpt_cases Min.min s1.min s2.min with ⟨e1, e2, e⟩ | ⟨x, e1, e2, e⟩ | ⟨y, e1, e2, e⟩ |
        ⟨x, y, e1, e2, e⟩ <;> rw [e, e1, e2] <;> simp
  · intro hz hc m
    rw [if_pos hc]
    simp only [Calcs.merge, Bool.and_eq_true] at hc
    rcases mergeOpt_cases Min.min s1.min s2.min with ⟨e1, e2, e⟩ | ⟨x, e1, e2, e⟩ | ⟨y, e1, e2, e⟩ |
        ⟨x, y, e1, e2, e⟩ <;> rw [e] <;> intro hm <;> cases hm
    · rw [(i2.minNone hc.2).1 e2, List.append_nil]
      exact i1.min hz.1 hc.1 _ e1
    · rw [(i1.minNone hc.1).1 e1, List.nil_append]
      exact i2.min hz.2 hc.2 _ e2
    · exact isMinOf_append (i1.min hz.1 hc.1 _ e1) (i2.min hz.2 hc.2 _ e2)
  · intro m hm
    split at hm
    · rcases mergeOpt_cases Max.max s1.max s2.max with ⟨_, _, e⟩ | ⟨x, e1, _, e⟩ | ⟨y, _, e2, e⟩ |
        ⟨x, y, e1, e2, e⟩ <;> rw [e] at hm <;> cases hm
      · simp [i1.maxMem _ e1]
      · simp [i2.maxMem _ e2]
      · rcases max_choice x y with e | e <;> rw [e] <;> simp [i1.maxMem _ e1, i2.maxMem _ e2]
    · cases hm
  · intro hc
    rw [if_pos hc]
    simp only [Calcs.merge, Bool.and_eq_true] at hc
    have q1 := i1.maxNone hc.1
    have q2 := i2.maxNone hc.2
    rw [List.append_eq_nil_iff, ← q1, ← q2]
    rcases mergeOpt_cases Max.max s1.max s2.max with ⟨e1, e2, e⟩ | ⟨x, e1, e2, e⟩ | ⟨y, e1, e2, e⟩ |
        ⟨x, y, e1, e2, e⟩ <;> rw [e, e1, e2] <;> simp
  · intro hz hc m
    rw [if_pos hc]
    simp only [Calcs.merge, Bool.and_eq_true] at hc
    rcases mergeOpt_cases Max.max s1.max s2.max with ⟨e1, e2, e⟩ | ⟨x, e1, e2, e⟩ | ⟨y, e1, e2, e⟩ |
        ⟨x, y, e1, e2, e⟩ <;> rw [e] <;> intro hm <;> cases hm
    · rw [(i2.maxNone hc.2).1 e2, List.append_nil]
      exact i1.max hz.1 hc.1 _ e1
    · rw [(i1.maxNone hc.1).1 e1, List.nil_append]
      exact i2.max hz.2 hc.2 _ e2
    · exact isMaxOf_append (i1.max hz.1 hc.1 _ e1) (i2.max hz.2 hc.2 _ e2)

theorem run_inv (parse : String → Option ℝ) (h : History) (hv : h.Valid) :
    ∃ s, h.run parse = .ok s ∧ Inv parse h s := by
  induction h with
  | new c b => exact ⟨_, rfl, Inv.init hv⟩
  | update h b ih =>
    obtain ⟨s, hs, i⟩ := ih hv
    obtain ⟨s', hs', i'⟩ := i.update b
    exact ⟨s', by simp [History.run, hs, bind, Except.bind, hs'], i'⟩
  | add h1 h2 ih1 ih2 =>
    obtain ⟨s1, hs1, i1⟩ := ih1 hv.1
    obtain ⟨s2, hs2, i2⟩ := ih2 hv.2
    exact ⟨_, by simp [History.run, hs1, hs2, bind, Except.bind, pure, Except.pure], i1.add i2⟩

end Verif.Numeric
