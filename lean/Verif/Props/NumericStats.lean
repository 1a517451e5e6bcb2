import Verif.Lemmas.NumericHistory

/-!
# C01–C06: numeric column statistics

A `History` is any sequence of the public operations on one column: create a profile, `update` it
with a batch of cells, add two profiles with `+`.  The theorems say what the resulting profile
reports in terms of the *data seen by the history* (`History.cells`, `History.values`) and the
textbook statistics of `Verif.Spec.Moments`.
-/

namespace Verif.Numeric

open Verif

/-! ## C01 -/

/-- **C01** Whatever the batching and merging, with any accepted options profiling does not fail and
count, sum, mean, number of zeros and number of negatives are those of all the data. -/
theorem C01_totals (parse : String → Option ℝ) (h : History) (hv : h.Valid) :
    ∃ s, h.run parse = .ok s ∧
      s.sampleSize = h.cells.length ∧
      s.matchCount = (h.values parse).length ∧
      (h.on Calcs.sum → s.sum = (h.values parse).sum ∧ s.mean = Spec.mean (h.values parse)) ∧
      (h.on Calcs.numZeros → s.numZeros = (h.values parse).count 0) ∧
      (h.on Calcs.numNegatives →
        s.numNegatives = ((h.values parse).filter (fun x => decide (x < 0))).length) := by
  obtain ⟨s, hs, i⟩ := run_inv parse h hv
  refine ⟨s, hs, i.sampleSize, i.matchCount, fun ho => ?_, fun ho => ?_, fun ho => ?_⟩
  · have hc := (i.calcs_on Calcs.sum (by simp)).2 ho
    exact ⟨i.sum hc, i.mean hc⟩
  · exact i.zeros ((i.calcs_on Calcs.numZeros (by simp)).2 ho)
  · exact i.negs ((i.calcs_on Calcs.numNegatives (by simp)).2 ho)

/-- **C01** (batch independence) Two histories that have seen the same cells report the same
totals. -/
theorem C01_batch_independent (parse : String → Option ℝ) (h1 h2 : History)
    (hv1 : h1.Valid) (hv2 : h2.Valid) (same : h1.cells = h2.cells)
    (s1 s2 : State) (e1 : h1.run parse = .ok s1) (e2 : h2.run parse = .ok s2) :
    s1.sampleSize = s2.sampleSize ∧ s1.matchCount = s2.matchCount ∧
    (h1.on Calcs.sum → h2.on Calcs.sum → s1.sum = s2.sum ∧ s1.mean = s2.mean) ∧
    (h1.on Calcs.numZeros → h2.on Calcs.numZeros → s1.numZeros = s2.numZeros) ∧
    (h1.on Calcs.numNegatives → h2.on Calcs.numNegatives → s1.numNegatives = s2.numNegatives) := by
  obtain ⟨t1, r1, a1, b1, c1, d1, f1⟩ := C01_totals parse h1 hv1
  obtain ⟨t2, r2, a2, b2, c2, d2, f2⟩ := C01_totals parse h2 hv2
  rw [e1] at r1; rw [e2] at r2
  cases r1; cases r2
  have hval : h1.values parse = h2.values parse := by simp [History.values, same]
  refine ⟨by rw [a1, a2, same], by rw [b1, b2, hval], fun o1 o2 => ?_, fun o1 o2 => ?_,
    fun o1 o2 => ?_⟩
  · exact ⟨by rw [(c1 o1).1, (c2 o2).1, hval], by rw [(c1 o1).2, (c2 o2).2, hval]⟩
  · rw [d1 o1, d2 o2, hval]
  · rw [f1 o1, f2 o2, hval]

/-- A concrete parser used by the examples: a few numerals, everything else is not a number. -/
noncomputable def exParse (s : String) : Option ℝ :=
  if s = "0" then some 0 else if s = "1" then some 1 else if s = "5" then some 5
  else if s = "-2" then some (-2) else none

/-- A concrete history: two profiles with different options, updated and merged. -/
def exHistory : History :=
  .add (.update (.update (.new Calcs.all true) ["1", "x"]) ["5", "0"])
    (.update (.new { Calcs.all with min := false } false) ["-2", "", "1"])

example : exHistory.Valid ∧ exHistory.on Calcs.sum ∧ exHistory.on Calcs.variance ∧
    exHistory.on Calcs.kurtosis ∧ exHistory.on Calcs.numZeros ∧ ¬ exHistory.on Calcs.min ∧
    exHistory.values exParse = [1, 5, 0, -2, 1] := by
  simp [exHistory, History.Valid, History.on, History.values, History.cells, History.batches,
    exParse, Calcs.all, Calcs.valid]

/-! ## C02 -/

/-- **C02** The reported variance is, for every history with variance enabled: NaN if there is no
data, the population variance if bias correction is off, and with bias correction on the unbiased
sample variance (NaN for fewer than two values). The standard deviation is its square root. -/
theorem C02_variance (parse : String → Option ℝ) (h : History) (hv : h.Valid)
    (ho : h.on Calcs.variance) :
    ∃ s, h.run parse = .ok s ∧
      (h.values parse = [] → s.variance = none ∧ s.stddev = none) ∧
      (h.values parse ≠ [] → ¬ h.biasOn → s.variance = some (Spec.variance (h.values parse)) ∧
        s.stddev = some (Spec.stddev (h.values parse))) ∧
      ((h.values parse).length < 2 → h.biasOn → s.variance = none ∧ s.stddev = none) ∧
      (2 ≤ (h.values parse).length → h.biasOn →
        s.variance = some (Spec.sampleVariance (h.values parse)) ∧
        s.stddev = some (Real.sqrt (Spec.sampleVariance (h.values parse)))) := by
  obtain ⟨s, hs, i⟩ := run_inv parse h hv
  have hvar := i.variance ((i.calcs_on Calcs.variance (by simp)).2 ho)
  have hm := i.matchCount
  have hb := i.bias
  generalize h.values parse = xs at *
  refine ⟨s, hs, ?_, ?_, ?_, ?_⟩
  · intro h0
    subst h0
    simp [State.variance, State.stddev, hvar, hm, fv, correctBiasVariance]
  · intro h0 hnb
    have hb' : s.biasCorrection = false := by
      rw [← Bool.not_eq_true]; exact fun h' => hnb (hb.1 h')
    have : xs.length ≠ 0 := by simpa using h0
    simp [State.variance, State.stddev, hvar, hm, hb', fv, h0, Spec.stddev]
  · intro h2 hbo
    have hb' := hb.2 hbo
    simp [State.variance, State.stddev, hb', hm, correctBiasVariance, h2]
  · intro h2 hbo
    have hb' := hb.2 hbo
    have h0 : xs ≠ [] := by intro h'; subst h'; simp at h2
    have hn2 : ¬ xs.length < 2 := by omega
    have key : (xs.length : ℝ) / ((xs.length : ℝ) - 1) * Spec.variance xs
        = Spec.sampleVariance xs := by
      rw [Moments.variance_eq]
      have hp := Moments.len_pos h0
      have hp2 : (0 : ℝ) < (xs.length : ℝ) - 1 := by
        have : (2 : ℝ) ≤ xs.length := by exact_mod_cast h2
        linarith
      unfold Spec.sampleVariance Moments.M
      field_simp
    have : xs.length ≠ 0 := by simpa using h0
    simp [State.variance, State.stddev, hvar, hm, hb', fv, h0, correctBiasVariance, hn2, key]

example : ∃ h : History, h.Valid ∧ h.on Calcs.variance ∧ h.biasOn ∧
    2 ≤ (h.values exParse).length :=
  ⟨.update (.update (.new Calcs.all true) ["1"]) ["5", "0"], by
    simp [History.Valid, History.on, History.biasOn, History.values, History.cells,
      History.batches, exParse, Calcs.all, Calcs.valid]⟩

/-! ## C03 -/

/-- **C03** If no batch has a deviation sum strictly between `0` and `1e-14`, the reported skewness
is, for every history: NaN without data, the population skewness without bias correction, the
adjusted Fisher–Pearson skewness with bias correction (NaN below three values). -/
theorem C03_skewness (parse : String → Option ℝ) (h : History) (hv : h.Valid)
    (ho : h.on Calcs.skewness) (hr : h.ResolvedBatches parse) :
    ∃ s, h.run parse = .ok s ∧
      (h.values parse = [] → s.skewness = none) ∧
      (h.values parse ≠ [] → ¬ h.biasOn → s.skewness = some (Spec.skewness (h.values parse))) ∧
      ((h.values parse).length < 3 → h.biasOn → s.skewness = none) ∧
      (3 ≤ (h.values parse).length → h.biasOn →
        s.skewness = some (Spec.sampleSkewness (h.values parse))) := by
  obtain ⟨s, hs, i⟩ := run_inv parse h hv
  have hsk := i.skew hr ((i.calcs_on Calcs.skewness (by simp)).2 ho)
  have hm := i.matchCount
  have hb := i.bias
  generalize h.values parse = xs at *
  refine ⟨s, hs, ?_, ?_, ?_, ?_⟩
  · intro h0
    subst h0
    simp [State.skewness, hsk, fs, correctBiasSkewness]
  · intro h0 hnb
    have hb' : s.biasCorrection = false := by
      rw [← Bool.not_eq_true]; exact fun h' => hnb (hb.1 h')
    simp [State.skewness, hsk, hb', fs, h0]
  · intro h2 hbo
    have hb' := hb.2 hbo
    simp [State.skewness, hb', hm, correctBiasSkewness, h2]
  · intro h2 hbo
    have hb' := hb.2 hbo
    have h0 : xs ≠ [] := by intro h'; subst h'; simp at h2
    have hn2 : ¬ xs.length < 3 := by omega
    simp only [State.skewness, hsk, hm, hb', fs, h0, correctBiasSkewness, hn2, Bool.not_true,
      Bool.false_eq_true, if_false, Option.bind_some, Spec.sampleSkewness]
    congr 1
    ring

/-- The hypotheses of C03/C04 are met by a three-batch history of non-constant data. -/
example : ∃ h : History, h.Valid ∧ h.on Calcs.skewness ∧ h.on Calcs.kurtosis ∧ h.biasOn ∧
    h.ResolvedBatches exParse ∧ 3 ≤ (h.values exParse).length ∧
    Spec.variance (h.values exParse) ≠ 0 := by
  refine ⟨.update (.update (.update (.new Calcs.all true) ["1"]) ["5", "0"]) ["-2"], ?_⟩
  simp only [History.Valid, History.on, History.biasOn, History.values, History.cells,
      History.batches, Calcs.all, Calcs.valid, History.ResolvedBatches]
  refine ⟨by decide, trivial, trivial, trivial, ?_, ?_, ?_⟩
  · intro b hb
    simp at hb
    rcases hb with rfl | rfl | rfl
    · intro k hk; left
      simp at hk
      rcases hk with rfl | rfl | rfl <;> simp [exParse, Spec.mean]
    · intro k hk
      simp at hk
      rcases hk with rfl | rfl | rfl
      · right; simp [exParse, Spec.mean, Spec.resolution]; norm_num [abs_of_pos]
      · left; simp [exParse, Spec.mean]; norm_num
      · right; simp [exParse, Spec.mean, Spec.resolution]; norm_num [abs_of_pos]
    · intro k hk; left
      simp at hk
      rcases hk with rfl | rfl | rfl <;> simp [exParse, Spec.mean]
  · simp [exParse]
  · simp [exParse, Spec.variance, Spec.moment, Spec.mean]; norm_num

/-! ## C04 -/

/-- **C04** (partial: non-constant data only) With resolved batches the reported kurtosis is that of
all the data whenever the data are not all equal. Missing: constant data, where the code is
batch-dependent (`C04_constant_data_fails`). -/
theorem C04_kurtosis_partial (parse : String → Option ℝ) (h : History) (hv : h.Valid)
    (ho : h.on Calcs.kurtosis) (hr : h.ResolvedBatches parse)
    (hne : h.values parse ≠ []) (hvar : Spec.variance (h.values parse) ≠ 0) :
    ∃ s, h.run parse = .ok s ∧
      (¬ h.biasOn → s.kurtosis = some (Spec.kurtosis (h.values parse))) ∧
      ((h.values parse).length < 4 → h.biasOn → s.kurtosis = none) ∧
      (4 ≤ (h.values parse).length → h.biasOn →
        s.kurtosis = some (Spec.sampleKurtosis (h.values parse))) := by
  obtain ⟨s, hs, i⟩ := run_inv parse h hv
  obtain ⟨k, hk, hk'⟩ := (i.kurt hr ((i.calcs_on Calcs.kurtosis (by simp)).2 ho)).2 hne
  have hk2 := hk' hvar
  subst hk2
  have hm := i.matchCount
  have hb := i.bias
  generalize h.values parse = xs at *
  refine ⟨s, hs, ?_, ?_, ?_⟩
  · intro hnb
    have hb' : s.biasCorrection = false := by
      rw [← Bool.not_eq_true]; exact fun h' => hnb (hb.1 h')
    simp [State.kurtosis, hk, hb']
  · intro h2 hbo
    have hb' := hb.2 hbo
    simp [State.kurtosis, hb', hm, correctBiasKurtosis, h2]
  · intro h2 hbo
    have hb' := hb.2 hbo
    have hn2 : ¬ xs.length < 4 := by omega
    simp only [State.kurtosis, hk, hm, hb', correctBiasKurtosis, hn2, Bool.not_true,
      Bool.false_eq_true, if_false, Option.bind_some, Spec.sampleKurtosis]
    congr 1
    congr 1
    ring

/-- Kurtosis only depends on the batching through constant data: on an empty history it is NaN. -/
theorem C04_empty (parse : String → Option ℝ) (h : History) (hv : h.Valid)
    (ho : h.on Calcs.kurtosis) (hr : h.ResolvedBatches parse) (h0 : h.values parse = []) :
    ∃ s, h.run parse = .ok s ∧ s.kurtosis = none := by
  obtain ⟨s, hs, i⟩ := run_inv parse h hv
  have hk := (i.kurt hr ((i.calcs_on Calcs.kurtosis (by simp)).2 ho)).1 h0
  refine ⟨s, hs, ?_⟩
  simp [State.kurtosis, hk, correctBiasKurtosis]

/-- One-batch history over constant data. -/
def constOne : History := .update (.new Calcs.all false) ["1", "1"]
/-- The same cells, two batches. -/
def constTwo : History := .update (.update (.new Calcs.all false) ["1"]) ["1"]

theorem run_one (parse) (c : Calcs) (bc : Bool) (b : List String) (hv : c.valid = true)
    (hb : b.filterMap parse ≠ []) :
    (History.update (.new c bc) b).run parse =
      .ok { stepped (State.init c bc) (b.filterMap parse) with
              matchCount := (b.filterMap parse).length
              sampleSize := b.length } := by
  have hb0 : ¬ b.length = 0 := by
    intro h; rw [List.length_eq_zero_iff] at h; subst h; simp at hb
  simp only [History.run, bind, Except.bind, update, if_neg hb0]
  rw [updateHelper_eq (State.init c bc) _ hb hv (by simp [State.init]) (by simp [State.init])]
  simp [pure, Except.pure, stepped, State.init]

/-- **C04 is false for constant data**: the same two cells, all options on, give kurtosis `-3` when
profiled in one batch and `0` when profiled in two. -/
theorem C04_constant_data_fails :
    constOne.cells = constTwo.cells ∧
    (∃ s, constOne.run exParse = .ok s ∧ s.kurtosis = some (-3)) ∧
    (∃ s, constTwo.run exParse = .ok s ∧ s.kurtosis = some 0) := by
  have e1 : ["1"].filterMap exParse = [1] := by simp [exParse]
  have e2 : ["1", "1"].filterMap exParse = [1, 1] := by simp [exParse]
  refine ⟨by simp [constOne, constTwo, History.cells, History.batches], ?_, ?_⟩
  · refine ⟨_, run_one _ _ _ _ rfl (by rw [e2]; simp), ?_⟩
    rw [e2]
    norm_num [State.kurtosis, stepped, State.init, Calcs.all, mergeBiasedKurtosis, biasedKurt,
      seriesMean, zeroTiny, tiny]
  · have r1 := run_one exParse Calcs.all false ["1"] rfl (by rw [e1]; simp)
    rw [e1] at r1
    set s0 : State := { stepped (State.init Calcs.all false) [1] with
              matchCount := [(1:ℝ)].length, sampleSize := ["1"].length } with hs0
    have r2 : constTwo.run exParse = .ok { stepped s0 [1] with matchCount := 2, sampleSize := 2 } := by
      unfold constTwo
      rw [History.run, r1]
      simp only [bind, Except.bind, update, e1]
      rw [if_neg (by simp)]
      rw [updateHelper_eq s0 [1] (by simp) rfl
        (by simp [s0, stepped, State.init, Calcs.all, mergeBiasedVariance])
        (by norm_num [s0, stepped, State.init, Calcs.all, mergeBiasedSkewness, biasedSkew,
              seriesMean, zeroTiny, tiny])]
      rfl
    refine ⟨_, r2, ?_⟩
    norm_num [s0, State.kurtosis, stepped, State.init, Calcs.all, mergeBiasedKurtosis, biasedKurt,
        biasedSkew, mergeBiasedSkewness, mergeBiasedVariance, npVar, State.mean,
        seriesMean, zeroTiny, tiny]

/-! ## C05 -/

/-- **C05** (partial) If no `update` is applied to a profile whose data so far has minimum (maximum)
exactly `0`, the reported minimum (maximum) is that of all the data, and is absent iff there is no
data. Missing: the excluded case, where the code forgets the zero (`C05_zero_min_fails`). -/
theorem C05_min_max_partial (parse : String → Option ℝ) (h : History) (hv : h.Valid) :
    ∃ s, h.run parse = .ok s ∧
      (h.on Calcs.min → h.NoZeroMin parse →
        (h.values parse = [] ∧ s.min = none) ∨
        ∃ m, s.min = some m ∧ Spec.IsMinOf m (h.values parse)) ∧
      (h.on Calcs.max → h.NoZeroMax parse →
        (h.values parse = [] ∧ s.max = none) ∨
        ∃ m, s.max = some m ∧ Spec.IsMaxOf m (h.values parse)) := by
  obtain ⟨s, hs, i⟩ := run_inv parse h hv
  refine ⟨s, hs, fun ho hz => ?_, fun ho hz => ?_⟩
  · have hc := (i.calcs_on Calcs.min (by simp)).2 ho
    cases hm : s.min with
    | none => left; exact ⟨(i.minNone hc).1 hm, rfl⟩
    | some m => right; exact ⟨m, rfl, i.min hz hc m hm⟩
  · have hc := (i.calcs_on Calcs.max (by simp)).2 ho
    cases hm : s.max with
    | none => left; exact ⟨(i.maxNone hc).1 hm, rfl⟩
    | some m => right; exact ⟨m, rfl, i.max hz hc m hm⟩

/-- **C05** (soundness, no hypothesis on the data) A reported minimum or maximum is always one of the
values seen, and something is reported exactly when there is data. -/
theorem C05_min_max_sound (parse : String → Option ℝ) (h : History) (hv : h.Valid) :
    ∃ s, h.run parse = .ok s ∧
      (∀ m, s.min = some m → m ∈ h.values parse) ∧ (∀ m, s.max = some m → m ∈ h.values parse) ∧
      (h.on Calcs.min → (s.min = none ↔ h.values parse = [])) ∧
      (h.on Calcs.max → (s.max = none ↔ h.values parse = [])) := by
  obtain ⟨s, hs, i⟩ := run_inv parse h hv
  exact ⟨s, hs, i.minMem, i.maxMem, fun ho => i.minNone ((i.calcs_on Calcs.min (by simp)).2 ho),
    fun ho => i.maxNone ((i.calcs_on Calcs.max (by simp)).2 ho)⟩

/-- The hypothesis of `C05_min_max_partial` holds for multi-batch data with negative and positive
values, and even with zeros when the running minimum is not zero. -/
example : ∃ h : History, h.Valid ∧ h.on Calcs.min ∧ h.NoZeroMin exParse ∧
    h.values exParse = [-2, 0, 5] := by
  refine ⟨.update (.update (.new Calcs.all true) ["-2", "0"]) ["5"], rfl, rfl, ?_, ?_⟩
  · refine ⟨?_, ?_, trivial⟩
    · intro h0
      have := h0.2 (-2) (by simp [History.values, History.cells, History.batches, exParse])
      linarith
    · intro h0
      simpa [History.values, History.cells, History.batches] using h0.1
  · simp [History.values, History.cells, History.batches, exParse]

/-- **C05 is false in general**: after batches `["0", "1"]` and `["5"]` the reported minimum is `5`,
although `0` was seen. -/
theorem C05_zero_min_fails :
    ∃ s, (History.update (.update (.new Calcs.all true) ["0", "1"]) ["5"]).run exParse = .ok s ∧
      s.min = some 5 ∧
      Spec.IsMinOf 0
        ((History.update (.update (.new Calcs.all true) ["0", "1"]) ["5"]).values exParse) := by
  have e1 : ["0", "1"].filterMap exParse = [0, 1] := by simp [exParse]
  have e2 : ["5"].filterMap exParse = [5] := by simp [exParse]
  obtain ⟨s, hs, i⟩ := run_inv exParse (.update (.new Calcs.all true) ["0", "1"]) rfl
  obtain ⟨s', hs', i'⟩ := i.update ["5"]
  have hs0 : s.min = some 0 := by
    have r1 := run_one exParse Calcs.all true ["0", "1"] rfl (by rw [e1]; simp)
    rw [hs, e1] at r1
    cases r1
    simp [stepped, State.init, Calcs.all, getMin]
  have hvar : s.calcs.variance = true → s.matchCount > 0 → s.biasedVariance.isSome := by
    intro hc h0
    have hxs : (History.update (.new Calcs.all true) ["0", "1"]).values exParse ≠ [] := by
      intro h'; rw [i.matchCount, h'] at h0; simp at h0
    rw [i.variance hc, fv_ne hxs]; rfl
  have hcm : s.calcs.min = true := (i.calcs_on Calcs.min (by simp)).2 rfl
  refine ⟨s', by rw [History.run, hs]; exact hs', ?_, ?_⟩
  · simp only [update, e2] at hs'
    rw [if_neg (by simp), updateHelper_eq s [5] (by simp) i.valid hvar i.skewSome] at hs'
    cases hs'
    simp [stepped, hcm, getMin, hs0]
  · have : (History.update (.update (.new Calcs.all true) ["0", "1"]) ["5"]).values exParse
        = [0, 1, 5] := by simp [History.values, History.cells, History.batches, exParse]
    rw [this]
    refine ⟨by simp, ?_⟩
    intro x hx
    simp at hx
    rcases hx with rfl | rfl | rfl <;> norm_num

/-! ## C06 -/

/-- **C06** Merging two profiles never fails and reports exactly what one profile reports that was
given the concatenated data in a single batch: count, sum, mean, variance, zeros,
negatives always; skewness, kurtosis and minimum/maximum under the hypotheses of C03/C04/C05. -/
theorem C06_merge_is_concat (parse : String → Option ℝ) (h1 h2 : History) (c : Calcs) (bc : Bool)
    (hv1 : h1.Valid) (hv2 : h2.Valid) (hc : c.valid = true)
    (hb : bc = true ↔ (h1.biasOn ∧ h2.biasOn)) :
    ∃ m s, (History.add h1 h2).run parse = .ok m ∧
      (History.update (.new c bc) (h1.cells ++ h2.cells)).run parse = .ok s ∧
      m.sampleSize = s.sampleSize ∧ m.matchCount = s.matchCount ∧
      (c.sum = true → h1.on Calcs.sum → h2.on Calcs.sum → m.sum = s.sum ∧ m.mean = s.mean) ∧
      (c.variance = true → h1.on Calcs.variance → h2.on Calcs.variance →
        m.variance = s.variance ∧ m.stddev = s.stddev) ∧
      (c.skewness = true → h1.on Calcs.skewness → h2.on Calcs.skewness →
        h1.ResolvedBatches parse → h2.ResolvedBatches parse →
        Spec.Resolved ((h1.cells ++ h2.cells).filterMap parse) →
        m.skewness = s.skewness) ∧
      (c.kurtosis = true → h1.on Calcs.kurtosis → h2.on Calcs.kurtosis →
        h1.ResolvedBatches parse → h2.ResolvedBatches parse →
        Spec.Resolved ((h1.cells ++ h2.cells).filterMap parse) →
        Spec.variance ((h1.cells ++ h2.cells).filterMap parse) ≠ 0 →
        m.kurtosis = s.kurtosis) ∧
      (c.numZeros = true → h1.on Calcs.numZeros → h2.on Calcs.numZeros →
        m.numZeros = s.numZeros) ∧
      (c.numNegatives = true → h1.on Calcs.numNegatives → h2.on Calcs.numNegatives →
        m.numNegatives = s.numNegatives) ∧
      (c.min = true → h1.on Calcs.min → h2.on Calcs.min → h1.NoZeroMin parse →
        h2.NoZeroMin parse → m.min = s.min) ∧
      (c.max = true → h1.on Calcs.max → h2.on Calcs.max → h1.NoZeroMax parse →
        h2.NoZeroMax parse → m.max = s.max) := by
  obtain ⟨m, hm, i⟩ := run_inv parse (.add h1 h2) ⟨hv1, hv2⟩
  obtain ⟨s, hs, j⟩ := run_inv parse (.update (.new c bc) (h1.cells ++ h2.cells)) hc
  have hval : (History.add h1 h2).values parse
      = (History.update (.new c bc) (h1.cells ++ h2.cells)).values parse := by
    simp [History.values, History.cells, History.batches]
  have hcells : (History.add h1 h2).cells
      = (History.update (.new c bc) (h1.cells ++ h2.cells)).cells := by
    simp [History.cells, History.batches]
  have hrr : h1.ResolvedBatches parse → h2.ResolvedBatches parse →
      (History.add h1 h2).ResolvedBatches parse := by
    intro hr1 hr2 b hb
    rcases List.mem_append.1 hb with h | h
    · exact hr1 b h
    · exact hr2 b h
  have hrr' : Spec.Resolved ((h1.cells ++ h2.cells).filterMap parse) →
      (History.update (.new c bc) (h1.cells ++ h2.cells)).ResolvedBatches parse := by
    intro hr b hb
    simp [History.batches] at hb
    subst hb; simpa using hr
  have hmc : m.matchCount = s.matchCount := by rw [i.matchCount, j.matchCount, hval]
  have hbias : m.biasCorrection = s.biasCorrection := by
    rw [Bool.eq_iff_iff, i.bias, j.bias]; exact hb.symm
  have on_i : ∀ f ∈ [Calcs.min, Calcs.max, Calcs.sum, Calcs.variance, Calcs.skewness,
    Calcs.kurtosis, Calcs.numZeros, Calcs.numNegatives], h1.on f → h2.on f → f m.calcs = true :=
    fun f hf a b => (i.calcs_on f hf).2 ⟨a, b⟩
  have on_j : ∀ f ∈ [Calcs.min, Calcs.max, Calcs.sum, Calcs.variance, Calcs.skewness,
    Calcs.kurtosis, Calcs.numZeros, Calcs.numNegatives], f c = true → f s.calcs = true :=
    fun f hf a => (j.calcs_on f hf).2 a
  refine ⟨m, s, hm, hs, by rw [i.sampleSize, j.sampleSize, hcells], hmc, ?_, ?_, ?_, ?_, ?_, ?_,
    ?_, ?_⟩
  · intro o o1 o2
    have e : m.sum = s.sum := by
      rw [i.sum (on_i Calcs.sum (by simp) o1 o2), j.sum (on_j Calcs.sum (by simp) o), hval]
    exact ⟨e, by simp [State.mean, e, hmc]⟩
  · intro o o1 o2
    have e : m.biasedVariance = s.biasedVariance := by
      rw [i.variance (on_i Calcs.variance (by simp) o1 o2),
        j.variance (on_j Calcs.variance (by simp) o), hval]
    constructor <;> simp [State.stddev, State.variance, e, hmc, hbias]
  · intro o o1 o2 hr1 hr2 hr
    have e : m.biasedSkewness = s.biasedSkewness := by
      rw [i.skew (hrr hr1 hr2) (on_i Calcs.skewness (by simp) o1 o2),
        j.skew (hrr' hr) (on_j Calcs.skewness (by simp) o), hval]
    simp [State.skewness, e, hmc, hbias]
  · intro o o1 o2 hr1 hr2 hr hvar
    have k1 := i.kurt (hrr hr1 hr2) (on_i Calcs.kurtosis (by simp) o1 o2)
    have k2 := j.kurt (hrr' hr) (on_j Calcs.kurtosis (by simp) o)
    rw [hval] at k1
    have hv' : (History.update (.new c bc) (h1.cells ++ h2.cells)).values parse
        = (h1.cells ++ h2.cells).filterMap parse := by
      simp [History.values, History.cells, History.batches]
    rw [hv'] at k1 k2
    have hne : (h1.cells ++ h2.cells).filterMap parse ≠ [] := by
      intro h'; rw [h'] at hvar; simp [Spec.variance, Spec.moment, Spec.mean] at hvar
    obtain ⟨a, ha, ha'⟩ := k1.2 hne
    obtain ⟨b, hb, hb'⟩ := k2.2 hne
    have e : m.biasedKurtosis = s.biasedKurtosis := by rw [ha, hb, ha' hvar, hb' hvar]
    simp [State.kurtosis, e, hmc, hbias]
  · intro o o1 o2
    rw [i.zeros (on_i Calcs.numZeros (by simp) o1 o2), j.zeros (on_j Calcs.numZeros (by simp) o),
      hval]
  · intro o o1 o2
    rw [i.negs (on_i Calcs.numNegatives (by simp) o1 o2),
      j.negs (on_j Calcs.numNegatives (by simp) o), hval]
  · intro o o1 o2 z1 z2
    have ci := on_i Calcs.min (by simp) o1 o2
    have cj := on_j Calcs.min (by simp) o
    have zj : (History.update (.new c bc) (h1.cells ++ h2.cells)).NoZeroMin parse :=
      ⟨fun h0 => by simpa [History.values, History.cells, History.batches] using h0.1, trivial⟩
    have a := i.minNone ci
    have b := j.minNone cj
    cases hm1 : m.min with
    | none =>
      have := a.1 hm1; rw [hval] at this
      exact (b.2 this).symm
    | some x =>
      cases hs1 : s.min with
      | none => have := b.1 hs1; rw [← hval] at this; rw [a.2 this] at hm1; cases hm1
      | some y =>
        have p := i.min ⟨z1, z2⟩ ci x hm1
        have q := j.min zj cj y hs1
        rw [hval] at p
        congr 1
        exact le_antisymm (p.2 _ q.1) (q.2 _ p.1)
  · intro o o1 o2 z1 z2
    have ci := on_i Calcs.max (by simp) o1 o2
    have cj := on_j Calcs.max (by simp) o
    have zj : (History.update (.new c bc) (h1.cells ++ h2.cells)).NoZeroMax parse :=
      ⟨fun h0 => by simpa [History.values, History.cells, History.batches] using h0.1, trivial⟩
    have a := i.maxNone ci
    have b := j.maxNone cj
    cases hm1 : m.max with
    | none =>
      have := a.1 hm1; rw [hval] at this
      exact (b.2 this).symm
    | some x =>
      cases hs1 : s.max with
      | none => have := b.1 hs1; rw [← hval] at this; rw [a.2 this] at hm1; cases hm1
      | some y =>
        have p := i.max ⟨z1, z2⟩ ci x hm1
        have q := j.max zj cj y hs1
        rw [hval] at p
        congr 1
        exact le_antisymm (q.2 _ p.1) (p.2 _ q.1)

/-! ### Order independence, commutativity, associativity, neutral element -/

/-- **C06** Only the multiset of values matters: two histories whose values are permutations of one
another (any batching, any merging order, any row order) report the same statistics. -/
theorem C06_order_irrelevant (parse : String → Option ℝ) (h1 h2 : History)
    (hv1 : h1.Valid) (hv2 : h2.Valid) (same : h1.cells.Perm h2.cells)
    (hb : h1.biasOn ↔ h2.biasOn) :
    ∃ s1 s2, h1.run parse = .ok s1 ∧ h2.run parse = .ok s2 ∧
      s1.sampleSize = s2.sampleSize ∧ s1.matchCount = s2.matchCount ∧
      (h1.on Calcs.sum → h2.on Calcs.sum → s1.sum = s2.sum ∧ s1.mean = s2.mean) ∧
      (h1.on Calcs.variance → h2.on Calcs.variance →
        s1.variance = s2.variance ∧ s1.stddev = s2.stddev) ∧
      (h1.on Calcs.skewness → h2.on Calcs.skewness → h1.ResolvedBatches parse →
        h2.ResolvedBatches parse → s1.skewness = s2.skewness) ∧
      (h1.on Calcs.kurtosis → h2.on Calcs.kurtosis → h1.ResolvedBatches parse →
        h2.ResolvedBatches parse → Spec.variance (h1.values parse) ≠ 0 →
        s1.kurtosis = s2.kurtosis) ∧
      (h1.on Calcs.numZeros → h2.on Calcs.numZeros → s1.numZeros = s2.numZeros) ∧
      (h1.on Calcs.numNegatives → h2.on Calcs.numNegatives → s1.numNegatives = s2.numNegatives) ∧
      (h1.on Calcs.min → h2.on Calcs.min → h1.NoZeroMin parse → h2.NoZeroMin parse →
        s1.min = s2.min) ∧
      (h1.on Calcs.max → h2.on Calcs.max → h1.NoZeroMax parse → h2.NoZeroMax parse →
        s1.max = s2.max) := by
  obtain ⟨m, hm, i⟩ := run_inv parse h1 hv1
  obtain ⟨s, hs, j⟩ := run_inv parse h2 hv2
  have hp : (h1.values parse).Perm (h2.values parse) := same.filterMap parse
  have hlen := hp.length_eq
  have hmean := Moments.mean_perm hp
  have hvar := Moments.variance_perm hp
  have hmc : m.matchCount = s.matchCount := by rw [i.matchCount, j.matchCount, hlen]
  have hbias : m.biasCorrection = s.biasCorrection := by
    rw [Bool.eq_iff_iff, i.bias, j.bias]; exact hb
  have hnil : h1.values parse = [] ↔ h2.values parse = [] := by
    rw [← List.length_eq_zero_iff, hlen, List.length_eq_zero_iff]
  have on_i : ∀ f ∈ [Calcs.min, Calcs.max, Calcs.sum, Calcs.variance, Calcs.skewness,
    Calcs.kurtosis, Calcs.numZeros, Calcs.numNegatives], h1.on f → f m.calcs = true :=
    fun f hf a => (i.calcs_on f hf).2 a
  have on_j : ∀ f ∈ [Calcs.min, Calcs.max, Calcs.sum, Calcs.variance, Calcs.skewness,
    Calcs.kurtosis, Calcs.numZeros, Calcs.numNegatives], h2.on f → f s.calcs = true :=
    fun f hf a => (j.calcs_on f hf).2 a
  refine ⟨m, s, hm, hs, by rw [i.sampleSize, j.sampleSize, same.length_eq], hmc, ?_, ?_, ?_, ?_,
    ?_, ?_, ?_, ?_⟩
  · intro o1 o2
    have e : m.sum = s.sum := by
      rw [i.sum (on_i Calcs.sum (by simp) o1), j.sum (on_j Calcs.sum (by simp) o2), hp.sum_eq]
    exact ⟨e, by simp [State.mean, e, hmc]⟩
  · intro o1 o2
    have e : m.biasedVariance = s.biasedVariance := by
      rw [i.variance (on_i Calcs.variance (by simp) o1),
        j.variance (on_j Calcs.variance (by simp) o2)]
      simp [fv, hnil, hvar]
    constructor <;> simp [State.stddev, State.variance, e, hmc, hbias]
  · intro o1 o2 hr1 hr2
    have e : m.biasedSkewness = s.biasedSkewness := by
      rw [i.skew hr1 (on_i Calcs.skewness (by simp) o1),
        j.skew hr2 (on_j Calcs.skewness (by simp) o2)]
      simp [fs, hnil, Moments.skewness_perm hp]
    simp [State.skewness, e, hmc, hbias]
  · intro o1 o2 hr1 hr2 hv
    have hne : h1.values parse ≠ [] := by
      intro h'; rw [h'] at hv; simp [Spec.variance, Spec.moment, Spec.mean] at hv
    obtain ⟨a, ha, ha'⟩ := (i.kurt hr1 (on_i Calcs.kurtosis (by simp) o1)).2 hne
    obtain ⟨b, hb, hb'⟩ := (j.kurt hr2 (on_j Calcs.kurtosis (by simp) o2)).2 (fun h => hne (hnil.2 h))
    have e : m.biasedKurtosis = s.biasedKurtosis := by
      rw [ha, hb, ha' hv, hb' (hvar ▸ hv), Moments.kurtosis_perm hp]
    simp [State.kurtosis, e, hmc, hbias]
  · intro o1 o2
    rw [i.zeros (on_i Calcs.numZeros (by simp) o1), j.zeros (on_j Calcs.numZeros (by simp) o2),
      hp.count_eq]
  · intro o1 o2
    rw [i.negs (on_i Calcs.numNegatives (by simp) o1),
      j.negs (on_j Calcs.numNegatives (by simp) o2), (hp.filter _).length_eq]
  · intro o1 o2 z1 z2
    have ci := on_i Calcs.min (by simp) o1
    have cj := on_j Calcs.min (by simp) o2
    have a := i.minNone ci
    have b := j.minNone cj
    cases hm1 : m.min with
    | none => exact (b.2 (hnil.1 (a.1 hm1))).symm
    | some x =>
      cases hs1 : s.min with
      | none => rw [a.2 (hnil.2 (b.1 hs1))] at hm1; cases hm1
      | some y =>
        have p := i.min z1 ci x hm1
        have q := j.min z2 cj y hs1
        congr 1
        exact le_antisymm (p.2 _ (hp.mem_iff.2 q.1)) (q.2 _ (hp.mem_iff.1 p.1))
  · intro o1 o2 z1 z2
    have ci := on_i Calcs.max (by simp) o1
    have cj := on_j Calcs.max (by simp) o2
    have a := i.maxNone ci
    have b := j.maxNone cj
    cases hm1 : m.max with
    | none => exact (b.2 (hnil.1 (a.1 hm1))).symm
    | some x =>
      cases hs1 : s.max with
      | none => rw [a.2 (hnil.2 (b.1 hs1))] at hm1; cases hm1
      | some y =>
        have p := i.max z1 ci x hm1
        have q := j.max z2 cj y hs1
        congr 1
        exact le_antisymm (q.2 _ (hp.mem_iff.1 p.1)) (p.2 _ (hp.mem_iff.2 q.1))

/-- `C06_order_irrelevant` covers commutativity, associativity, the neutral element and row order:
the cells on both sides are permutations of each other. -/
theorem C06_merge_laws (h1 h2 h3 : History) (c : Calcs) (b : Bool) :
    (History.add h1 h2).cells.Perm (History.add h2 h1).cells ∧
    (History.add (.add h1 h2) h3).cells.Perm (History.add h1 (.add h2 h3)).cells ∧
    (History.add h1 (.new c b)).cells.Perm h1.cells ∧
    (History.add (.new c b) h1).cells.Perm h1.cells := by
  refine ⟨?_, ?_, ?_, ?_⟩
  · simpa [History.cells, History.batches] using List.perm_append_comm
  · simp [History.cells, History.batches]
  · simp [History.cells, History.batches]
  · simp [History.cells, History.batches]

/-- The `Resolved` hypothesis is needed in C03: for the single batch `0, 0, 1e-8` the code reports
skewness `0`, while the true skewness is not `0`. -/
theorem C03_unresolved_fails :
    ∃ (parse : String → Option ℝ) (h : History) (s : State), h.Valid ∧ h.on Calcs.skewness ∧
      h.run parse = .ok s ∧ ¬ h.biasOn ∧ s.skewness = some 0 ∧
      Spec.skewness (h.values parse) ≠ 0 := by
  have e : ["a", "a", "b"].filterMap (fun s => if s = "b" then some ((1:ℝ) / 10 ^ 8) else some 0)
      = [0, 0, 1 / 10 ^ 8] := by simp
  refine ⟨fun s => if s = "b" then some (1 / 10 ^ 8) else some 0,
    .update (.new Calcs.all false) ["a", "a", "b"], _, rfl, rfl,
    run_one _ _ _ _ rfl (by simp), by simp [History.biasOn], ?_, ?_⟩
  · rw [e]
    norm_num [State.skewness, stepped, State.init, Calcs.all, mergeBiasedSkewness, biasedSkew,
      seriesMean, zeroTiny, tiny, abs_of_pos]
  · have hv : (History.update (.new Calcs.all false) ["a", "a", "b"]).values
        (fun s => if s = "b" then some ((1:ℝ) / 10 ^ 8) else some 0) = [0, 0, 1 / 10 ^ 8] := by
      simp [History.values, History.cells, History.batches]
    rw [hv]
    have hvar : Spec.variance [0, 0, 1 / 10 ^ 8] ≠ 0 := by
      simp [Spec.variance, Spec.moment, Spec.mean]; norm_num
    have hpos : 0 < Spec.variance [0, 0, 1 / 10 ^ 8] := by
      simp [Spec.variance, Spec.moment, Spec.mean]; norm_num
    have h3 : Spec.moment 3 [0, 0, 1 / 10 ^ 8] ≠ 0 := by
      simp [Spec.moment, Spec.mean]; norm_num
    unfold Spec.skewness
    rw [if_neg hvar]
    have : Spec.stddev [0, 0, 1 / 10 ^ 8] ≠ 0 := (Real.sqrt_pos.2 hpos).ne'
    exact div_ne_zero h3 (pow_ne_zero _ this)

end Verif.Numeric
