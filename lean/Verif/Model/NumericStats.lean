import Mathlib.Analysis.Real.Sqrt
import Mathlib.Analysis.SpecialFunctions.Pow.Real
import Verif.Model.Basic

/-!
# Numeric column statistics

Models `dataprofiler/profilers/numerical_column_stats.py` (`NumericStatsMixin`) without the
histogram part (see `Verif.Model.Histogram`), together with the parts of
`int_column_profile.py`, `float_column_profile.py`, `text_column_profile.py` and
`base_column_profilers.py` that drive it.

Simplifications
* floats are exact reals; data values are finite (the `isinf`/`isnan` guards on data never fire);
* NaN as the *value of a statistic* is kept: `Flt = Option ℝ` with `none` = NaN;
* a string is turned into a number by an arbitrary parser `parse` (`float(x)`, `int(x)`, `len(x)`).
-/

namespace Verif.Numeric

open Verif

/-- A Python/numpy float that may be NaN (`none`). -/
abbrev Flt := Option ℝ

/-- Which entries are present in `NumericStatsMixin.__calculations`
(numerical_column_stats.py:118-131; the `histogram_and_quantiles` entry is modelled separately). -/
structure Calcs where
  min : Bool
  max : Bool
  sum : Bool
  variance : Bool
  skewness : Bool
  kurtosis : Bool
  numZeros : Bool
  numNegatives : Bool
  deriving DecidableEq, Repr

/-- All calculations on: the state of a profile built without options
(numerical_column_stats.py:118-128). -/
def Calcs.all : Calcs := ⟨true, true, true, true, true, true, true, true⟩

/-- The dependency check of `NumericalOptions._validate_helper`, statistic part
(profiler_options.py:524-547). -/
def Calcs.valid (c : Calcs) : Bool :=
  let sumDisabled := !c.sum
  let varDisabled := !c.variance
  let skewDisabled := !c.skewness
  let kurtDisabled := !c.kurtosis
  !(sumDisabled && !varDisabled)
    && !((sumDisabled || varDisabled) && !skewDisabled)
    && !((sumDisabled || varDisabled || skewDisabled) && !kurtDisabled)

/-- `_merge_calculations` on the default (full) dictionary of a fresh merged profile
(base_column_profilers.py:125-148, called at numerical_column_stats.py:278-282):
an entry survives iff it is in both operands. -/
def Calcs.merge (c1 c2 : Calcs) : Calcs where
  min := c1.min && c2.min
  max := c1.max && c2.max
  sum := c1.sum && c2.sum
  variance := c1.variance && c2.variance
  skewness := c1.skewness && c2.skewness
  kurtosis := c1.kurtosis && c2.kurtosis
  numZeros := c1.numZeros && c2.numZeros
  numNegatives := c1.numNegatives && c2.numNegatives

/-- The fields of a numeric column profile used by the statistics
(numerical_column_stats.py:57-83, base_column_profilers.py:39-44, 311). -/
structure State where
  calcs : Calcs
  biasCorrection : Bool
  sampleSize : ℕ
  matchCount : ℕ
  min : Option ℝ
  max : Option ℝ
  sum : ℝ
  biasedVariance : Flt
  biasedSkewness : Flt
  biasedKurtosis : Flt
  numZeros : ℕ
  numNegatives : ℕ

/-- A fresh profile (`__init__`, numerical_column_stats.py:57-131). -/
noncomputable def State.init (calcs : Calcs) (biasCorrection : Bool) : State where
  calcs := calcs
  biasCorrection := biasCorrection
  sampleSize := 0
  matchCount := 0
  min := none
  max := none
  sum := 0
  biasedVariance := none
  biasedSkewness := none
  biasedKurtosis := none
  numZeros := 0
  numNegatives := 0

/-- `mean` property (numerical_column_stats.py:539-543). -/
noncomputable def State.mean (s : State) : ℝ :=
  if s.matchCount = 0 then 0 else s.sum / s.matchCount

/-- `_merge_biased_variance` (numerical_column_stats.py:843-880). -/
noncomputable def mergeBiasedVariance (n1 : ℕ) (var1 : Flt) (mean1 : ℝ)
    (n2 : ℕ) (var2 : Flt) (mean2 : ℝ) : Flt :=
  if n1 < 1 then var2
  else if n2 < 1 then var1
  else match var1, var2 with
    | some v1, some v2 =>
      let currCount : ℝ := n1
      let delta := mean2 - mean1
      let mCurr := v1 * currCount
      let mBatch := v2 * n2
      let M2 := mCurr + mBatch + delta ^ 2 * currCount * n2 / (currCount + n2)
      some (M2 / (currCount + n2))
    | _, _ => none

/-- `_correct_bias_variance` (numerical_column_stats.py:883-896). A NaN variance stays NaN. -/
noncomputable def correctBiasVariance (n : ℕ) (var : Flt) : Flt :=
  if n < 2 then none else var.map fun v => (n : ℝ) / ((n : ℝ) - 1) * v

/-- `_merge_biased_skewness` (numerical_column_stats.py:899-953).
NaN variances propagate (`do` in the `Option` monad). -/
noncomputable def mergeBiasedSkewness (n1 : ℕ) (skew1 var1 : Flt) (mean1 : ℝ)
    (n2 : ℕ) (skew2 var2 : Flt) (mean2 : ℝ) : Flt :=
  if n1 < 1 then skew2
  else if n2 < 1 then skew1
  else do
    let g1 ← skew1
    let g2 ← skew2
    let v1 ← var1
    let v2 ← var2
    let delta := mean2 - mean1
    let N : ℝ := n1 + n2
    let M2_1 := n1 * v1
    let M2_2 := n2 * v2
    let M2 := M2_1 + M2_2 + delta ^ 2 * n1 * n2 / N
    if M2 = 0 then some 0
    else
      let M3_1 := g1 * Real.sqrt (M2_1 ^ 3) / Real.sqrt n1
      let M3_2 := g2 * Real.sqrt (M2_2 ^ 3) / Real.sqrt n2
      let firstTerm := M3_1 + M3_2
      let secondTerm := delta ^ 3 * n1 * n2 * ((n1 : ℝ) - n2) / N ^ 2
      let thirdTerm := 3 * delta * (n1 * M2_2 - n2 * M2_1) / N
      let M3 := firstTerm + secondTerm + thirdTerm
      some (Real.sqrt N * M3 / Real.sqrt (M2 ^ 3))

/-- `_correct_bias_skewness` (numerical_column_stats.py:956-981). -/
noncomputable def correctBiasSkewness (n : ℕ) (skew : Flt) : Flt :=
  skew.bind fun g =>
    if n < 3 then none
    else some (Real.sqrt ((n : ℝ) * ((n : ℝ) - 1)) * g / ((n : ℝ) - 2))

/-- `_merge_biased_kurtosis` (numerical_column_stats.py:984-1052). -/
noncomputable def mergeBiasedKurtosis (n1 : ℕ) (kurt1 skew1 var1 : Flt) (mean1 : ℝ)
    (n2 : ℕ) (kurt2 skew2 var2 : Flt) (mean2 : ℝ) : Flt :=
  if n1 < 1 then kurt2
  else if n2 < 1 then kurt1
  else do
    let k1 ← kurt1
    let k2 ← kurt2
    let v1 ← var1
    let v2 ← var2
    let delta := mean2 - mean1
    let N : ℝ := n1 + n2
    let M2_1 := n1 * v1
    let M2_2 := n2 * v2
    let M2 := M2_1 + M2_2 + delta ^ 2 * n1 * n2 / N
    if M2 = 0 then some 0
    else
      let g1 ← skew1
      let g2 ← skew2
      let M3_1 := g1 * Real.sqrt (M2_1 ^ 3) / Real.sqrt n1
      let M3_2 := g2 * Real.sqrt (M2_2 ^ 3) / Real.sqrt n2
      let M4_1 := (k1 + 3) * M2_1 ^ 2 / n1
      let M4_2 := (k2 + 3) * M2_2 ^ 2 / n2
      let firstTerm := M4_1 + M4_2
      let secondTerm :=
        delta ^ 4 * (n1 * n2 * ((n1 : ℝ) ^ 2 - n1 * n2 + (n2 : ℝ) ^ 2)) / N ^ 3
      let thirdTerm := 6 * delta ^ 2 * ((n1 : ℝ) ^ 2 * M2_2 + (n2 : ℝ) ^ 2 * M2_1) / N ^ 2
      let fourthTerm := 4 * delta * (n1 * M3_2 - n2 * M3_1) / N
      let M4 := firstTerm + secondTerm + thirdTerm + fourthTerm
      some (N * M4 / M2 ^ 2 - 3)

/-- `_correct_bias_kurtosis` (numerical_column_stats.py:1055-1080). -/
noncomputable def correctBiasKurtosis (n : ℕ) (kurt : Flt) : Flt :=
  kurt.bind fun g =>
    if n < 4 then none
    else some (((n : ℝ) - 1) / (((n : ℝ) - 2) * ((n : ℝ) - 3))
      * (((n : ℝ) + 1) * (g + 3) - 3 * ((n : ℝ) - 1)))

/-- The constant `1e-14` of `biased_skew` / `biased_kurt` (profiler_utils.py:350-351, 388-389). -/
noncomputable def tiny : ℝ := 1 / 10 ^ 14

/-- `sum(df_series) / n` (profiler_utils.py:338, 376). -/
noncomputable def seriesMean (xs : List ℝ) : ℝ := xs.sum / xs.length

/-- `np.var` (numpy documentation: mean of squared deviations), used at
numerical_column_stats.py:1824. -/
noncomputable def npVar (xs : List ℝ) : ℝ :=
  (xs.map fun x => (x - seriesMean xs) ^ 2).sum / xs.length

/-- `M = 0 if np.abs(M) < 1e-14 else M` (profiler_utils.py:350-351, 388-389). -/
noncomputable def zeroTiny (M : ℝ) : ℝ := if |M| < tiny then 0 else M

/-- `biased_skew` (profiler_utils.py:323-358). -/
noncomputable def biasedSkew (xs : List ℝ) : Flt :=
  let n := xs.length
  if n < 1 then none
  else
    let mean := seriesMean xs
    let diffs := xs.map fun x => x - mean
    let squaredDiffs := diffs.map fun d => d ^ 2
    let cubedDiffs := diffs.map fun d => d ^ 2 * d
    let M2 := zeroTiny squaredDiffs.sum
    let M3 := zeroTiny cubedDiffs.sum
    if M2 = 0 then some 0
    else some (Real.sqrt n * M3 / M2 ^ (1.5 : ℝ))

/-- `biased_kurt` (profiler_utils.py:361-396). -/
noncomputable def biasedKurt (xs : List ℝ) : Flt :=
  let n := xs.length
  if n < 1 then none
  else
    let mean := seriesMean xs
    let diffs := xs.map fun x => x - mean
    let squaredDiffs := diffs.map fun d => d ^ 2
    let fourthDiffs := squaredDiffs.map fun q => q * q
    let M2 := zeroTiny squaredDiffs.sum
    let M4 := zeroTiny fourthDiffs.sum
    if M2 = 0 then some (-3)
    else some (n * M4 / M2 ^ 2 - 3)

/-- `subset_properties`: the statistics of the current batch that later calculations read
(numerical_column_stats.py:1753; keys that were never written are `none`). -/
structure Subset where
  matchCount : ℕ
  sum : Option ℝ := none
  biasedVariance : Option Flt := none
  mean : Option ℝ := none
  biasedSkewness : Option Flt := none

/-- `prev_dependent_properties` (numerical_column_stats.py:1747-1752). -/
structure Prev where
  mean : ℝ
  biasedVariance : Flt
  biasedSkewness : Flt
  biasedKurtosis : Flt

/-- `subset_properties[key]`: a missing key raises `KeyError`. -/
def lookup {α : Type} (o : Option α) : Except Err α :=
  match o with
  | some a => .ok a
  | none => .error .keyError

/-- `_get_min` (numerical_column_stats.py:1766-1774). `not self.min` is Python truthiness:
true for `None` **and for 0**. The batch is non-empty (1744-1745), so `df_series.min()` exists. -/
noncomputable def getMin (s : State) (xs : List ℝ) : State :=
  match xs.min? with
  | none => s
  | some minValue =>
    match s.min with
    | none => { s with min := some minValue }
    | some m =>
      if m = 0 then { s with min := some minValue }
      else { s with min := some (Min.min m minValue) }

/-- `_get_max` (numerical_column_stats.py:1777-1785), same truthiness test. -/
noncomputable def getMax (s : State) (xs : List ℝ) : State :=
  match xs.max? with
  | none => s
  | some maxValue =>
    match s.max with
    | none => { s with max := some maxValue }
    | some m =>
      if m = 0 then { s with max := some maxValue }
      else { s with max := some (Max.max m maxValue) }

/-- `_get_sum` (numerical_column_stats.py:1788-1807), finite data. -/
noncomputable def getSum (s : State) (sub : Subset) (xs : List ℝ) : State × Subset :=
  let sumValue := xs.sum
  ({ s with sum := s.sum + sumValue }, { sub with sum := some sumValue })

/-- `_get_variance` (numerical_column_stats.py:1810-1837). -/
noncomputable def getVariance (s : State) (prv : Prev) (sub : Subset) (xs : List ℝ) :
    Except Err (State × Subset) :=
  if s.biasedVariance.isNone && decide (s.matchCount > 0) then .ok (s, sub)
  else do
    let batchVar : Flt := some (npVar xs)
    let sumValue ← lookup sub.sum
    let batchCount := sub.matchCount
    let batchMean : ℝ := if batchCount = 0 then 0 else sumValue / batchCount
    let sub' := { sub with biasedVariance := some batchVar, mean := some batchMean }
    let merged := mergeBiasedVariance s.matchCount s.biasedVariance prv.mean
      batchCount batchVar batchMean
    pure ({ s with biasedVariance := merged }, sub')

/-- `_get_skewness` (numerical_column_stats.py:1840-1881). -/
noncomputable def getSkewness (s : State) (prv : Prev) (sub : Subset) (xs : List ℝ) :
    Except Err (State × Subset) :=
  if s.biasedSkewness.isNone && decide (s.matchCount > 0) then .ok (s, sub)
  else do
    let batchSkew := biasedSkew xs
    let batchCount := sub.matchCount
    let batchVar ← lookup sub.biasedVariance
    let batchMean ← lookup sub.mean
    let merged := mergeBiasedSkewness s.matchCount s.biasedSkewness prv.biasedVariance prv.mean
      batchCount batchSkew batchVar batchMean
    pure ({ s with biasedSkewness := merged }, { sub with biasedSkewness := some batchSkew })

/-- `_get_kurtosis` (numerical_column_stats.py:1884-1928). -/
noncomputable def getKurtosis (s : State) (prv : Prev) (sub : Subset) (xs : List ℝ) :
    Except Err (State × Subset) :=
  if s.biasedKurtosis.isNone && decide (s.matchCount > 0) then .ok (s, sub)
  else do
    let batchKurt := biasedKurt xs
    let batchCount := sub.matchCount
    let batchVar ← lookup sub.biasedVariance
    let batchSkew ← lookup sub.biasedSkewness
    let batchMean ← lookup sub.mean
    let merged := mergeBiasedKurtosis s.matchCount s.biasedKurtosis prv.biasedSkewness
      prv.biasedVariance prv.mean batchCount batchKurt batchSkew batchVar batchMean
    pure ({ s with biasedKurtosis := merged }, sub)

/-- `_get_num_zeros` (numerical_column_stats.py:1949-1968). -/
noncomputable def getNumZeros (s : State) (xs : List ℝ) : State :=
  { s with numZeros := s.numZeros + xs.countP (fun x => decide (x = 0)) }

/-- `_get_num_negatives` (numerical_column_stats.py:1971-1990). -/
noncomputable def getNumNegatives (s : State) (xs : List ℝ) : State :=
  { s with numNegatives := s.numNegatives + xs.countP (fun x => decide (x < 0)) }

/-- `NumericStatsMixin._update_helper` (numerical_column_stats.py:1734-1763), running the enabled
calculations in dictionary order (118-128, `_perform_property_calcs` base_column_profilers.py:119-122).
`batchCount` is `profile["match_count"]`. `_batch_history` is not modelled. -/
noncomputable def updateHelper (s : State) (xs : List ℝ) (batchCount : ℕ) : Except Err State :=
  if xs.isEmpty then .ok s
  else do
    let prv : Prev := ⟨s.mean, s.biasedVariance, s.biasedSkewness, s.biasedKurtosis⟩
    let sub : Subset := { matchCount := batchCount }
    let s := if s.calcs.min then getMin s xs else s
    let s := if s.calcs.max then getMax s xs else s
    let (s, sub) := if s.calcs.sum then getSum s sub xs else (s, sub)
    let (s, sub) ← if s.calcs.variance then getVariance s prv sub xs else pure (s, sub)
    let (s, sub) ← if s.calcs.skewness then getSkewness s prv sub xs else pure (s, sub)
    let (s, _sub) ← if s.calcs.kurtosis then getKurtosis s prv sub xs else pure (s, sub)
    let s := if s.calcs.numZeros then getNumZeros s xs else s
    let s := if s.calcs.numNegatives then getNumNegatives s xs else s
    pure s

/-- `IntColumn.update` / `FloatColumn.update` (int_column_profile.py:137-179,
float_column_profile.py:397-462; `TextColumn.update` text_column_profile.py:156-198 with
`parse = len`): keep the values that parse, run the statistics, then
`_update_column_base_properties` (base_column_profilers.py:197-206, 314-323). -/
noncomputable def update (parse : String → Option ℝ) (s : State) (series : List String) :
    Except Err State :=
  if series.length = 0 then .ok s
  else do
    let xs := series.filterMap parse
    let s ← updateHelper s xs xs.length
    pure { s with matchCount := s.matchCount + xs.length
                  sampleSize := s.sampleSize + series.length }

/-- `min`/`max` part of `_add_helper` (numerical_column_stats.py:300-305, 307-312). -/
def mergeOpt (f : ℝ → ℝ → ℝ) (a b : Option ℝ) : Option ℝ :=
  match a, b with
  | some x, some y => some (f x y)
  | a, none => a
  | none, b => b

/-- `IntColumn.__add__` / `FloatColumn.__add__` / `TextColumn.__add__` restricted to the numeric
statistics: `NumericStatsMixin._add_helper` (numerical_column_stats.py:266-343) on a fresh profile
and `BaseColumnPrimitiveTypeProfiler._add_helper` (base_column_profilers.py:150-178, 325-339).
Name mismatches are modelled in `Verif.Model.Table`; column profiles made by the compilers have no index, so the check
of the indexes (161-170) passes. -/
noncomputable def add (a b : State) : State :=
  let calcs := Calcs.all.merge (a.calcs.merge b.calcs)
  { calcs := calcs
    biasCorrection := a.biasCorrection && b.biasCorrection
    sampleSize := a.sampleSize + b.sampleSize
    matchCount := a.matchCount + b.matchCount
    biasedVariance := if calcs.variance then
        mergeBiasedVariance a.matchCount a.biasedVariance a.mean
          b.matchCount b.biasedVariance b.mean
      else none
    min := if calcs.min then mergeOpt Min.min a.min b.min else none
    max := if calcs.max then mergeOpt Max.max a.max b.max else none
    sum := if calcs.sum then a.sum + b.sum else 0
    biasedSkewness := if calcs.skewness then
        mergeBiasedSkewness a.matchCount a.biasedSkewness a.biasedVariance a.mean
          b.matchCount b.biasedSkewness b.biasedVariance b.mean
      else none
    biasedKurtosis := if calcs.kurtosis then
        mergeBiasedKurtosis a.matchCount a.biasedKurtosis a.biasedSkewness a.biasedVariance a.mean
          b.matchCount b.biasedKurtosis b.biasedSkewness b.biasedVariance b.mean
      else none
    numZeros := if calcs.numZeros then a.numZeros + b.numZeros else 0
    numNegatives := if calcs.numNegatives then a.numNegatives + b.numNegatives else 0 }

/-- `variance` property (numerical_column_stats.py:570-576). -/
noncomputable def State.variance (s : State) : Flt :=
  if !s.biasCorrection then s.biasedVariance
  else correctBiasVariance s.matchCount s.biasedVariance

/-- `skewness` property (numerical_column_stats.py:586-592). -/
noncomputable def State.skewness (s : State) : Flt :=
  if !s.biasCorrection then s.biasedSkewness
  else correctBiasSkewness s.matchCount s.biasedSkewness

/-- `kurtosis` property (numerical_column_stats.py:595-601). -/
noncomputable def State.kurtosis (s : State) : Flt :=
  if !s.biasCorrection then s.biasedKurtosis
  else correctBiasKurtosis s.matchCount s.biasedKurtosis

/-- `stddev` property (numerical_column_stats.py:579-583). -/
noncomputable def State.stddev (s : State) : Flt :=
  if s.matchCount = 0 then none else s.variance.map Real.sqrt

/-- `data_type_ratio` of int/float columns (int_column_profile.py:104-113). -/
noncomputable def State.dataTypeRatio (s : State) : Option ℝ :=
  if s.sampleSize = 0 then none else some (s.matchCount / s.sampleSize)

/-- Everything a user can do to obtain a column profile: create it, update it, merge two. -/
inductive History where
  | new (calcs : Calcs) (biasCorrection : Bool)
  | update (h : History) (series : List String)
  | add (h1 h2 : History)

/-- Run a history. -/
noncomputable def History.run (parse : String → Option ℝ) : History → Except Err State
  | .new c b => .ok (State.init c b)
  | .update h series => do let s ← h.run parse; Numeric.update parse s series
  | .add h1 h2 => do
    let s1 ← h1.run parse
    let s2 ← h2.run parse
    pure (Numeric.add s1 s2)

end Verif.Numeric
