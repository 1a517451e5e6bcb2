import Verif.Lemmas.Moments

/-! Step lemmas for the numeric statistics model. -/

namespace Verif.Numeric

open Verif Verif.Moments

@[simp] theorem getMin_calcs (s xs) : (getMin s xs).calcs = s.calcs := by
  unfold getMin; split <;> (try split) <;> (try split) <;> rfl
@[simp] theorem getMax_calcs (s xs) : (getMax s xs).calcs = s.calcs := by
  unfold getMax; split <;> (try split) <;> (try split) <;> rfl

/-- `getMin` only touches `min`. -/
theorem getMin_eq (s xs) : getMin s xs = { s with min := (getMin s xs).min } := by
  unfold getMin; split <;> (try split) <;> (try split) <;> rfl
theorem getMax_eq (s xs) : getMax s xs = { s with max := (getMax s xs).max } := by
  unfold getMax; split <;> (try split) <;> (try split) <;> rfl
theorem getMax_max (s : State) (m xs) :
    (getMax { s with min := m } xs).max = (getMax s xs).max := by
  unfold getMax; split
  · rfl
  · dsimp only; split
    · rfl
    · split <;> rfl

/-- Result of one non-empty batch, field by field. -/
noncomputable def stepped (s : State) (xs : List ℝ) : State :=
  let n := xs.length
  let c := s.calcs
  let mu := xs.sum / (n : ℝ)
  { s with
    min := if c.min then (getMin s xs).min else s.min
    max := if c.max then (getMax s xs).max else s.max
    sum := if c.sum then s.sum + xs.sum else s.sum
    biasedVariance := if c.variance then
        mergeBiasedVariance s.matchCount s.biasedVariance s.mean n (some (npVar xs)) mu
      else s.biasedVariance
    biasedSkewness := if c.skewness then
        (if s.biasedSkewness.isNone && decide (s.matchCount > 0) then s.biasedSkewness
         else mergeBiasedSkewness s.matchCount s.biasedSkewness s.biasedVariance s.mean
          n (biasedSkew xs) (some (npVar xs)) mu)
      else s.biasedSkewness
    biasedKurtosis := if c.kurtosis then
        (if s.biasedKurtosis.isNone && decide (s.matchCount > 0) then s.biasedKurtosis
         else mergeBiasedKurtosis s.matchCount s.biasedKurtosis s.biasedSkewness s.biasedVariance
          s.mean n (biasedKurt xs) (biasedSkew xs) (some (npVar xs)) mu)
      else s.biasedKurtosis
    numZeros := if c.numZeros then s.numZeros + xs.countP (fun x => decide (x = 0))
      else s.numZeros
    numNegatives := if c.numNegatives then s.numNegatives + xs.countP (fun x => decide (x < 0))
      else s.numNegatives }

theorem updateHelper_eq (s : State) (xs : List ℝ) (hne : xs ≠ []) (hv : s.calcs.valid = true)
    (hvar : s.calcs.variance = true → s.matchCount > 0 → s.biasedVariance.isSome)
    (hskew : s.calcs.skewness = true → s.matchCount > 0 → s.biasedSkewness.isSome) :
    updateHelper s xs xs.length = .ok (stepped s xs) := by
  have hne' : xs.isEmpty = false := by cases xs <;> simp_all
  have hlen : xs.length ≠ 0 := by cases xs <;> simp_all
  have hn : s.calcs.variance = true →
      (s.biasedVariance.isNone && decide (s.matchCount > 0)) = false := by
    intro hc
    by_cases h : s.matchCount > 0
    · have := hvar hc h
      cases hb : s.biasedVariance <;> simp_all
    · simp [h]
  have hn' : s.calcs.skewness = true →
      (s.biasedSkewness.isNone && decide (s.matchCount > 0)) = false := by
    intro hc
    by_cases h : s.matchCount > 0
    · have := hskew hc h
      cases hb : s.biasedSkewness <;> simp_all
    · simp [h]
  clear hvar hskew
  unfold updateHelper
  rw [hne']
  obtain ⟨⟨cmin, cmax, csum, cvar, cskew, ckurt, cz, cn⟩, bc, ss, mc, mn, mx, sm, bv, bs, bk, nz, nn⟩ := s
  -- run min and max symbolically
  have h1 : (if cmin = true then
        getMin ⟨⟨cmin, cmax, csum, cvar, cskew, ckurt, cz, cn⟩, bc, ss, mc, mn, mx, sm, bv, bs, bk, nz, nn⟩ xs
      else ⟨⟨cmin, cmax, csum, cvar, cskew, ckurt, cz, cn⟩, bc, ss, mc, mn, mx, sm, bv, bs, bk, nz, nn⟩)
      = ⟨⟨cmin, cmax, csum, cvar, cskew, ckurt, cz, cn⟩, bc, ss, mc,
          if cmin = true then (getMin ⟨⟨cmin, cmax, csum, cvar, cskew, ckurt, cz, cn⟩, bc, ss, mc, mn, mx, sm, bv, bs, bk, nz, nn⟩ xs).min else mn,
          mx, sm, bv, bs, bk, nz, nn⟩ := by
    cases cmin
    · rfl
    · exact getMin_eq _ _
  have h2 : ∀ mn', (if cmax = true then
        getMax ⟨⟨cmin, cmax, csum, cvar, cskew, ckurt, cz, cn⟩, bc, ss, mc, mn', mx, sm, bv, bs, bk, nz, nn⟩ xs
      else ⟨⟨cmin, cmax, csum, cvar, cskew, ckurt, cz, cn⟩, bc, ss, mc, mn', mx, sm, bv, bs, bk, nz, nn⟩)
      = ⟨⟨cmin, cmax, csum, cvar, cskew, ckurt, cz, cn⟩, bc, ss, mc, mn',
          if cmax = true then (getMax ⟨⟨cmin, cmax, csum, cvar, cskew, ckurt, cz, cn⟩, bc, ss, mc, mn, mx, sm, bv, bs, bk, nz, nn⟩ xs).max else mx,
          sm, bv, bs, bk, nz, nn⟩ := by
    intro mn'
    cases cmax
    · rfl
    · simp only [if_true]
      rw [getMax_eq]
      congr 1
      exact getMax_max ⟨⟨cmin, true, csum, cvar, cskew, ckurt, cz, cn⟩, bc, ss, mc, mn, mx, sm, bv, bs, bk, nz, nn⟩ mn' xs
  simp only [Bool.false_eq_true, if_false, h1]
  simp only [h2]
  clear h1 h2
  unfold stepped
  dsimp only
  generalize (if cmin = true then _ else mn : Option ℝ) = mn2
  generalize (if cmax = true then _ else mx : Option ℝ) = mx2
  dsimp only at hv hn hn'
  have hlen' : (if xs.length = 0 then (0:ℝ) else xs.sum / xs.length) = xs.sum / xs.length := if_neg hlen
  cases hk : (bk.isNone && decide (mc > 0)) <;>
  cases csum <;> cases cvar <;> cases cskew <;> cases ckurt <;>
    (first
      | (simp [Calcs.valid] at hv; done)
      | (
         cases cz <;> cases cn <;>
         simp only [if_true, if_false, Bool.false_eq_true, getSum, getVariance, getSkewness,
          getKurtosis, getNumZeros, getNumNegatives, lookup,
          bind, Except.bind, pure, Except.pure, hlen', hn, hn', hk, State.mean]))

end Verif.Numeric
