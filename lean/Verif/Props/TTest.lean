import Verif.Model.NumDiff
import Verif.Spec.NumDiff
import Mathlib.Tactic.FieldSimp
import Mathlib.Tactic.Linarith
import Mathlib.Tactic.Positivity
import Mathlib.Tactic.NormNum

/-!
# C77: the t-test in a difference of numeric columns
-/

namespace Verif.Props.TTest

open Verif Verif.NumDiff Verif.Spec.NumDiff

/-- No result. -/
def nothing : TTest := ⟨none, none, none, none, none⟩

/-- C77: the test is made exactly if both columns have at least two values, no mean or variance is missing, and not both variances are zero; otherwise
nothing is reported. When it is made, the statistic is the difference of the means over the standard error. -/
theorem C77_defined (cdf : ℝ → ℝ → ℝ) (m1 v1 m2 v2 : Option ℝ) (n1 n2 : ℕ) :
    (tTest cdf m1 v1 n1 m2 v2 n2 = nothing ∧ (m1 = none ∨ v1 = none ∨ m2 = none ∨ v2 = none ∨ n1 < 2 ∨ n2 < 2 ∨ (v1 = some 0 ∧ v2 = some 0))) ∨
    (∃ a s b r : ℝ, m1 = some a ∧ v1 = some s ∧ m2 = some b ∧ v2 = some r ∧ 2 ≤ n1 ∧ 2 ≤ n2 ∧ ¬ (s = 0 ∧ r = 0) ∧
      (tTest cdf m1 v1 n1 m2 v2 n2).t = some ((a - b) / Real.sqrt (s / n1 + r / n2)) ∧
      (tTest cdf m1 v1 n1 m2 v2 n2).conservativeDf = some ((min n1 n2 : ℕ) - 1 : ℝ)) := by
  cases m1 with
  | none => left; exact ⟨rfl, Or.inl rfl⟩
  | some a =>
  cases v1 with
  | none => left; exact ⟨rfl, Or.inr (Or.inl rfl)⟩
  | some s =>
  cases m2 with
  | none => left; exact ⟨rfl, Or.inr (Or.inr (Or.inl rfl))⟩
  | some b =>
  cases v2 with
  | none => left; exact ⟨rfl, Or.inr (Or.inr (Or.inr (Or.inl rfl)))⟩
  | some r =>
  by_cases h : n1 ≤ 1 ∨ n2 ≤ 1 ∨ (s = 0 ∧ r = 0)
  · left
    unfold tTest
    simp only
    rw [if_pos h]
    refine ⟨rfl, ?_⟩
    rcases h with h | h | h
    · exact Or.inr (Or.inr (Or.inr (Or.inr (Or.inl (by omega)))))
    · exact Or.inr (Or.inr (Or.inr (Or.inr (Or.inr (Or.inl (by omega))))))
    · exact Or.inr (Or.inr (Or.inr (Or.inr (Or.inr (Or.inr ⟨by rw [h.1], by rw [h.2]⟩)))))
  · right
    have h' := h
    simp only [not_or, not_le] at h'
    refine ⟨a, s, b, r, rfl, rfl, rfl, rfl, h'.1, h'.2.1, h'.2.2, ?_, ?_⟩
    · unfold tTest
      simp only
      rw [if_neg h]
    · unfold tTest
      simp only
      rw [if_neg h]
      have : 1 ≤ min n1 n2 := by omega
      simp only [Option.some.injEq]
      rw [Nat.cast_sub this]
      simp

/-- The results of a test that is made. -/
theorem tTest_eq (cdf : ℝ → ℝ → ℝ) (a s b r : ℝ) (n1 n2 : ℕ) (h1 : 2 ≤ n1) (h2 : 2 ≤ n2) (hv : ¬ (s = 0 ∧ r = 0)) :
    tTest cdf (some a) (some s) n1 (some b) (some r) n2 =
      ⟨some ((a - b) / Real.sqrt (s / n1 + r / n2)), some ((min n1 n2 - 1 : ℕ) : ℝ),
        some (pValue cdf ((min n1 n2 - 1 : ℕ) : ℝ) ((a - b) / Real.sqrt (s / n1 + r / n2))),
        some ((s / n1 + r / n2) ^ 2 / ((s / n1) ^ 2 / ((n1 : ℝ) - 1) + (r / n2) ^ 2 / ((n2 : ℝ) - 1))),
        some (pValue cdf ((s / n1 + r / n2) ^ 2 / ((s / n1) ^ 2 / ((n1 : ℝ) - 1) + (r / n2) ^ 2 / ((n2 : ℝ) - 1)))
          ((a - b) / Real.sqrt (s / n1 + r / n2)))⟩ := by
  have h : ¬ (n1 ≤ 1 ∨ n2 ≤ 1 ∨ (s = 0 ∧ r = 0)) := by
    rintro (h | h | h)
    · omega
    · omega
    · exact hv h
  unfold tTest
  simp only
  rw [if_neg h]

/-- C77: comparing the columns the other way round negates the statistic and changes nothing else. -/
theorem C77_swap (cdf : ℝ → ℝ → ℝ) (m1 v1 m2 v2 : Option ℝ) (n1 n2 : ℕ) :
    (tTest cdf m2 v2 n2 m1 v1 n1).t = (tTest cdf m1 v1 n1 m2 v2 n2).t.map (fun x => -x) ∧
    (tTest cdf m2 v2 n2 m1 v1 n1).conservativeDf = (tTest cdf m1 v1 n1 m2 v2 n2).conservativeDf ∧
    (tTest cdf m2 v2 n2 m1 v1 n1).conservativeP = (tTest cdf m1 v1 n1 m2 v2 n2).conservativeP ∧
    (tTest cdf m2 v2 n2 m1 v1 n1).welchDf = (tTest cdf m1 v1 n1 m2 v2 n2).welchDf ∧
    (tTest cdf m2 v2 n2 m1 v1 n1).welchP = (tTest cdf m1 v1 n1 m2 v2 n2).welchP := by
  rcases m1 with _ | a
  · rcases m2 with _ | b <;> rcases v2 with _ | r <;> exact ⟨rfl, rfl, rfl, rfl, rfl⟩
  rcases v1 with _ | s
  · rcases m2 with _ | b <;> rcases v2 with _ | r <;> exact ⟨rfl, rfl, rfl, rfl, rfl⟩
  rcases m2 with _ | b
  · exact ⟨rfl, rfl, rfl, rfl, rfl⟩
  rcases v2 with _ | r
  · exact ⟨rfl, rfl, rfl, rfl, rfl⟩
  by_cases h : n1 ≤ 1 ∨ n2 ≤ 1 ∨ (s = 0 ∧ r = 0)
  · have h' : n2 ≤ 1 ∨ n1 ≤ 1 ∨ (r = 0 ∧ s = 0) := by
      rcases h with h | h | h
      · exact Or.inr (Or.inl h)
      · exact Or.inl h
      · exact Or.inr (Or.inr ⟨h.2, h.1⟩)
    unfold tTest
    simp only
    rw [if_pos h, if_pos h']
    exact ⟨rfl, rfl, rfl, rfl, rfl⟩
  · simp only [not_or, not_le] at h
    obtain ⟨h1, h2, h3⟩ := h
    rw [tTest_eq cdf a s b r n1 n2 h1 h2 h3, tTest_eq cdf b r a s n2 n1 h2 h1 (fun h => h3 ⟨h.2, h.1⟩)]
    have e1 : (b - a) / Real.sqrt (r / n2 + s / n1) = - ((a - b) / Real.sqrt (s / n1 + r / n2)) := by
      rw [add_comm (r / (n2 : ℝ)), ← neg_sub a b, neg_div]
    have e2 : min n2 n1 = min n1 n2 := Nat.min_comm _ _
    have e3 : ∀ df : ℝ, pValue cdf df (-((a - b) / Real.sqrt (s / n1 + r / n2))) = pValue cdf df ((a - b) / Real.sqrt (s / n1 + r / n2)) := by
      intro df
      unfold pValue
      rw [abs_neg]
    have e4 : (r / (n2 : ℝ) + s / n1) ^ 2 / ((r / n2) ^ 2 / ((n2 : ℝ) - 1) + (s / n1) ^ 2 / ((n1 : ℝ) - 1)) =
        (s / (n1 : ℝ) + r / n2) ^ 2 / ((s / n1) ^ 2 / ((n1 : ℝ) - 1) + (r / n2) ^ 2 / ((n2 : ℝ) - 1)) := by
      rw [add_comm (r / (n2 : ℝ)), add_comm ((r / (n2 : ℝ)) ^ 2 / _)]
    simp only [e1, e2, e3, e4, Option.map_some]
    exact ⟨trivial, trivial, trivial, trivial, trivial⟩

/-- C77: Welch's degrees of freedom are between the conservative ones and those of the pooled test, `n1 + n2 - 2`. -/
theorem C77_freedom (cdf : ℝ → ℝ → ℝ) (a s b r : ℝ) (n1 n2 : ℕ) (h1 : 2 ≤ n1) (h2 : 2 ≤ n2) (hs : 0 ≤ s) (hr : 0 ≤ r) (hv : ¬ (s = 0 ∧ r = 0)) :
    ∃ c w : ℝ, (tTest cdf (some a) (some s) n1 (some b) (some r) n2).conservativeDf = some c ∧
      (tTest cdf (some a) (some s) n1 (some b) (some r) n2).welchDf = some w ∧ 1 ≤ c ∧ c ≤ w ∧ w ≤ n1 + n2 - 2 := by
  rw [tTest_eq cdf a s b r n1 n2 h1 h2 hv]
  refine ⟨_, _, rfl, rfl, ?_, ?_, ?_⟩
  · have : 1 ≤ min n1 n2 - 1 := by omega
    exact_mod_cast this
  all_goals
    have g1 : (2 : ℝ) ≤ n1 := by exact_mod_cast h1
    have g2 : (2 : ℝ) ≤ n2 := by exact_mod_cast h2
    set x := s / (n1 : ℝ) with hx
    set y := r / (n2 : ℝ) with hy
    have hx0 : 0 ≤ x := by rw [hx]; positivity
    have hy0 : 0 ≤ y := by rw [hy]; positivity
    have hxy : 0 < x ∨ 0 < y := by
      rcases lt_or_eq_of_le hs with h | h
      · left
        rw [hx]
        exact div_pos h (by linarith)
      · right
        rw [hy]
        refine div_pos (lt_of_le_of_ne hr ?_) (by linarith)
        intro h'
        exact hv ⟨h.symm, h'.symm⟩
    have p1 : (0 : ℝ) < n1 - 1 := by linarith
    have p2 : (0 : ℝ) < n2 - 1 := by linarith
    have hD : 0 < x ^ 2 / ((n1 : ℝ) - 1) + y ^ 2 / ((n2 : ℝ) - 1) := by
      rcases hxy with h | h
      · have : 0 < x ^ 2 / ((n1 : ℝ) - 1) := div_pos (pow_pos h 2) p1
        have : 0 ≤ y ^ 2 / ((n2 : ℝ) - 1) := div_nonneg (sq_nonneg y) p2.le
        linarith
      · have : 0 < y ^ 2 / ((n2 : ℝ) - 1) := div_pos (pow_pos h 2) p2
        have : 0 ≤ x ^ 2 / ((n1 : ℝ) - 1) := div_nonneg (sq_nonneg x) p1.le
        linarith
  · rw [le_div_iff₀ hD]
    have hm1 : ((min n1 n2 - 1 : ℕ) : ℝ) ≤ n1 - 1 := by
      have : min n1 n2 - 1 ≤ n1 - 1 := by omega
      have : ((min n1 n2 - 1 : ℕ) : ℝ) ≤ ((n1 - 1 : ℕ) : ℝ) := by exact_mod_cast this
      rwa [Nat.cast_sub (show 1 ≤ n1 by omega), Nat.cast_one] at this
    have hm2 : ((min n1 n2 - 1 : ℕ) : ℝ) ≤ n2 - 1 := by
      have : min n1 n2 - 1 ≤ n2 - 1 := by omega
      have : ((min n1 n2 - 1 : ℕ) : ℝ) ≤ ((n2 - 1 : ℕ) : ℝ) := by exact_mod_cast this
      rwa [Nat.cast_sub (show 1 ≤ n2 by omega), Nat.cast_one] at this
    have k1 : ((min n1 n2 - 1 : ℕ) : ℝ) * (x ^ 2 / ((n1 : ℝ) - 1)) ≤ x ^ 2 := by
      rw [← mul_div_assoc, div_le_iff₀ p1]
      nlinarith [sq_nonneg x]
    have k2 : ((min n1 n2 - 1 : ℕ) : ℝ) * (y ^ 2 / ((n2 : ℝ) - 1)) ≤ y ^ 2 := by
      rw [← mul_div_assoc, div_le_iff₀ p2]
      nlinarith [sq_nonneg y]
    nlinarith [mul_nonneg hx0 hy0]
  · rw [div_le_iff₀ hD]
    set p := (n1 : ℝ) - 1 with hp
    set q := (n2 : ℝ) - 1 with hq
    have e : (n1 : ℝ) + n2 - 2 = p + q := by rw [hp, hq]; ring
    rw [e]
    have key : (p + q) * (x ^ 2 / p + y ^ 2 / q) - (x + y) ^ 2 = (q * x - p * y) ^ 2 / (p * q) := by
      field_simp
      ring
    have : 0 ≤ (q * x - p * y) ^ 2 / (p * q) := by positivity
    linarith

/-- C77: both p-values are between 0 and 1; they are 1 if the means are equal. -/
theorem C77_p_values (cdf : ℝ → ℝ → ℝ) (S : Balanced cdf) (a s b r : ℝ) (n1 n2 : ℕ) (h1 : 2 ≤ n1) (h2 : 2 ≤ n2) (hv : ¬ (s = 0 ∧ r = 0)) :
    ∃ c w : ℝ, (tTest cdf (some a) (some s) n1 (some b) (some r) n2).conservativeP = some c ∧
      (tTest cdf (some a) (some s) n1 (some b) (some r) n2).welchP = some w ∧ 0 ≤ c ∧ c ≤ 1 ∧ 0 ≤ w ∧ w ≤ 1 ∧ (a = b → c = 1 ∧ w = 1) := by
  rw [tTest_eq cdf a s b r n1 n2 h1 h2 hv]
  have hb : ∀ df t, 0 ≤ pValue cdf df t ∧ pValue cdf df t ≤ 1 := by
    intro df t
    unfold pValue
    have := S.mono df (abs_nonneg t)
    rw [S.half df] at this
    have := S.le_one df |t|
    constructor <;> linarith
  refine ⟨_, _, rfl, rfl, (hb _ _).1, (hb _ _).2, (hb _ _).1, (hb _ _).2, ?_⟩
  intro hab
  have : (a - b) / Real.sqrt (s / n1 + r / n2) = 0 := by rw [hab]; simp
  rw [this]
  unfold pValue
  rw [abs_zero, S.half, S.half]
  norm_num

/-- C77: the conservative p-value is never smaller than Welch's, for distributions whose tails get lighter with the degrees of freedom. -/
theorem C77_conservative (cdf : ℝ → ℝ → ℝ) (L : LighterTails cdf) (a s b r : ℝ) (n1 n2 : ℕ) (h1 : 2 ≤ n1) (h2 : 2 ≤ n2) (hs : 0 ≤ s) (hr : 0 ≤ r)
    (hv : ¬ (s = 0 ∧ r = 0)) :
    ∃ c w : ℝ, (tTest cdf (some a) (some s) n1 (some b) (some r) n2).conservativeP = some c ∧
      (tTest cdf (some a) (some s) n1 (some b) (some r) n2).welchP = some w ∧ w ≤ c := by
  obtain ⟨c, w, hc, hw, g1, g2, -⟩ := C77_freedom cdf a s b r n1 n2 h1 h2 hs hr hv
  rw [tTest_eq cdf a s b r n1 n2 h1 h2 hv] at hc hw ⊢
  refine ⟨_, _, rfl, rfl, ?_⟩
  simp only [Option.some.injEq] at hc hw
  rw [hc, hw]
  unfold pValue
  have := L c w |(a - b) / Real.sqrt (s / n1 + r / n2)| (by linarith) g2 (abs_nonneg _)
  linarith

/-- C77: the farther apart the means, all else equal, the smaller the p-values. -/
theorem C77_distance (cdf : ℝ → ℝ → ℝ) (S : Balanced cdf) (a s b a' b' r : ℝ) (n1 n2 : ℕ) (h1 : 2 ≤ n1) (h2 : 2 ≤ n2) (hv : ¬ (s = 0 ∧ r = 0))
    (hd : |a - b| ≤ |a' - b'|) :
    ∃ c c' w w' : ℝ, (tTest cdf (some a) (some s) n1 (some b) (some r) n2).conservativeP = some c ∧
      (tTest cdf (some a') (some s) n1 (some b') (some r) n2).conservativeP = some c' ∧
      (tTest cdf (some a) (some s) n1 (some b) (some r) n2).welchP = some w ∧
      (tTest cdf (some a') (some s) n1 (some b') (some r) n2).welchP = some w' ∧ c' ≤ c ∧ w' ≤ w := by
  rw [tTest_eq cdf a s b r n1 n2 h1 h2 hv, tTest_eq cdf a' s b' r n1 n2 h1 h2 hv]
  have ht : |(a - b) / Real.sqrt (s / n1 + r / n2)| ≤ |(a' - b') / Real.sqrt (s / n1 + r / n2)| := by
    rw [abs_div, abs_div]
    exact div_le_div_of_nonneg_right hd (abs_nonneg _)
  have hp : ∀ df, pValue cdf df ((a' - b') / Real.sqrt (s / n1 + r / n2)) ≤ pValue cdf df ((a - b) / Real.sqrt (s / n1 + r / n2)) := by
    intro df
    unfold pValue
    have := S.mono df ht
    linarith
  exact ⟨_, _, _, _, rfl, rfl, rfl, rfl, hp _, hp _⟩

/-- C77: the result does not depend on the unit of the values or on their origin. -/
theorem C77_units (cdf : ℝ → ℝ → ℝ) (a s b r k d : ℝ) (n1 n2 : ℕ) (hk : 0 < k) :
    tTest cdf (some (k * a + d)) (some (k ^ 2 * s)) n1 (some (k * b + d)) (some (k ^ 2 * r)) n2 =
      tTest cdf (some a) (some s) n1 (some b) (some r) n2 := by
  have hk2 : k ^ 2 ≠ 0 := (pow_pos hk 2).ne'
  have hz : ∀ x : ℝ, k ^ 2 * x = 0 ↔ x = 0 := fun x => by simp [hk.ne']
  by_cases h : n1 ≤ 1 ∨ n2 ≤ 1 ∨ (s = 0 ∧ r = 0)
  · unfold tTest
    simp only
    rw [if_pos h, if_pos (by rwa [hz, hz])]
  · simp only [not_or, not_le] at h
    obtain ⟨h1, h2, h3⟩ := h
    rw [tTest_eq cdf _ _ _ _ n1 n2 h1 h2 (by rwa [hz, hz]), tTest_eq cdf a s b r n1 n2 h1 h2 h3]
    have e1 : k ^ 2 * s / n1 + k ^ 2 * r / n2 = k ^ 2 * (s / n1 + r / n2) := by ring
    have e2 : ((k * a + d) - (k * b + d)) / Real.sqrt (k ^ 2 * (s / n1 + r / n2)) = (a - b) / Real.sqrt (s / n1 + r / n2) := by
      rw [Real.sqrt_mul (sq_nonneg k), Real.sqrt_sq hk.le]
      rw [show (k * a + d) - (k * b + d) = k * (a - b) by ring, mul_div_mul_left _ _ hk.ne']
    have e3 : (k ^ 2 * (s / (n1 : ℝ) + r / n2)) ^ 2 / ((k ^ 2 * s / n1) ^ 2 / ((n1 : ℝ) - 1) + (k ^ 2 * r / n2) ^ 2 / ((n2 : ℝ) - 1)) =
        (s / (n1 : ℝ) + r / n2) ^ 2 / ((s / n1) ^ 2 / ((n1 : ℝ) - 1) + (r / n2) ^ 2 / ((n2 : ℝ) - 1)) := by
      have : (k ^ 2 * s / (n1 : ℝ)) ^ 2 / ((n1 : ℝ) - 1) + (k ^ 2 * r / n2) ^ 2 / ((n2 : ℝ) - 1) =
          (k ^ 2) ^ 2 * ((s / n1) ^ 2 / ((n1 : ℝ) - 1) + (r / n2) ^ 2 / ((n2 : ℝ) - 1)) := by ring
      rw [this, mul_pow, mul_div_mul_left _ _ (pow_ne_zero 2 hk2)]
    rw [e1, e2, e3]

/-- Two columns with means 5 and 3, variances 4 and 1, ten and twenty values, and the distribution function of the sign of a coin: the hypotheses of the
theorems above can be met. -/
example : ∃ cdf, Balanced cdf ∧ LighterTails cdf ∧ ¬ ((4 : ℝ) = 0 ∧ (1 : ℝ) = 0) ∧ |(5 : ℝ) - 3| ≤ |(9 : ℝ) - 3| := by
  classical
  refine ⟨fun _ x => if x < -1 then 0 else if x < 1 then 1 / 2 else 1, ⟨?_, ?_, ?_⟩, ?_, by norm_num, by norm_num⟩
  · intro df x y hxy
    dsimp only
    split_ifs <;> first | linarith | norm_num
  · intro df
    norm_num
  · intro df x
    split_ifs <;> norm_num
  · intro d1 d2 x _ _ _
    exact le_refl _

end Verif.Props.TTest
