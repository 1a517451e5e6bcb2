import Verif.Model.Double
import Mathlib.Tactic.Linarith
import Mathlib.Tactic.NormNum
import Mathlib.Tactic.Positivity
import Mathlib.Tactic.FieldSimp
import Mathlib.Algebra.Order.Field.Power
import Mathlib.Data.Nat.Log

/-!
# Lemmas on rounding of floats
-/

namespace Verif.Double

theorem roundEven_error (x : ℚ) : |(roundEven x : ℚ) - x| ≤ 1 / 2 := by
  have h1 := Int.floor_le x
  have h2 := Int.lt_floor_add_one x
  unfold roundEven
  rw [abs_le]
  split_ifs <;> push_cast <;> constructor <;> linarith

/-- Between two integers at the same distance the even one is taken. -/
theorem roundEven_tie (x : ℚ) (h : x - ⌊x⌋ = 1 / 2) : roundEven x % 2 = 0 := by
  unfold roundEven
  rw [h, if_neg (lt_irrefl _), if_neg (lt_irrefl _)]
  split_ifs with h2
  · exact h2
  · omega

theorem roundEven_int (k : ℤ) : roundEven k = k := by
  unfold roundEven
  simp

theorem expo_spec {x : ℚ} (hx : 0 < x) : (2 : ℚ) ^ expo x ≤ x ∧ x < 2 ^ (expo x + 1) := by
  have hn : 0 < x.num := Rat.num_pos.2 hx
  have hn0 : x.num.natAbs ≠ 0 := by omega
  have hd0 : x.den ≠ 0 := x.den_ne_zero
  have e : x = (x.num.natAbs : ℚ) / (x.den : ℚ) := by
    conv => lhs; rw [← Rat.num_div_den x]
    rw [show (x.num : ℚ) = (x.num.natAbs : ℚ) by
      rw [← Int.cast_natCast, Int.natAbs_of_nonneg hn.le]]
  have a1 : (2 : ℚ) ^ (Nat.log2 x.num.natAbs : ℤ) ≤ (x.num.natAbs : ℚ) := by
    rw [zpow_natCast]; exact_mod_cast Nat.log2_self_le hn0
  have a2 : (x.num.natAbs : ℚ) < 2 ^ ((Nat.log2 x.num.natAbs : ℤ) + 1) := by
    rw [show ((Nat.log2 x.num.natAbs : ℤ) + 1) = ((Nat.log2 x.num.natAbs + 1 : ℕ) : ℤ) by push_cast; rfl, zpow_natCast]
    exact_mod_cast Nat.lt_log2_self
  have b1 : (2 : ℚ) ^ (Nat.log2 x.den : ℤ) ≤ (x.den : ℚ) := by
    rw [zpow_natCast]; exact_mod_cast Nat.log2_self_le hd0
  have b2 : (x.den : ℚ) < 2 ^ ((Nat.log2 x.den : ℤ) + 1) := by
    rw [show ((Nat.log2 x.den : ℤ) + 1) = ((Nat.log2 x.den + 1 : ℕ) : ℤ) by push_cast; rfl, zpow_natCast]
    exact_mod_cast Nat.lt_log2_self
  have hd : (0 : ℚ) < (x.den : ℚ) := by exact_mod_cast x.den_pos
  have hp : ∀ k : ℤ, (0 : ℚ) < 2 ^ k := fun k => by positivity
  have up : x < 2 ^ ((Nat.log2 x.num.natAbs : ℤ) - (Nat.log2 x.den : ℤ) + 1) := by
    conv => lhs; rw [e]
    rw [div_lt_iff₀ hd]
    calc (x.num.natAbs : ℚ) < 2 ^ ((Nat.log2 x.num.natAbs : ℤ) + 1) := a2
      _ = 2 ^ ((Nat.log2 x.num.natAbs : ℤ) - (Nat.log2 x.den : ℤ) + 1) * 2 ^ (Nat.log2 x.den : ℤ) := by
          rw [← zpow_add₀ (by norm_num : (2 : ℚ) ≠ 0)]; congr 1; ring
      _ ≤ _ := by
          have := hp ((Nat.log2 x.num.natAbs : ℤ) - (Nat.log2 x.den : ℤ) + 1)
          exact mul_le_mul_of_nonneg_left b1 this.le
  have low : (2 : ℚ) ^ ((Nat.log2 x.num.natAbs : ℤ) - (Nat.log2 x.den : ℤ) - 1) ≤ x := by
    conv => rhs; rw [e]
    rw [le_div_iff₀ hd]
    calc (2 : ℚ) ^ ((Nat.log2 x.num.natAbs : ℤ) - (Nat.log2 x.den : ℤ) - 1) * (x.den : ℚ)
        ≤ 2 ^ ((Nat.log2 x.num.natAbs : ℤ) - (Nat.log2 x.den : ℤ) - 1) * 2 ^ ((Nat.log2 x.den : ℤ) + 1) :=
          mul_le_mul_of_nonneg_left b2.le (hp _).le
      _ = 2 ^ (Nat.log2 x.num.natAbs : ℤ) := by
          rw [← zpow_add₀ (by norm_num : (2 : ℚ) ≠ 0)]; congr 1; ring
      _ ≤ _ := a1
  unfold expo
  dsimp only
  split_ifs with h
  · exact ⟨low, by rwa [sub_add_cancel]⟩
  · exact ⟨not_lt.1 h, up⟩

theorem dbl_error {x : ℚ} (hx : 0 < x) : |dbl x - x| ≤ x / 2 ^ 53 := by
  obtain ⟨h1, h2⟩ := expo_spec hx
  have hp : ∀ k : ℤ, (0 : ℚ) < 2 ^ k := fun k => by positivity
  have hinv : x = x * (2 : ℚ) ^ (52 - expo x) * (2 : ℚ) ^ (expo x - 52) := by
    rw [mul_assoc, ← zpow_add₀ (by norm_num : (2 : ℚ) ≠ 0)]
    simp
  have : dbl x - x = ((roundEven (x * (2 : ℚ) ^ (52 - expo x)) : ℚ) - x * (2 : ℚ) ^ (52 - expo x)) *
      (2 : ℚ) ^ (expo x - 52) := by
    rw [sub_mul, ← hinv]; rfl
  rw [this, abs_mul, abs_of_pos (hp _)]
  calc _ ≤ 1 / 2 * (2 : ℚ) ^ (expo x - 52) := mul_le_mul_of_nonneg_right (roundEven_error _) (hp _).le
    _ = (2 : ℚ) ^ expo x / 2 ^ 53 := by
        rw [zpow_sub₀ (by norm_num : (2 : ℚ) ≠ 0)]
        norm_num; ring
    _ ≤ _ := by gcongr

theorem dbl_nat {k : ℕ} (h0 : 0 < k) (hk : k < 2 ^ 53) : dbl k = k := by
  have hx : (0 : ℚ) < k := by exact_mod_cast h0
  obtain ⟨h1, h2⟩ := expo_spec hx
  have he : expo k < 53 := by
    have : (2 : ℚ) ^ expo (k : ℚ) < 2 ^ (53 : ℤ) := lt_of_le_of_lt h1 (by exact_mod_cast hk)
    exact (zpow_lt_zpow_iff_right₀ (by norm_num : (1 : ℚ) < 2)).1 this
  obtain ⟨m, hm⟩ : ∃ m : ℕ, (m : ℤ) = 52 - expo (k : ℚ) := ⟨(52 - expo (k : ℚ)).toNat, by omega⟩
  unfold dbl
  rw [← hm, zpow_natCast, show (k : ℚ) * 2 ^ m = (((k * 2 ^ m : ℕ) : ℤ) : ℚ) by push_cast; rfl, roundEven_int]
  rw [show expo (k : ℚ) - 52 = -(m : ℤ) by omega, zpow_neg, zpow_natCast]
  push_cast
  field_simp

end Verif.Double
