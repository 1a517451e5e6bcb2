import Verif.Lemmas.Double
import Verif.Model.WholeText
import Verif.Spec.WholeText
import Mathlib.Tactic.Linarith
import Mathlib.Tactic.NormNum
import Mathlib.Tactic.Positivity

/-!
# Lemmas for whole numbers
-/

namespace Verif.WholeText
open Verif Spec.WholeText

theorem roundEven_ge_floor (x : ℚ) : ⌊x⌋ ≤ Double.roundEven x := by
  unfold Double.roundEven; split_ifs <;> omega

/-- Doubles do not fall below the binade of the number. -/
theorem dbl_ge {x : ℚ} (hx : 0 < x) : (2 : ℚ) ^ Double.expo x ≤ Double.dbl x := by
  obtain ⟨h1, _⟩ := Double.expo_spec hx
  have e : (2 : ℚ) ^ Double.expo x = ((2 ^ 52 : ℤ) : ℚ) * 2 ^ (Double.expo x - 52) := by
    rw [show Double.expo x = 52 + (Double.expo x - 52) by ring, zpow_add₀ (by norm_num)]
    norm_num
  have p : (0 : ℚ) < 2 ^ (Double.expo x - 52) := by positivity
  unfold Double.dbl
  rw [e]
  refine mul_le_mul_of_nonneg_right ?_ p.le
  have : (2 ^ 52 : ℤ) ≤ ⌊x * (2 : ℚ) ^ (52 - Double.expo x)⌋ := by
    rw [Int.le_floor]
    have q : (0 : ℚ) < 2 ^ (52 - Double.expo x) := by positivity
    calc ((2 ^ 52 : ℤ) : ℚ) = 2 ^ Double.expo x * 2 ^ (52 - Double.expo x) := by
          rw [← zpow_add₀ (by norm_num)]; norm_num
      _ ≤ _ := mul_le_mul_of_nonneg_right h1 q.le
  exact_mod_cast this.trans (roundEven_ge_floor _)

/-- The double nearest to a positive whole number is whole. -/
theorem dbl_whole {k : ℕ} (h0 : 0 < k) : ∃ n : ℕ, Double.dbl k = n := by
  by_cases hk : k < 2 ^ 53
  · exact ⟨k, Double.dbl_nat h0 hk⟩
  · have hk' : (0 : ℚ) < k := by exact_mod_cast h0
    obtain ⟨h1, h2⟩ := Double.expo_spec hk'
    have he : 52 ≤ Double.expo (k : ℚ) := by
      by_contra hc
      have : (2 : ℚ) ^ (Double.expo (k : ℚ) + 1) ≤ 2 ^ (53 : ℤ) := zpow_le_zpow_right₀ (by norm_num) (by omega)
      have : (k : ℚ) < 2 ^ 53 := by
        refine h2.trans_le (this.trans (le_of_eq ?_)); norm_num
      exact hk (by exact_mod_cast this)
    obtain ⟨m, hm⟩ := Int.eq_ofNat_of_zero_le (show 0 ≤ Double.expo (k : ℚ) - 52 by omega)
    have hz : Double.dbl (k : ℚ) = ((Double.roundEven ((k : ℚ) * 2 ^ (52 - Double.expo (k : ℚ))) * 2 ^ m : ℤ) : ℚ) := by
      unfold Double.dbl; rw [hm]; push_cast; rw [zpow_natCast]
    have pos : 0 < Double.dbl (k : ℚ) := lt_of_lt_of_le (by positivity) (dbl_ge hk')
    rw [hz] at pos
    obtain ⟨n, hn⟩ := Int.eq_ofNat_of_zero_le (le_of_lt (show 0 < _ from by exact_mod_cast pos))
    exact ⟨n, by rw [hz]; push_cast at hn ⊢; exact_mod_cast hn⟩

theorem toInt_int (j : ℤ) : toInt (.fin j) = .ok j := by
  simp only [toInt]; split_ifs <;> simp

theorem whole_toInt (q : ℚ) : ∃ j, toInt (.fin q) = .ok j ∧ WholePart q j := by
  simp only [toInt]
  split_ifs with h
  · refine ⟨_, rfl, ?_⟩
    have a := Int.le_ceil q
    have b := Int.ceil_lt_add_one q
    have c : ⌈q⌉ ≤ 0 := Int.ceil_le.2 (by simpa using h.le)
    have c' : (⌈q⌉ : ℚ) ≤ 0 := by exact_mod_cast c
    refine ⟨?_, ?_, fun h' => by omega, fun _ => h⟩
    · rw [abs_of_nonpos c', abs_of_neg h]; linarith
    · rw [abs_of_nonpos c', abs_of_neg h]; linarith
  · refine ⟨_, rfl, ?_⟩
    have h := not_lt.1 h
    have a := Int.floor_le q
    have b := Int.lt_floor_add_one q
    have c : 0 ≤ ⌊q⌋ := Int.floor_nonneg.2 h
    have c' : (0 : ℚ) ≤ ⌊q⌋ := by exact_mod_cast c
    refine ⟨?_, ?_, fun h' => ?_, fun h' => by omega⟩
    · rw [abs_of_nonneg c', abs_of_nonneg h]; exact a
    · rw [abs_of_nonneg c', abs_of_nonneg h]; exact b
    · exact lt_of_lt_of_le (by exact_mod_cast h') a

theorem whole_unique {q : ℚ} {i j : ℤ} (hi : WholePart q i) (hj : WholePart q j) : i = j := by
  obtain ⟨a1, a2, a3, a4⟩ := hi
  obtain ⟨b1, b2, b3, b4⟩ := hj
  have e1 : |i| ≤ |j| := by
    have : |(i : ℚ)| < |(j : ℚ)| + 1 := lt_of_le_of_lt a1 b2
    have : |i| < |j| + 1 := by exact_mod_cast this
    omega
  have e2 : |j| ≤ |i| := by
    have : |(j : ℚ)| < |(i : ℚ)| + 1 := lt_of_le_of_lt b1 a2
    have : |j| < |i| + 1 := by exact_mod_cast this
    omega
  rcases lt_trichotomy 0 i with h | h | h
  · have := a3 h
    have : ¬ j < 0 := fun h' => absurd (b4 h') (by linarith)
    rw [abs_of_pos h] at e1 e2; rw [abs_of_nonneg (by omega)] at e1 e2; omega
  · subst h; simp at e2; exact e2.symm
  · have := a4 h
    have : ¬ 0 < j := fun h' => absurd (b3 h') (by linarith)
    rw [abs_of_neg h] at e1 e2; rw [abs_of_nonpos (by omega)] at e1 e2; omega

theorem expo_eq {x : ℚ} {e : ℤ} (hx : 0 < x) (h1 : (2 : ℚ) ^ e ≤ x) (h2 : x < 2 ^ (e + 1)) : Double.expo x = e := by
  obtain ⟨a, b⟩ := Double.expo_spec hx
  have l := (zpow_lt_zpow_iff_right₀ (by norm_num : (1 : ℚ) < 2)).1 (lt_of_le_of_lt a h2)
  have u := (zpow_lt_zpow_iff_right₀ (by norm_num : (1 : ℚ) < 2)).1 (lt_of_le_of_lt h1 b)
  omega

theorem dbl_even : Double.dbl 9007199254740992 = 9007199254740992 := by
  have e : Double.expo 9007199254740992 = 53 := expo_eq (by norm_num) (by norm_num) (by norm_num)
  unfold Double.dbl
  rw [e, show (9007199254740992 : ℚ) * 2 ^ (52 - 53 : ℤ) = ((4503599627370496 : ℤ) : ℚ) by norm_num, Double.roundEven_int]
  norm_num

theorem dbl_odd : Double.dbl 9007199254740993 = 9007199254740992 := by
  have e : Double.expo 9007199254740993 = 53 := expo_eq (by norm_num) (by norm_num) (by norm_num)
  have f : ⌊(9007199254740993 : ℚ) * 2 ^ (52 - 53 : ℤ)⌋ = 4503599627370496 := by
    rw [Int.floor_eq_iff]; norm_num
  unfold Double.dbl Double.roundEven
  rw [e, f]
  norm_num

theorem odd_lost (parse : String → Option Fl) (write : Fl → String) :
    convert parse write (.int 9007199254740993) = toString (9007199254740992 : ℤ) ∧
      convert parse write (.int 9007199254740992) = toString (9007199254740992 : ℤ) := by
  have big : ¬ (2 : ℚ) ^ 1024 ≤ 9007199254740992 := by
    have a : (2 : ℚ) ^ 54 ≤ 2 ^ 1024 := pow_le_pow_right₀ (by norm_num) (by norm_num)
    have b : (9007199254740992 : ℚ) < 2 ^ 54 := by norm_num
    exact not_le.2 (lt_of_lt_of_le b a)
  have t := toInt_int 9007199254740992
  push_cast at t
  have o : ofInt 9007199254740993 = .ok (.fin 9007199254740992) := by
    have e : ((9007199254740993 : ℤ).natAbs : ℚ) = 9007199254740993 := by norm_num
    unfold ofInt
    rw [e, dbl_odd, if_neg (by decide), if_neg big, if_neg (by decide)]
  have v : ofInt 9007199254740992 = .ok (.fin 9007199254740992) := by
    have e : ((9007199254740992 : ℤ).natAbs : ℚ) = 9007199254740992 := by norm_num
    unfold ofInt
    rw [e, dbl_even, if_neg (by decide), if_neg big, if_neg (by decide)]
  constructor
  · simp only [convert, toFloat, o, Except.bind, t]
  · simp only [convert, toFloat, v, Except.bind, t]

end Verif.WholeText
