import Verif.Lemmas.WholeText

/-!
# C120: Values written as whole numbers
-/

namespace Verif.Props.WholeText
open Verif Verif.WholeText Spec.WholeText

variable (parse : String → Option Fl) (write : Fl → String)

/-- Whole numbers below `2 ** 53` are written with their digits. -/
theorem C120_small (i : ℤ) (h : |i| < 2 ^ 53) : convert parse write (.int i) = toString i := by
  rw [Int.abs_eq_natAbs] at h
  by_cases h0 : i = 0
  · subst h0; simp [convert, toFloat, ofInt, Except.bind, toInt]
  · have p : 0 < i.natAbs := Int.natAbs_pos.2 h0
    have hd : Double.dbl i.natAbs = i.natAbs := Double.dbl_nat p (by omega)
    have hlt : ¬ (2 : ℚ) ^ 1024 ≤ (i.natAbs : ℚ) := by
      have a : (i.natAbs : ℚ) < 2 ^ 53 := by exact_mod_cast (show i.natAbs < 2 ^ 53 by omega)
      have b : (2 : ℚ) ^ 53 ≤ 2 ^ 1024 := pow_le_pow_right₀ (by norm_num) (by norm_num)
      exact not_le.2 (lt_of_lt_of_le a b)
    have e : (if i < 0 then -(i.natAbs : ℚ) else (i.natAbs : ℚ)) = ((i : ℤ) : ℚ) := by
      split_ifs with hn
      · have : (i.natAbs : ℤ) = -i := by omega
        rw [show (i.natAbs : ℚ) = ((i.natAbs : ℤ) : ℚ) by simp, this]; push_cast; ring
      · have : (i.natAbs : ℤ) = i := by omega
        rw [show (i.natAbs : ℚ) = ((i.natAbs : ℤ) : ℚ) by simp, this]
    simp only [convert, toFloat, ofInt, h0, if_false, hd, hlt, e, Except.bind, toInt_int]

example : convert (fun _ => none) (fun _ => "") (.int (-12)) = "-12" := C120_small _ _ _ (by decide)

/-- So are those that are not below `2 ** 1024`: `float` refuses them. -/
theorem C120_huge (i : ℤ) (h : 2 ^ 1024 ≤ |i|) : convert parse write (.int i) = toString i := by
  have h0 : i ≠ 0 := by
    rintro rfl
    exact absurd (h.trans_eq abs_zero) (not_le.2 (by positivity))
  have p : 0 < i.natAbs := Int.natAbs_pos.2 h0
  have p' : (0 : ℚ) < i.natAbs := by exact_mod_cast p
  have hq : (2 : ℚ) ^ 1024 ≤ i.natAbs := by
    have : ((2 ^ 1024 : ℤ) : ℚ) ≤ ((i.natAbs : ℤ) : ℚ) := Int.cast_le.2 (h.trans_eq (Int.abs_eq_natAbs i))
    rw [Int.cast_pow, Int.cast_ofNat, Int.cast_natCast] at this
    exact this
  obtain ⟨_, h2⟩ := Double.expo_spec p'
  have he : 1024 ≤ Double.expo (i.natAbs : ℚ) := by
    by_contra hc
    have : (2 : ℚ) ^ (Double.expo (i.natAbs : ℚ) + 1) ≤ 2 ^ (1024 : ℤ) :=
      zpow_le_zpow_right₀ (by norm_num) (by omega)
    have e : (2 : ℚ) ^ (1024 : ℤ) = 2 ^ 1024 := zpow_natCast 2 1024
    rw [e] at this
    exact absurd (lt_of_lt_of_le h2 this) (not_lt.2 hq)
  have hd : (2 : ℚ) ^ 1024 ≤ Double.dbl i.natAbs := by
    refine le_trans ?_ (dbl_ge p')
    rw [← zpow_natCast]
    exact zpow_le_zpow_right₀ (by norm_num) (by exact_mod_cast he)
  simp only [convert, toFloat, ofInt, h0, if_false, hd, if_true, Except.bind, str]

/-- Every whole number is written as one that is near to it. Missing: that it is written with its own digits, `C120_digits_fails`. -/
theorem C120_digits_partial (i : ℤ) :
    ∃ j : ℤ, convert parse write (.int i) = toString j ∧ |(j : ℚ) - i| ≤ |(i : ℚ)| / 2 ^ 53 := by
  by_cases h0 : i = 0
  · exact ⟨i, C120_small _ _ _ (by subst h0; norm_num), by simp; positivity⟩
  · have p : 0 < i.natAbs := Int.natAbs_pos.2 h0
    have p' : (0 : ℚ) < i.natAbs := by exact_mod_cast p
    by_cases hb : (2 : ℚ) ^ 1024 ≤ Double.dbl i.natAbs
    · refine ⟨i, ?_, by simp; positivity⟩
      simp only [convert, toFloat, ofInt, h0, if_false, hb, if_true, Except.bind, str]
    · obtain ⟨n, hn⟩ := dbl_whole p
      have err := Double.dbl_error p'
      rw [hn] at err
      by_cases hneg : i < 0
      · have hi : (i : ℚ) = -(i.natAbs : ℚ) := by
          have : i = -(i.natAbs : ℤ) := by omega
          calc (i : ℚ) = ((-(i.natAbs : ℤ) : ℤ) : ℚ) := by rw [← this]
            _ = _ := by push_cast; simp
        refine ⟨-n, ?_, ?_⟩
        · have := toInt_int (-(n : ℤ))
          push_cast at this
          rw [hn] at hb
          simp only [convert, toFloat, ofInt, h0, if_false, hn, hb, hneg, if_true, Except.bind, this]
        · rw [hi, abs_neg, abs_of_pos p']
          push_cast
          rw [show -(n : ℚ) - -(i.natAbs : ℚ) = -((n : ℚ) - i.natAbs) by ring, abs_neg]
          exact err
      · have hi : (i : ℚ) = (i.natAbs : ℚ) := by
          have : i = (i.natAbs : ℤ) := by omega
          calc (i : ℚ) = (((i.natAbs : ℤ) : ℤ) : ℚ) := by rw [← this]
            _ = _ := by simp
        refine ⟨n, ?_, ?_⟩
        · have := toInt_int (n : ℤ)
          push_cast at this
          rw [hn] at hb
          simp only [convert, toFloat, ofInt, h0, if_false, hn, hb, hneg, Except.bind, this]
        · rw [hi, abs_of_pos p']
          push_cast
          exact err

/-- Not every whole number is written with its digits, and two different ones can be written the same. -/
theorem C120_digits_fails :
    ¬ (∀ i : ℤ, convert parse write (.int i) = toString i) ∧
      ¬ (∀ i j : ℤ, convert parse write (.int i) = convert parse write (.int j) → i = j) := by
  obtain ⟨a, b⟩ := odd_lost parse write
  refine ⟨fun h => ?_, fun h => ?_⟩
  · have := (h 9007199254740993).symm.trans a
    exact absurd this (by decide)
  · exact absurd (h _ _ (a.trans b.symm)) (by decide)

/-- Of a float the whole part is written. -/
theorem C120_float (q : ℚ) (j : ℤ) (h : WholePart q j) : convert parse write (.float (.fin q)) = toString j := by
  obtain ⟨k, hk, hw⟩ := whole_toInt q
  rw [whole_unique h hw]
  simp only [convert, toFloat, Except.bind, hk]

example : convert (fun _ => none) (fun _ => "") (.float (.fin (-7/2))) = "-3" :=
  C120_float _ _ _ (-3) (by norm_num [WholePart, abs_of_neg, abs_of_pos])

/-- What is no number is written as `str` writes it: this includes missing values. -/
theorem C120_other :
    (∀ t, convert parse write (.other t) = t) ∧ convert parse write (.float .nan) = write .nan ∧
      (∀ b, convert parse write (.float (.inf b)) = write (.inf b)) ∧
      (∀ s, parse s = none → convert parse write (.str s) = s) ∧
      (∀ s, parse s = some .nan → convert parse write (.str s) = s) ∧
      (∀ s b, parse s = some (.inf b) → convert parse write (.str s) = s) := by
  refine ⟨fun _ => rfl, rfl, fun _ => rfl, ?_, ?_, ?_⟩
  · intro s h; simp [convert, toFloat, h, Except.bind, str]
  · intro s h; simp [convert, toFloat, h, Except.bind, str, toInt]
  · intro s b h; simp [convert, toFloat, h, Except.bind, str, toInt]

/-- A text that Python reads as a finite float is replaced by the digits of its whole part. -/
theorem C120_text (s : String) (q : ℚ) (j : ℤ) (hs : parse s = some (.fin q)) (h : WholePart q j) :
    convert parse write (.str s) = toString j := by
  obtain ⟨k, hk, hw⟩ := whole_toInt q
  rw [whole_unique h hw]
  simp only [convert, toFloat, hs, Except.bind, hk]

/-- Not every text of digits is kept: `"007"` and `"7"` are written the same, for every way of reading that gives 7 for both. -/
theorem C120_zeros_fails (h7 : parse "007" = some (.fin 7)) (h : parse "7" = some (.fin 7)) :
    convert parse write (.str "007") = convert parse write (.str "7") ∧ convert parse write (.str "007") ≠ "007" := by
  have w : WholePart 7 7 := by norm_num [WholePart, abs_of_pos]
  rw [C120_text parse write _ _ _ h7 w, C120_text parse write _ _ _ h w]
  exact ⟨rfl, by decide⟩

end Verif.Props.WholeText
