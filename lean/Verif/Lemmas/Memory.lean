import Verif.Spec.Memory
import Verif.Lemmas.Double
import Mathlib.Tactic.Ring
import Mathlib.Tactic.FieldSimp
import Mathlib.Tactic.Linarith

/-! # Lemmas about the memory of text -/

namespace Verif.Memory

open Verif Verif.Spec.Memory

theorem width_char (c : Char) : width c.toNat = .ok c.utf8Size := by
  have hv := c.valid
  have hn : c.toNat = c.val.toNat := rfl
  simp only [UInt32.isValidChar, Nat.isValidChar] at hv
  rw [← hn] at hv
  unfold width Char.utf8Size
  simp only [UInt32.le_iff_toNat_le, ← hn]
  have e1 : (UInt32.ofNatLT 0x7F (of_decide_eq_true rfl)).toNat = 127 := rfl
  have e2 : (UInt32.ofNatLT 0x7FF (of_decide_eq_true rfl)).toNat = 2047 := rfl
  have e3 : (UInt32.ofNatLT 0xFFFF (of_decide_eq_true rfl)).toNat = 65535 := rfl
  simp only [e1, e2, e3]
  split_ifs <;> first | rfl | omega

theorem encoded_char (cs : List Char) : encoded (cs.map Char.toNat) = .ok (cs.map Char.utf8Size).sum := by
  induction cs with
  | nil => rfl
  | cons c cs ih => simp only [List.map_cons, encoded, width_char, ih, bind, Except.bind, List.sum_cons]

theorem size_ofList (cs : List Char) : (String.ofList cs).utf8ByteSize = (cs.map Char.utf8Size).sum := by
  induction cs with
  | nil => rfl
  | cons c cs ih =>
    have : String.ofList (c :: cs) = String.singleton c ++ String.ofList cs := by
      apply String.toList_injective
      simp
    rw [this, String.utf8ByteSize_append, String.utf8ByteSize_singleton, ih]
    simp

theorem encoded_points (s : String) : encoded (points s) = .ok s.utf8ByteSize := by
  unfold points
  rw [encoded_char, ← size_ofList]
  simp

theorem total_acc (ls : List PyText) : ∀ acc : ℕ, total acc ls = (total 0 ls).map (acc + ·) := by
  induction ls with
  | nil => intro acc; simp [total, Except.map]
  | cons s ls ih =>
    intro acc
    unfold total
    cases encoded s with
    | error e => rfl
    | ok n =>
      simp only [bind, Except.bind]
      rw [ih (acc + n), ih (0 + n)]
      cases total 0 ls with
      | error e => rfl
      | ok m => simp [Except.map, Nat.add_assoc]

theorem total_points (ls : List String) : total 0 (ls.map points) = .ok (bytes ls) := by
  induction ls with
  | nil => rfl
  | cons s ls ih =>
    simp only [List.map_cons, total, encoded_points, bind, Except.bind]
    rw [total_acc, ih]
    simp [Except.map, bytes]

theorem width_error {c : ℕ} (h : 0xD800 ≤ c ∧ c < 0xE000) : width c = .error .valueError := by
  unfold width
  rw [if_neg (by omega), if_neg (by omega), if_pos h]

theorem width_cases (c : ℕ) : (0xD800 ≤ c ∧ c < 0xE000 ∧ width c = .error .valueError) ∨ (¬ (0xD800 ≤ c ∧ c < 0xE000) ∧ ∃ n, width c = .ok n) := by
  by_cases h : 0xD800 ≤ c ∧ c < 0xE000
  · exact Or.inl ⟨h.1, h.2, width_error h⟩
  · refine Or.inr ⟨h, ?_⟩
    unfold width
    split_ifs <;> exact ⟨_, rfl⟩

theorem encoded_cases (t : PyText) : ((∃ c ∈ t, 0xD800 ≤ c ∧ c < 0xE000) ∧ encoded t = .error .valueError) ∨
    ((∀ c ∈ t, ¬ (0xD800 ≤ c ∧ c < 0xE000)) ∧ ∃ n, encoded t = .ok n) := by
  induction t with
  | nil => exact Or.inr ⟨by simp, 0, rfl⟩
  | cons c t ih =>
    rcases width_cases c with ⟨h1, h2, h3⟩ | ⟨h1, n, h3⟩
    · exact Or.inl ⟨⟨c, by simp, h1, h2⟩, by simp [encoded, h3, bind, Except.bind]⟩
    · rcases ih with ⟨⟨d, hd, h4⟩, h5⟩ | ⟨h4, m, h5⟩
      · exact Or.inl ⟨⟨d, by simp [hd], h4⟩, by simp [encoded, h3, h5, bind, Except.bind]⟩
      · refine Or.inr ⟨?_, n + m, by simp [encoded, h3, h5, bind, Except.bind]⟩
        intro d hd
        rcases List.mem_cons.mp hd with rfl | hd
        · exact h1
        · exact h4 d hd

theorem total_cases (ls : List PyText) : ∀ acc, ((∃ t ∈ ls, ∃ c ∈ t, 0xD800 ≤ c ∧ c < 0xE000) ∧ total acc ls = .error .valueError) ∨
    ((∀ t ∈ ls, ∀ c ∈ t, ¬ (0xD800 ≤ c ∧ c < 0xE000)) ∧ ∃ n, total acc ls = .ok n) := by
  induction ls with
  | nil => intro acc; exact Or.inr ⟨by simp, acc, rfl⟩
  | cons t ls ih =>
    intro acc
    rcases encoded_cases t with ⟨h1, h2⟩ | ⟨h1, n, h2⟩
    · exact Or.inl ⟨⟨t, by simp, h1⟩, by simp [total, h2, bind, Except.bind]⟩
    · rcases ih (acc + n) with ⟨⟨u, hu, h3⟩, h4⟩ | ⟨h3, m, h4⟩
      · exact Or.inl ⟨⟨u, by simp [hu], h3⟩, by simp [total, h2, h4, bind, Except.bind]⟩
      · refine Or.inr ⟨?_, m, by simp [total, h2, h4, bind, Except.bind]⟩
        intro u hu
        rcases List.mem_cons.mp hu with rfl | hu
        · exact h1
        · exact h3 u hu

theorem expo_unique {x : ℚ} (hx : 0 < x) {e : ℤ} (h1 : (2 : ℚ) ^ e ≤ x) (h2 : x < 2 ^ (e + 1)) : Double.expo x = e := by
  obtain ⟨a, b⟩ := Double.expo_spec hx
  have i1 := (zpow_lt_zpow_iff_right₀ (by norm_num : (1 : ℚ) < 2)).1 (lt_of_le_of_lt a h2)
  have i2 := (zpow_lt_zpow_iff_right₀ (by norm_num : (1 : ℚ) < 2)).1 (lt_of_le_of_lt h1 b)
  omega

theorem dbl_scale {x : ℚ} (hx : 0 < x) (k : ℕ) : Double.dbl (x / 2 ^ k) = Double.dbl x / 2 ^ k := by
  obtain ⟨a, b⟩ := Double.expo_spec hx
  have hk : (0 : ℚ) < 2 ^ k := by positivity
  have two : (2 : ℚ) ≠ 0 := by norm_num
  have he : Double.expo (x / 2 ^ k) = Double.expo x - k := by
    apply expo_unique (div_pos hx hk)
    · rw [le_div_iff₀ hk, ← zpow_natCast, ← zpow_add₀ two]
      simpa using a
    · rw [div_lt_iff₀ hk, ← zpow_natCast, ← zpow_add₀ two]
      rw [show Double.expo x - k + 1 + (k : ℤ) = Double.expo x + 1 by ring]
      exact b
  unfold Double.dbl
  rw [he]
  have e1 : x / 2 ^ k * (2 : ℚ) ^ (52 - (Double.expo x - k)) = x * (2 : ℚ) ^ (52 - Double.expo x) := by
    rw [show 52 - (Double.expo x - (k : ℤ)) = (52 - Double.expo x) + k by ring, zpow_add₀ two, zpow_natCast]
    field_simp
  have e2 : (2 : ℚ) ^ (Double.expo x - k - 52) = (2 : ℚ) ^ (Double.expo x - 52) / 2 ^ k := by
    rw [show Double.expo x - (k : ℤ) - 52 = (Double.expo x - 52) - k by ring, zpow_sub₀ two, zpow_natCast]
  rw [e1, e2, mul_div_assoc]

end Verif.Memory
