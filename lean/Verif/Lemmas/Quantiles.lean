import Verif.Model.Quantiles
import Verif.Spec.Quantiles
import Verif.Lemmas.Double
import Mathlib.Tactic.Ring

/-!
# Lemmas on picking quantiles
-/

namespace Verif.Quantiles

open Verif QuantilesSpec

variable {rnd : ℚ → ℚ}

/-- The first stored quantile that is not below quantile `i`. -/
def best (g n i : ℕ) : ℕ := ((i + 1) * (n + 1) + (g - 1)) / g - 1

theorem best_bounds {g n i : ℕ} (hg : 0 < g) :
    best g n i * g < (i + 1) * (n + 1) ∧ (i + 1) * (n + 1) ≤ (best g n i + 1) * g := by
  have hpos : 0 < (i + 1) * (n + 1) := by positivity
  unfold best
  generalize (i + 1) * (n + 1) = a at *
  have h1 : g ≤ a + (g - 1) := by omega
  have h2 : 1 ≤ (a + (g - 1)) / g := (Nat.one_le_div_iff hg).2 h1
  have h3 := Nat.div_mul_le_self (a + (g - 1)) g
  have h4 := Nat.lt_div_mul_add hg (a := a + (g - 1))
  generalize (a + (g - 1)) / g = q at *
  obtain ⟨q, rfl⟩ : ∃ r, q = r + 1 := ⟨q - 1, by omega⟩
  simp only [Nat.add_sub_cancel]
  rw [Nat.add_mul] at h3 h4 ⊢
  constructor <;> omega

theorem best_spec {g n i : ℕ} (hg : 0 < g) : Best g n i (best g n i) := by
  obtain ⟨h1, h2⟩ := best_bounds (n := n) (i := i) hg
  have hgq : (0 : ℚ) < (g : ℚ) := by exact_mod_cast hg
  have hnq : (0 : ℚ) < ((n + 1 : ℕ) : ℚ) := by positivity
  refine ⟨?_, fun j hj => ?_⟩
  · rw [div_le_div_iff₀ hgq hnq]; exact_mod_cast h2
  · rw [div_le_div_iff₀ hgq hnq] at hj
    have hj' : (i + 1) * (n + 1) ≤ (j + 1) * g := by exact_mod_cast hj
    have : best g n i * g < (j + 1) * g := lt_of_lt_of_le h1 hj'
    exact Nat.lt_succ_iff.1 (Nat.lt_of_mul_lt_mul_right this)

theorem Best.unique {g n i k l : ℕ} (hk : Best g n i k) (hl : Best g n i l) : k = l :=
  le_antisymm (hk.2 _ hl.1) (hl.2 _ hk.1)

/-- The rounded product is close to the exact one. -/
theorem rounded_close (hr : Rounding rnd) {g n i : ℕ} (hg : 0 < g) (hgn : g ≤ n + 1) (hi : i + 1 < g) (hn : n + 1 ≤ 2 ^ 25) :
    |rnd (((i + 1 : ℕ) : ℚ) * rnd (((n + 1 : ℕ) : ℚ) / (g : ℚ))) - (((i + 1) * (n + 1) : ℕ) : ℚ) / (g : ℚ)| <
      1 / (g : ℚ) := by
  have hgq : (0 : ℚ) < (g : ℚ) := by exact_mod_cast hg
  have hnq : (0 : ℚ) < ((n + 1 : ℕ) : ℚ) := by positivity
  have hiq : (0 : ℚ) < ((i + 1 : ℕ) : ℚ) := by positivity
  have hgn' : (g : ℚ) ≤ 2 ^ 25 := by exact_mod_cast le_trans hgn hn
  have hi' : ((i + 1 : ℕ) : ℚ) ≤ (g : ℚ) := by exact_mod_cast hi.le
  have hn' : ((n + 1 : ℕ) : ℚ) ≤ 2 ^ 25 := by exact_mod_cast hn
  push_cast [Nat.cast_mul]
  push_cast at hi' hn' hiq hnq
  set a : ℚ := (i : ℚ) + 1
  set b : ℚ := (n : ℚ) + 1
  set x : ℚ := b / (g : ℚ) with hx
  have hxp : 0 < x := div_pos hnq hgq
  have e1 := hr.error x hxp
  rw [abs_le] at e1
  have hm : 0 < rnd x := by
    have : x / 2 ^ 53 < x := by rw [div_lt_iff₀ (by norm_num)]; linarith
    linarith [e1.1]
  have hm2 : rnd x ≤ 2 * x := by
    have : x / 2 ^ 53 < x := by rw [div_lt_iff₀ (by norm_num)]; linarith
    linarith [e1.2]
  have e2 := hr.error (a * rnd x) (mul_pos hiq hm)
  rw [abs_le] at e2
  have hab : a * b / (g : ℚ) = a * x := by rw [hx, mul_div_assoc]
  rw [hab]
  have hax : a * x ≤ b := by
    rw [hx]
    calc a * (b / (g : ℚ)) ≤ (g : ℚ) * (b / (g : ℚ)) := mul_le_mul_of_nonneg_right hi' hxp.le
      _ = b := by field_simp
  have f1 : a * rnd x ≤ 2 * (a * x) := by nlinarith
  have f2 : a * rnd x - a * x ≤ a * x / 2 ^ 53 := by
    have := mul_le_mul_of_nonneg_left e1.2 hiq.le
    calc a * rnd x - a * x = a * (rnd x - x) := by ring
      _ ≤ a * (x / 2 ^ 53) := this
      _ = _ := by ring
  have f3 : -(a * x / 2 ^ 53) ≤ a * rnd x - a * x := by
    have := mul_le_mul_of_nonneg_left e1.1 hiq.le
    calc -(a * x / 2 ^ 53) = a * -(x / 2 ^ 53) := by ring
      _ ≤ a * (rnd x - x) := this
      _ = _ := by ring
  have hlt : 3 * (a * x) / 2 ^ 53 < 1 / (g : ℚ) := by
    rw [div_lt_div_iff₀ (by norm_num) hgq]
    have h1 : 3 * (a * x) * (g : ℚ) ≤ 3 * 2 ^ 25 * 2 ^ 25 := by
      have : a * x * (g : ℚ) ≤ 2 ^ 25 * 2 ^ 25 :=
        mul_le_mul (le_trans hax hn') hgn' hgq.le (by norm_num)
      nlinarith
    linarith [show (3 * 2 ^ 25 * 2 ^ 25 : ℚ) < 2 ^ 53 by norm_num]
  rw [abs_lt]
  constructor <;> linarith [e2.1, e2.2]

/-- The picked index is the best one, or the next one if the best one is exact. -/
theorem index_eq (hr : Rounding rnd) {g n i : ℕ} (hg : 0 < g) (hgn : g ≤ n + 1) (hi : i + 1 < g) (hn : n + 1 ≤ 2 ^ 25) :
    index rnd g n i = best g n i ∨
      (index rnd g n i = best g n i + 1 ∧ (i + 1) * (n + 1) = (best g n i + 1) * g ∧ ¬g ∣ n + 1) := by
  have hgq : (0 : ℚ) < (g : ℚ) := by exact_mod_cast hg
  by_cases hd : g ∣ n + 1
  · obtain ⟨m, hm⟩ := hd
    left
    have hm0 : 0 < m := by rcases m with _ | m <;> omega
    have e1 : (((n + 1 : ℕ) : ℚ) / (g : ℚ)) = (m : ℚ) := by
      rw [hm]; push_cast; field_simp
    have hlt : m ≤ n + 1 := by rw [hm]; exact Nat.le_mul_of_pos_left m hg
    have him : (i + 1) * m ≤ n + 1 := by rw [hm]; exact Nat.mul_le_mul_right m hi.le
    unfold index
    rw [e1, hr.nat m hm0 (by omega), ← Nat.cast_mul, hr.nat _ (by positivity) (by omega)]
    obtain ⟨h1, h2⟩ := best_bounds (n := n) (i := i) hg
    rw [hm, Nat.mul_left_comm] at h1 h2
    rw [Nat.mul_comm g] at h1 h2
    have h1' := Nat.lt_of_mul_lt_mul_right h1
    have h2' := Nat.le_of_mul_le_mul_right h2 hg
    rw [Int.ceil_natCast]
    omega
  have hc := rounded_close hr hg hgn hi hn
  obtain ⟨h1, h2⟩ := best_bounds (n := n) (i := i) hg
  unfold index
  generalize rnd (((i + 1 : ℕ) : ℚ) * rnd (((n + 1 : ℕ) : ℚ) / (g : ℚ))) = p at hc ⊢
  generalize (i + 1) * (n + 1) = a at *
  generalize best g n i = k at *
  rw [abs_lt] at hc
  have h1q : ((k : ℚ) * g + 1) / g ≤ (a : ℚ) / g := by
    have : (k : ℚ) * g + 1 ≤ a := by exact_mod_cast h1
    gcongr
  have h1e : ((k : ℚ) * g + 1) / g = k + 1 / g := by field_simp
  have h2q : (a : ℚ) / g ≤ k + 1 := by
    rw [div_le_iff₀ hgq]; exact_mod_cast h2
  have hg1 : 1 / (g : ℚ) ≤ 1 := by
    rw [div_le_one hgq]; exact_mod_cast hg
  have low : (k : ℤ) + 1 ≤ ⌈p⌉ := by
    have : (k : ℤ) < ⌈p⌉ := Int.lt_ceil.2 (by push_cast; linarith [hc.1])
    omega
  have up : ⌈p⌉ ≤ (k : ℤ) + 2 := Int.ceil_le.2 (by push_cast; linarith [hc.2])
  by_cases he : a = (k + 1) * g
  · rcases Int.lt_or_le ((k : ℤ) + 1) ⌈p⌉ with h | h
    · exact Or.inr ⟨by omega, he, hd⟩
    · exact Or.inl (by omega)
  · left
    have h3 : a + 1 ≤ (k + 1) * g := by omega
    have h3q : (a : ℚ) / g ≤ ((k : ℚ) + 1) - 1 / g := by
      rw [div_le_iff₀ hgq, sub_mul, one_div, inv_mul_cancel₀ hgq.ne']
      have : (a : ℚ) + 1 ≤ (k + 1) * g := by exact_mod_cast h3
      linarith
    have : ⌈p⌉ ≤ (k : ℤ) + 1 := Int.ceil_le.2 (by push_cast; linarith [hc.2])
    omega

theorem index_nonneg (hr : Rounding rnd) {g n i : ℕ} (hg : 0 < g) (hgn : g ≤ n + 1) (hi : i + 1 < g)
    (hn : n + 1 ≤ 2 ^ 25) : 0 ≤ index rnd g n i := by
  rcases index_eq hr hg hgn hi hn with h | h <;> omega

/-- The picked index exists. -/
theorem index_lt (hr : Rounding rnd) {g n i : ℕ} (hg : 0 < g) (hgn : g ≤ n + 1) (hi : i + 1 < g) (hn : n + 1 ≤ 2 ^ 25) :
    index rnd g n i < n := by
  obtain ⟨h1, h2⟩ := best_bounds (n := n) (i := i) hg
  have hin : (i + 1) * (n + 1) + (n + 1) ≤ g * (n + 1) := by
    have := Nat.mul_le_mul_right (n + 1) (show i + 1 + 1 ≤ g from hi)
    rwa [Nat.add_mul (i + 1) 1, one_mul] at this
  rcases index_eq hr hg hgn hi hn with h | ⟨h, he, hd⟩
  · rw [h]
    have : (best g n i + 1) * g < (n + 1) * g := by
      rw [Nat.add_mul, one_mul, Nat.mul_comm (n + 1)]
      omega
    have := Nat.lt_of_mul_lt_mul_right this
    omega
  · rw [h]
    have hne : g ≠ n + 1 := fun h => hd (h ▸ dvd_refl _)
    have : (best g n i + 1 + 1) * g < (n + 1) * g := by
      rw [Nat.add_mul, one_mul, ← he, Nat.mul_comm (n + 1)]
      omega
    have := Nat.lt_of_mul_lt_mul_right this
    omega

/-- The picked indices increase strictly. -/
theorem index_lt_succ (hr : Rounding rnd) {g n i : ℕ} (hg : 0 < g) (hgn : g ≤ n + 1) (hi : i + 1 + 1 < g)
    (hn : n + 1 ≤ 2 ^ 25) : index rnd g n i < index rnd g n (i + 1) := by
  obtain ⟨h1, h2⟩ := best_bounds (n := n) (i := i) hg
  obtain ⟨h3, h4⟩ := best_bounds (n := n) (i := i + 1) hg
  rw [Nat.add_mul (i + 1) 1, one_mul] at h3 h4
  have hge : (best g n (i + 1) : ℤ) ≤ index rnd g n (i + 1) := by
    rcases index_eq hr hg hgn hi hn with h | h <;> omega
  rcases index_eq hr hg hgn (by omega : i + 1 < g) hn with h | ⟨h, he, hd⟩
  · rw [h]
    have : (best g n i + 1) * g < (best g n (i + 1) + 1) * g := by
      rw [Nat.add_mul, one_mul]; omega
    have := Nat.lt_of_mul_lt_mul_right this
    omega
  · rw [h]
    have hne : g ≠ n + 1 := fun h => hd (h ▸ dvd_refl _)
    have : (best g n i + 1 + 1) * g < (best g n (i + 1) + 1) * g := by
      rw [Nat.add_mul, one_mul, ← he]; omega
    have := Nat.lt_of_mul_lt_mul_right this
    omega

theorem index_strict (hr : Rounding rnd) {g n : ℕ} (hg : 0 < g) (hgn : g ≤ n + 1) (hn : n + 1 ≤ 2 ^ 25) {i j : ℕ}
    (hij : i < j) (hj : j + 1 < g) : index rnd g n i < index rnd g n j := by
  induction j with
  | zero => omega
  | succ j ih =>
      rcases Nat.lt_succ_iff_lt_or_eq.1 hij with h | h
      · exact lt_trans (ih h (by omega)) (index_lt_succ hr hg hgn hj hn)
      · subst h; exact index_lt_succ hr hg hgn hj hn

/-- A list of successful steps. -/
theorem mapM_ok {α β : Type*} {f : α → Except Err β} {g : α → β} {l : List α} (h : ∀ a ∈ l, f a = .ok (g a)) :
    l.mapM f = .ok (l.map g) := by
  induction l with
  | nil => rfl
  | cons a l ih =>
      rw [List.mapM_cons, h a (List.mem_cons_self ..), ih fun b hb => h b (List.mem_cons_of_mem _ hb)]
      rfl

end Verif.Quantiles
