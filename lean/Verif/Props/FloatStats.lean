import Verif.Lemmas.FloatStats
import Mathlib.Tactic.NormNum

/-!
# C104: statistics in floating point

Sums, means and variances are exact up to a number of roundings that depends on the number of values and of operations only, whatever the
batches, the merges and the order of the additions inside a batch.
-/

namespace Verif.Props.FloatStats

open Verif.FloatStats Spec.FloatStats

variable {fl : ℚ → ℚ} {u : ℚ}

/-! ## Sums and means -/

theorem run_count (fl : ℚ → ℚ) : ∀ h : Hist, (h.run fl).count = (values h).length
  | .new => rfl
  | .update h b => by
      simp only [Hist.run, Col.update, values, List.length_append, run_count fl h, Batch.count]
  | .merge h h' => by
      simp only [Hist.run, Col.merge, values, List.length_append, run_count fl h, run_count fl h']

theorem batch_sum (hr : Rounds fl u) (t : Tree) : Near u t.depth (size t.leaves) (t.eval fl id) t.leaves.sum := by
  have := t.eval_near hr id id abs 0 fun x _ => Near.refl hr.1 le_rfl
  simpa [size] using this

theorem sum_near (hr : Rounds fl u) : ∀ h : Hist, Near u (adds h) (size (values h)) (h.run fl).sum (values h).sum
  | .new => Near.refl hr.1 (x := 0) (by simp [values, size])
  | .update h b => by
      have h1 := (sum_near hr h).mono hr.1 (k := max (adds h) b.sum.depth) (by omega) le_rfl
      have h2 := (batch_sum hr b.sum).mono hr.1 (k := max (adds h) b.sum.depth) (by omega) le_rfl
      simp only [values, size_append, List.sum_append, adds]
      exact (h1.add h2).round hr
  | .merge h h' => by
      have h1 := (sum_near hr h).mono hr.1 (k := max (adds h) (adds h')) (by omega) le_rfl
      have h2 := (sum_near hr h').mono hr.1 (k := max (adds h) (adds h')) (by omega) le_rfl
      simp only [values, size_append, List.sum_append, adds]
      exact (h1.add h2).round hr

/-- The sum of a column is the sum of its numbers up to the roundings of the additions. -/
theorem C104_sum (hr : Rounds fl u) (h : Hist) :
    |(h.run fl).sum - (values h).sum| ≤ ((1 + u) ^ adds h - 1) * size (values h) := (sum_near hr h).1

theorem mean_near (hr : Rounds fl u) {h : Hist} (hn : values h ≠ []) :
    Near u (adds h + 1) (size (values h) / (values h).length) ((h.run fl).mean fl) (mean (values h)) := by
  have hl : (values h).length ≠ 0 := fun e => hn (List.length_eq_zero_iff.1 e)
  unfold Col.mean
  rw [if_neg (by rwa [run_count]), run_count]
  exact ((sum_near hr h).div (Nat.cast_nonneg _)).round hr

/-- The mean is the mean of the numbers up to one more rounding. -/
theorem C104_mean (hr : Rounds fl u) (h : Hist) (hn : values h ≠ []) :
    |(h.run fl).mean fl - mean (values h)| ≤ ((1 + u) ^ (adds h + 1) - 1) * (size (values h) / (values h).length) :=
  (mean_near hr hn).1

/-- Two columns of the same numbers, however they came about, have nearly the same sum. -/
theorem C104_agree (hr : Rounds fl u) (h h' : Hist) (hp : (values h).Perm (values h')) :
    |(h.run fl).sum - (h'.run fl).sum| ≤ ((1 + u) ^ adds h + (1 + u) ^ adds h' - 2) * size (values h) := by
  have e : size (values h') = size (values h) := ((hp.map abs).sum_eq).symm
  have e' : (values h').sum = (values h).sum := hp.sum_eq.symm
  have h1 := (sum_near hr h).1
  have h2 := (sum_near hr h').1
  rw [e, e'] at h2
  calc |(h.run fl).sum - (h'.run fl).sum| = |((h.run fl).sum - (values h).sum) - ((h'.run fl).sum - (values h).sum)| := by congr 1; ring
    _ ≤ |(h.run fl).sum - (values h).sum| + |(h'.run fl).sum - (values h).sum| := abs_sub _ _
    _ ≤ _ := by linarith

/-- No number goes through more additions than there are numbers and operations. -/
theorem C104_adds : ∀ h : Hist, adds h ≤ (values h).length + operations h
  | .new => le_rfl
  | .update h b => by
      have := C104_adds h
      have := b.sum.depth_lt
      simp only [adds, values, operations, List.length_append]
      omega
  | .merge h h' => by
      have := C104_adds h
      have := C104_adds h'
      simp only [adds, values, operations, List.length_append]
      omega

/-! ## Variances -/

theorem batch_count_pos (b : Batch) : 0 < b.count := b.sum.leaves_pos

theorem mean_le {xs : List ℚ} {A : ℚ} (hn : 0 < xs.length) (h : ∀ x ∈ xs, |x| ≤ A) : size xs / xs.length ≤ A := by
  have : (0 : ℚ) < xs.length := by exact_mod_cast hn
  rw [div_le_iff₀ this]
  exact size_le h

theorem batch_mean (hr : Rounds fl u) {t : Tree} {A : ℚ} (h : ∀ x ∈ t.leaves, |x| ≤ A) :
    Near u (t.depth + 1) A (fl (t.eval fl id / t.leaves.length)) (mean t.leaves) :=
  (((batch_sum hr t).div (Nat.cast_nonneg _)).round hr).mono hr.1 le_rfl (mean_le t.leaves_pos h)

theorem batch_var (hr : Rounds fl u) {b : Batch} {A : ℚ} (h : ∀ x ∈ b.sum.leaves, |x| ≤ A) :
    Near u (batchLoss b) (A ^ 2) (b.var fl) (variance b.sum.leaves) := by
  have hm : ∀ x ∈ b.mean.leaves, |x| ≤ A := fun x hx => h x (b.same.mem_iff.1 hx)
  have hs : ∀ x ∈ b.squares.leaves, |x| ≤ A := fun x hx => h x (b.same'.mem_iff.1 hx)
  have hc : b.count = b.mean.leaves.length := b.same.length_eq.symm
  have hc' : b.count = b.squares.leaves.length := b.same'.length_eq.symm
  have n0 : (0 : ℚ) < b.count := by exact_mod_cast batch_count_pos b
  have avg := batch_mean hr hm
  rw [← hc] at avg
  set m := fl (b.mean.eval fl id / b.count) with hmdef
  have leaf : ∀ x ∈ b.squares.leaves, Near u ((b.mean.depth + 1 + 1) + (b.mean.depth + 1 + 1) + 1) (4 * A ^ 2)
      (fl ((fl (m - x)) ^ 2)) ((mean b.mean.leaves - x) ^ 2) := fun x hx => by
    have d := (avg.sub (Near.refl hr.1 (k := b.mean.depth + 1) (hs x hx))).round hr
    have := (d.sq hr.1).round hr
    rwa [show (A + A) ^ 2 = 4 * A ^ 2 by ring] at this
  have total := b.squares.eval_near hr (fun x => fl ((fl (m - x)) ^ 2)) (fun x => (mean b.mean.leaves - x) ^ 2) (fun _ => 4 * A ^ 2) _ leaf
  have q := (total.div n0.le).round hr
  have e1 : (b.squares.leaves.map fun _ => 4 * A ^ 2).sum / b.count = 4 * A ^ 2 := by
    rw [List.map_const', List.sum_replicate, nsmul_eq_mul, ← hc']
    field_simp
  have e2 : (b.squares.leaves.map fun x => (mean b.mean.leaves - x) ^ 2).sum / b.count = variance b.sum.leaves := by
    rw [← variance_perm b.same', variance, ← hc']
    congr 2
    refine List.map_congr_left fun x _ => ?_
    have : mean b.mean.leaves = mean b.squares.leaves := by
      unfold mean
      rw [(b.same.trans b.same'.symm).sum_eq, (b.same.trans b.same'.symm).length_eq]
    rw [this]
    ring
  rw [e1, e2] at q
  have v0 : |variance b.sum.leaves| ≤ A ^ 2 := by
    rw [abs_of_nonneg (variance_nonneg _)]
    exact variance_le h
  refine (q.quarter hr.1 v0).mono hr.1 ?_ le_rfl
  unfold batchLoss
  omega

theorem four_mul_le (a b : ℚ) (ha : 0 < a) (hb : 0 < b) : 4 * a * b / (a + b) ≤ a + b := by
  rw [div_le_iff₀ (by positivity)]
  nlinarith [sq_nonneg (a - b)]

theorem mergeVar_near (hr : Rounds fl u) {xs ys : List ℚ} {A v₁ m₁ v₂ m₂ : ℚ} {e k : ℕ} (hx : 0 < xs.length) (hy : 0 < ys.length)
    (hA : ∀ x ∈ xs ++ ys, |x| ≤ A) (h1 : Near u k (A ^ 2) v₁ (variance xs)) (h2 : Near u k (A ^ 2) v₂ (variance ys))
    (g1 : Near u e A m₁ (mean xs)) (g2 : Near u e A m₂ (mean ys)) :
    Near u (k + 2 * e + 10) (A ^ 2) (mergeVar fl xs.length v₁ m₁ ys.length v₂ m₂) (variance (xs ++ ys)) := by
  have px : (0 : ℚ) < xs.length := by exact_mod_cast hx
  have py : (0 : ℚ) < ys.length := by exact_mod_cast hy
  have pn : (0 : ℚ) < ((xs.length + ys.length : ℕ) : ℚ) := by push_cast; positivity
  unfold mergeVar
  rw [if_neg (by omega), if_neg (by omega)]
  have delta := (g2.sub g1).round hr
  have c := (((((((delta.sq hr.1).round hr).scale px.le).round hr).scale py.le).round hr).div pn.le).round hr
  have s := (((h1.scale px.le).round hr).add ((h2.scale py.le).round hr)).round hr
  have eqn := variance_append hx hy
  have v1 : |variance (xs ++ ys) * ((xs.length + ys.length : ℕ) : ℚ)| ≤ A ^ 2 * ((xs.length + ys.length : ℕ) : ℚ) := by
    rw [abs_of_nonneg (mul_nonneg (variance_nonneg _) pn.le)]
    exact mul_le_mul_of_nonneg_right (variance_le hA) pn.le
  rw [eqn] at v1
  have cb : (A + A) ^ 2 * xs.length * ys.length / ((xs.length + ys.length : ℕ) : ℚ) ≤ A ^ 2 * ((xs.length + ys.length : ℕ) : ℚ) := by
    have := mul_le_mul_of_nonneg_left (four_mul_le _ _ px py) (sq_nonneg A)
    push_cast
    calc (A + A) ^ 2 * xs.length * ys.length / ((xs.length : ℚ) + ys.length) = A ^ 2 * (4 * xs.length * ys.length / (xs.length + ys.length)) := by ring
      _ ≤ _ := this
  have sb : A ^ 2 * (xs.length : ℚ) + A ^ 2 * ys.length ≤ A ^ 2 * ((xs.length + ys.length : ℕ) : ℚ) := by push_cast; linarith
  have j := (((s.join hr.1 c sb cb v1).round hr).div pn.le).round hr
  rw [← eqn, mul_div_cancel_right₀ _ pn.ne', mul_div_cancel_right₀ _ pn.ne'] at j
  exact j.mono hr.1 (by omega) le_rfl

theorem var_near (hr : Rounds fl u) {A : ℚ} : ∀ h : Hist, (∀ x ∈ values h, |x| ≤ A) →
    Near u (loss h) (A ^ 2) (h.run fl).var (variance (values h))
  | .new, _ => by
      have : variance (values .new) = 0 := by simp [values, variance]
      rw [this]
      exact Near.refl hr.1 (x := 0) (by rw [abs_zero]; positivity)
  | .update h b, hA => by
      have hA1 : ∀ x ∈ values h, |x| ≤ A := fun x hx => hA x (List.mem_append_left _ hx)
      have hA2 : ∀ x ∈ b.sum.leaves, |x| ≤ A := fun x hx => hA x (List.mem_append_right _ hx)
      have ih := var_near hr h hA1
      have bv := batch_var hr hA2
      have lo : loss (.update h b) = max (loss h) (batchLoss b) + 2 * adds (.update h b) + 10 := rfl
      simp only [Hist.run, Col.update, values, run_count]
      rcases Nat.eq_zero_or_pos (values h).length with h0 | h0
      · rw [List.length_eq_zero_iff.1 h0, List.nil_append, mergeVar, if_pos (by simp)]
        exact bv.mono hr.1 (by omega) le_rfl
      · have g1 := (mean_near hr (h := h) (fun e => by rw [e] at h0; simp at h0)).mono hr.1 (k := adds (.update h b))
          (by simp only [adds]; omega) (mean_le h0 hA1)
        have g2 := (batch_mean hr hA2).mono hr.1 (k := adds (.update h b)) (by simp only [adds]; omega) le_rfl
        have := mergeVar_near hr h0 b.sum.leaves_pos hA (ih.mono hr.1 (k := max (loss h) (batchLoss b)) (by omega) le_rfl)
          (bv.mono hr.1 (k := max (loss h) (batchLoss b)) (by omega) le_rfl) g1 g2
        exact this
  | .merge h h', hA => by
      have hA1 : ∀ x ∈ values h, |x| ≤ A := fun x hx => hA x (List.mem_append_left _ hx)
      have hA2 : ∀ x ∈ values h', |x| ≤ A := fun x hx => hA x (List.mem_append_right _ hx)
      have ih := var_near hr h hA1
      have ih' := var_near hr h' hA2
      have lo : loss (.merge h h') = max (loss h) (loss h') + 2 * adds (.merge h h') + 10 := rfl
      simp only [Hist.run, Col.merge, values, run_count]
      rcases Nat.eq_zero_or_pos (values h).length with h0 | h0
      · rw [List.length_eq_zero_iff.1 h0, List.nil_append, mergeVar, if_pos (by simp)]
        exact ih'.mono hr.1 (by omega) le_rfl
      · rcases Nat.eq_zero_or_pos (values h').length with h0' | h0'
        · rw [List.length_eq_zero_iff.1 h0', List.append_nil, mergeVar, if_neg (by omega), if_pos (by simp)]
          exact ih.mono hr.1 (by omega) le_rfl
        · have g1 := (mean_near hr (h := h) (fun e => by rw [e] at h0; simp at h0)).mono hr.1 (k := adds (.merge h h'))
            (by simp only [adds]; omega) (mean_le h0 hA1)
          have g2 := (mean_near hr (h := h') (fun e => by rw [e] at h0'; simp at h0')).mono hr.1 (k := adds (.merge h h'))
            (by simp only [adds]; omega) (mean_le h0' hA2)
          exact mergeVar_near hr h0 h0' hA (ih.mono hr.1 (k := max (loss h) (loss h')) (by omega) le_rfl)
            (ih'.mono hr.1 (k := max (loss h) (loss h')) (by omega) le_rfl) g1 g2

/-- The variance without correction is the variance of the numbers up to `loss h` roundings relative to the square of the largest number. -/
theorem C104_variance (hr : Rounds fl u) (h : Hist) {A : ℚ} (hA : ∀ x ∈ values h, |x| ≤ A) :
    |(h.run fl).var - variance (values h)| ≤ ((1 + u) ^ loss h - 1) * A ^ 2 := (var_near hr h hA).1

theorem loss_le : ∀ h : Hist, loss h ≤ 12 * (values h).length + 12 + operations h * (2 * ((values h).length + operations h) + 10)
  | .new => by simp [loss]
  | .update h b => by
      have ih := loss_le h
      have ad := C104_adds (.update h b)
      have d2 := b.mean.depth_lt
      have d3 := b.squares.depth_lt
      rw [b.same.length_eq] at d2
      rw [b.same'.length_eq] at d3
      have lo : loss (.update h b) = max (loss h) (batchLoss b) + 2 * adds (.update h b) + 10 := rfl
      simp only [values, operations, List.length_append] at ad ⊢
      rw [lo]
      have hb : batchLoss b ≤ 12 * b.sum.leaves.length + 12 := by unfold batchLoss; omega
      have mono : operations h * (2 * ((values h).length + operations h) + 10) ≤
          operations h * (2 * ((values h).length + b.sum.leaves.length + (operations h + 1)) + 10) := Nat.mul_le_mul_left _ (by omega)
      rw [Nat.add_mul (operations h) 1, Nat.one_mul]
      generalize operations h * (2 * ((values h).length + operations h) + 10) = P at ih mono
      generalize operations h * (2 * ((values h).length + b.sum.leaves.length + (operations h + 1)) + 10) = Q at mono ⊢
      omega
  | .merge h h' => by
      have ih := loss_le h
      have ih' := loss_le h'
      have ad := C104_adds (.merge h h')
      have lo : loss (.merge h h') = max (loss h) (loss h') + 2 * adds (.merge h h') + 10 := rfl
      simp only [values, operations, List.length_append] at ad ⊢
      rw [lo]
      set N := (values h).length + (values h').length
      set K := operations h + operations h'
      have m1 : operations h * (2 * ((values h).length + operations h) + 10) ≤ K * (2 * (N + (K + 1)) + 10) :=
        Nat.mul_le_mul (by omega) (by omega)
      have m2 : operations h' * (2 * ((values h').length + operations h') + 10) ≤ K * (2 * (N + (K + 1)) + 10) :=
        Nat.mul_le_mul (by omega) (by omega)
      rw [Nat.add_mul K 1, Nat.one_mul]
      generalize operations h * (2 * ((values h).length + operations h) + 10) = P at ih m1
      generalize operations h' * (2 * ((values h').length + operations h') + 10) = P' at ih' m2
      generalize K * (2 * (N + (K + 1)) + 10) = Q at m1 m2 ⊢
      omega

/-- The number of roundings depends on the number of values and of operations only. -/
theorem C104_loss (h : Hist) (N K : ℕ) (hN : (values h).length ≤ N) (hK : operations h ≤ K) :
    adds h ≤ N + K ∧ loss h ≤ 12 * N + 12 + K * (2 * (N + K) + 10) := by
  refine ⟨(C104_adds h).trans (by omega), (loss_le h).trans ?_⟩
  have : operations h * (2 * ((values h).length + operations h) + 10) ≤ K * (2 * (N + K) + 10) := Nat.mul_le_mul hK (by omega)
  omega

/-- As long as there are few roundings for the precision, their effect is at most twice their number times the precision. -/
theorem C104_small (hu : 0 ≤ u) (hu1 : u < 1) (L : ℕ) (h : L * u ≤ 1 / 2) : (1 + u) ^ L - 1 ≤ 2 * L * u := by
  have b : 1 + (L : ℚ) * (-u) ≤ (1 + -u) ^ L := one_add_mul_le_pow (by linarith) L
  have p : (1 + u) ^ L * (1 + -u) ^ L ≤ 1 := by
    rw [← mul_pow]
    exact pow_le_one₀ (by nlinarith) (by nlinarith)
  have g : 0 ≤ (1 + u) ^ L := by positivity
  have : (1 + u) ^ L * (1 - L * u) ≤ 1 := by nlinarith
  have lu : 0 ≤ (L : ℚ) * u := by positivity
  nlinarith

/-- Variances are never negative, so that standard deviations are numbers. -/
theorem C104_nonneg (hr : Rounds fl u) : ∀ h : Hist, 0 ≤ (h.run fl).var := by
  have bv : ∀ b : Batch, 0 ≤ b.var fl := fun b => by
    refine rounds_nonneg hr (div_nonneg (b.squares.eval_nonneg (fun _ => rounds_nonneg hr) _ fun x => rounds_nonneg hr (sq_nonneg _)) (Nat.cast_nonneg _))
  have mv : ∀ n₁ v₁ m₁ n₂ v₂ m₂, 0 ≤ v₁ → 0 ≤ v₂ → 0 ≤ mergeVar fl n₁ v₁ m₁ n₂ v₂ m₂ := fun n₁ v₁ m₁ n₂ v₂ m₂ h1 h2 => by
    unfold mergeVar
    split_ifs
    · exact h2
    · exact h1
    · have c : ∀ k : ℕ, (0 : ℚ) ≤ k := fun k => Nat.cast_nonneg k
      refine rounds_nonneg hr (div_nonneg (rounds_nonneg hr (add_nonneg (rounds_nonneg hr (add_nonneg (rounds_nonneg hr (mul_nonneg h1 (c _)))
        (rounds_nonneg hr (mul_nonneg h2 (c _))))) (rounds_nonneg hr (div_nonneg ?_ (c _))))) (c _))
      exact rounds_nonneg hr (mul_nonneg (rounds_nonneg hr (mul_nonneg (rounds_nonneg hr (sq_nonneg _)) (c _))) (c _))
  intro h
  induction h with
  | new => exact le_rfl
  | update h b ih => exact mv _ _ _ _ _ _ ih (bv b)
  | merge h h' ih ih' => exact mv _ _ _ _ _ _ ih ih'

/-- The corrected variance: it exists from two numbers on, is never negative and is `n / (n - 1)` times the variance up to two more
roundings. -/
theorem C104_corrected (hr : Rounds fl u) (h : Hist) {A : ℚ} (hA : ∀ x ∈ values h, |x| ≤ A) :
    ((values h).length < 2 → (h.run fl).corrected fl = none) ∧
    (2 ≤ (values h).length → ∃ v, (h.run fl).corrected fl = some v ∧ 0 ≤ v ∧
      |v - (values h).length / ((values h).length - 1) * variance (values h)| ≤
        ((1 + u) ^ (loss h + 2) - 1) * ((values h).length / ((values h).length - 1) * A ^ 2)) := by
  unfold Col.corrected
  rw [run_count]
  refine ⟨fun hl => if_pos hl, fun hl => ⟨_, if_neg (by omega), ?_, ?_⟩⟩
  · exact rounds_nonneg hr (mul_nonneg (rounds_nonneg hr (div_nonneg (Nat.cast_nonneg _) (Nat.cast_nonneg _))) (C104_nonneg hr h))
  · have e : (((values h).length - 1 : ℕ) : ℚ) = ((values h).length : ℚ) - 1 := by push_cast [show 1 ≤ (values h).length by omega]; ring
    rw [← e]
    have q : (0 : ℚ) ≤ ((values h).length : ℚ) / (((values h).length - 1 : ℕ) : ℚ) := div_nonneg (Nat.cast_nonneg _) (Nat.cast_nonneg _)
    have f := (Near.refl hr.1 (k := 0) (A := ((values h).length : ℚ) / (((values h).length - 1 : ℕ) : ℚ))
      (x := ((values h).length : ℚ) / (((values h).length - 1 : ℕ) : ℚ)) (by rw [abs_of_nonneg q])).round hr
    have := ((f.mul hr.1 (var_near hr h hA)).round hr).mono hr.1 (k := loss h + 2) (by omega) le_rfl
    exact this.1

/-! ## Doubles -/

/-- Doubles round with a relative error of 2^-53. -/
theorem C104_double : Rounds double (1 / 2 ^ 53) := by
  refine ⟨by norm_num, by norm_num, fun x => ?_⟩
  unfold double
  split_ifs with h0 hn
  · simp [h0]
  · have := Double.dbl_error (x := -x) (by linarith)
    rw [abs_of_neg hn, show -Double.dbl (-x) - x = -(Double.dbl (-x) - -x) by ring, abs_neg]
    linarith
  · have hp : 0 < x := lt_of_le_of_ne (not_lt.1 hn) (Ne.symm h0)
    have := Double.dbl_error hp
    rw [abs_of_pos hp]
    linarith

/-- Integers below 2^53 are doubles. -/
theorem double_int (z : ℤ) (h : |z| < 2 ^ 53) : double z = z := by
  unfold double
  split_ifs with h0 hn
  · exact h0.symm
  · have hz : z < 0 := by exact_mod_cast hn
    rw [abs_of_neg hz] at h
    have := Double.dbl_nat (k := (-z).toNat) (by omega) (by omega)
    have e : (((-z).toNat : ℕ) : ℚ) = -(z : ℚ) := by
      have : ((-z).toNat : ℤ) = -z := by omega
      exact_mod_cast congrArg (fun t : ℤ => (t : ℚ)) this
    rw [e] at this
    rw [this]
    ring
  · have hz : 0 < z := lt_of_le_of_ne (by exact_mod_cast not_lt.1 hn) (fun e => h0 (by rw [← e]; simp))
    rw [abs_of_pos hz] at h
    have := Double.dbl_nat (k := z.toNat) (by omega) (by omega)
    have e : ((z.toNat : ℕ) : ℚ) = (z : ℚ) := by
      have : (z.toNat : ℤ) = z := by omega
      exact_mod_cast congrArg (fun t : ℤ => (t : ℚ)) this
    rwa [e] at this

/-- An integer whose size is at most that of the numbers it is the sum of. -/
def Whole (xs : List ℚ) (s : ℚ) : Prop := s = xs.sum ∧ ∃ z : ℤ, s = z

theorem whole_add {xs ys : List ℚ} {s t : ℚ} (hx : Whole xs s) (hy : Whole ys t) (hb : size (xs ++ ys) < 2 ^ 53) :
    Whole (xs ++ ys) (double (s + t)) := by
  obtain ⟨e, z, hz⟩ := hx
  obtain ⟨e', w, hw⟩ := hy
  have eq : s + t = (xs ++ ys).sum := by rw [List.sum_append, e, e']
  have ez : s + t = ((z + w : ℤ) : ℚ) := by push_cast; rw [hz, hw]
  have : |((z + w : ℤ) : ℚ)| < 2 ^ 53 := by
    rw [← ez, eq]
    exact lt_of_le_of_lt (abs_sum_le _) hb
  have d := double_int (z + w) (by exact_mod_cast this)
  rw [← ez] at d
  rw [d]
  exact ⟨eq, _, ez⟩

theorem size_nonneg (xs : List ℚ) : 0 ≤ size xs := List.sum_nonneg fun y hy => by
  obtain ⟨x, -, rfl⟩ := List.mem_map.1 hy
  exact abs_nonneg x

theorem tree_whole : ∀ t : Tree, (∀ x ∈ t.leaves, ∃ z : ℤ, x = z) → size t.leaves < 2 ^ 53 → Whole t.leaves (t.eval double id)
  | .leaf x, h, _ => by
      obtain ⟨z, hz⟩ := h x (List.mem_singleton.2 rfl)
      exact ⟨by simp [Tree.leaves, Tree.eval], z, hz⟩
  | .node l r, h, hb => by
      have hb' : size l.leaves + size r.leaves < 2 ^ 53 := by rw [← size_append]; exact hb
      have := size_nonneg l.leaves
      have := size_nonneg r.leaves
      exact whole_add (tree_whole l (fun x hx => h x (List.mem_append_left _ hx)) (by linarith))
        (tree_whole r (fun x hx => h x (List.mem_append_right _ hx)) (by linarith)) hb

/-- Sums of integers whose absolute values add up to less than 2^53 are exact, in whatever batches and order. -/
theorem C104_integers (h : Hist) (hz : ∀ x ∈ values h, ∃ z : ℤ, x = z) (hb : size (values h) < 2 ^ 53) :
    (h.run double).sum = (values h).sum := by
  suffices ∀ h : Hist, (∀ x ∈ values h, ∃ z : ℤ, x = z) → size (values h) < 2 ^ 53 → Whole (values h) (h.run double).sum from
    (this h hz hb).1
  intro h
  induction h with
  | new => exact fun _ _ => ⟨rfl, 0, rfl⟩
  | update h b ih =>
      intro hz hb
      have hb' : size (values h) + size b.sum.leaves < 2 ^ 53 := by rw [← size_append]; exact hb
      have := size_nonneg (values h)
      have := size_nonneg b.sum.leaves
      exact whole_add (ih (fun x hx => hz x (List.mem_append_left _ hx)) (by linarith))
        (tree_whole _ (fun x hx => hz x (List.mem_append_right _ hx)) (by linarith)) hb
  | merge h h' ih ih' =>
      intro hz hb
      have hb' : size (values h) + size (values h') < 2 ^ 53 := by rw [← size_append]; exact hb
      have := size_nonneg (values h)
      have := size_nonneg (values h')
      exact whole_add (ih (fun x hx => hz x (List.mem_append_left _ hx)) (by linarith))
        (ih' (fun x hx => hz x (List.mem_append_right _ hx)) (by linarith)) hb

/-- A batch whose three sums use the same order. -/
def plainBatch (t : Tree) : Batch := ⟨t, t, t, .refl _, .refl _⟩

/-- Profiling a million numbers in a hundred batches loses at most a millionth of the largest square. -/
example (h : Hist) {A : ℚ} (hA : ∀ x ∈ values h, |x| ≤ A) (hN : (values h).length ≤ 10 ^ 6) (hK : operations h ≤ 100) :
    |(h.run double).var - variance (values h)| ≤ 1 / 10 ^ 6 * A ^ 2 := by
  have l := (C104_loss h _ _ hN hK).2
  have l' : (loss h : ℚ) ≤ 212032012 := by exact_mod_cast l.trans (by norm_num)
  refine (C104_variance C104_double h hA).trans (mul_le_mul_of_nonneg_right ?_ (sq_nonneg _))
  refine (C104_small (by norm_num) (by norm_num) _ ?_).trans ?_
  · calc (loss h : ℚ) * (1 / 2 ^ 53) ≤ 212032012 * (1 / 2 ^ 53) := by gcongr
      _ ≤ 1 / 2 := by norm_num
  · calc 2 * (loss h : ℚ) * (1 / 2 ^ 53) ≤ 2 * 212032012 * (1 / 2 ^ 53) := by gcongr
      _ ≤ _ := by norm_num

/-- Non-vacuity: three numbers in two batches. -/
example : (Hist.run double (.update (.update .new (plainBatch (.node (.leaf 1) (.leaf 3)))) (plainBatch (.leaf 5)))).sum = 9 ∧
    (Hist.run double (.update (.update .new (plainBatch (.node (.leaf 1) (.leaf 3)))) (plainBatch (.leaf 5)))).mean double = 3 ∧
    0 < (Hist.run double (.update (.update .new (plainBatch (.node (.leaf 1) (.leaf 3)))) (plainBatch (.leaf 5)))).var := by
  decide +kernel

/-- The same numbers in other batches can have another sum. -/
theorem C104_batches_fails :
    let h : Hist := .update (.update (.update .new (plainBatch (.leaf (2 ^ 53)))) (plainBatch (.leaf 1))) (plainBatch (.leaf 1))
    let h' : Hist := .update (.update .new (plainBatch (.leaf (2 ^ 53)))) (plainBatch (.node (.leaf 1) (.leaf 1)))
    values h = values h' ∧ (h.run double).sum = 2 ^ 53 ∧ (h'.run double).sum = 2 ^ 53 + 2 := by
  decide +kernel

/-- The double nearest to a tenth. -/
def tenth : ℚ := 3602879701896397 / 36028797018963968

/-- A column that holds one number three times has a mean above its largest number and a variance above zero. -/
theorem C104_constant_fails :
    let h : Hist := .update .new (plainBatch (.node (.node (.leaf tenth) (.leaf tenth)) (.leaf tenth)))
    double tenth = tenth ∧ values h = [tenth, tenth, tenth] ∧ tenth < (h.run double).mean double ∧ 0 < (h.run double).var := by
  decide +kernel

end Verif.Props.FloatStats
