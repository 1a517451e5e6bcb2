import Mathlib.Tactic.Linarith
import Mathlib.Tactic.Positivity
import Mathlib.Tactic.NormNum
import Mathlib.Algebra.Order.Floor.Ring
import Verif.Model.Pool

/-! # C47: pool size -/

namespace Verif.Pool

open Verif

/-- **C47** (partial) On every machine with at least one CPU and some free memory, the suggested number of
workers is `None` exactly when no data size is given; otherwise it is non-negative, leaves one CPU
free, never exceeds the number of columns, nor the memory figure. Missing from the full claim: it may
be 0 (`C47_zero_fails`). -/
theorem C47_suggestion_bounds_partial (m : Machine) (dataSize cols : Option ℕ)
    (hav : ∀ av, m.available = some av → 0 < av) (hcpu : ∀ c, m.cpus = some c → 1 ≤ c) :
    (suggestPoolSize m dataSize cols = none ↔ dataSize = none) ∧
    ∀ s, suggestPoolSize m dataSize cols = some s →
      0 ≤ s ∧
      (∀ c, m.cpus = some c → s ≤ (c : ℤ) - 1) ∧
      (∀ c, cols = some c → s ≤ (c : ℤ)) ∧
      (∀ n av, dataSize = some n → m.available = some av → (s : ℚ) ≤ n * 50 / (av / 1000000)) := by
  cases dataSize with
  | none => simp [suggestPoolSize]
  | some n =>
    refine ⟨by simp [suggestPoolSize], ?_⟩
    intro s hs
    simp only [suggestPoolSize, Option.some.injEq] at hs
    have hM0 : 0 ≤ memFigure m n := by
      unfold memFigure; split
      · rename_i av h; have := hav av h; positivity
      · norm_num
    have hC0 : 0 ≤ cpuFigure m := by
      unfold cpuFigure; split
      · rename_i c h
        have h1 := hcpu c h
        have : (1 : ℚ) ≤ (c : ℚ) := by exact_mod_cast h1
        linarith
      · norm_num
    have hS0 : 0 ≤ limitCols (min (memFigure m n) (cpuFigure m)) cols := by
      unfold limitCols; split
      · exact le_min (le_min hM0 hC0) (by positivity)
      · exact le_min hM0 hC0
    have hSle : limitCols (min (memFigure m n) (cpuFigure m)) cols ≤
        min (memFigure m n) (cpuFigure m) := by
      unfold limitCols; split
      · exact min_le_left _ _
      · exact le_rfl
    have hsle : (s : ℚ) ≤ limitCols (min (memFigure m n) (cpuFigure m)) cols := by
      rw [← hs]; exact Int.floor_le _
    refine ⟨by rw [← hs]; exact Int.floor_nonneg.2 hS0, ?_, ?_, ?_⟩
    · intro c hc
      have hcf : cpuFigure m = (c : ℚ) - 1 := by unfold cpuFigure; rw [hc]
      have : (s : ℚ) ≤ (c : ℚ) - 1 := by
        rw [← hcf]; exact le_trans hsle (le_trans hSle (min_le_right _ _))
      exact_mod_cast this
    · intro c hc
      subst hc
      have : limitCols (min (memFigure m n) (cpuFigure m)) (some c) ≤ (c : ℚ) := min_le_right _ _
      have : (s : ℚ) ≤ (c : ℚ) := by linarith
      exact_mod_cast this
    · intro n' av hn hav'
      cases hn
      have hmf : memFigure m n = n * 50 / (av / 1000000) := by unfold memFigure; rw [hav']
      rw [← hmf]; exact le_trans hsle (le_trans hSle (min_le_left _ _))

/-- The suggestion can be 0: on a single-CPU machine, whatever the data. So "at least one worker" does
not hold. -/
theorem C47_zero_fails (n : ℕ) (av : ℚ) (hav : 0 < av) :
    suggestPoolSize ⟨some av, some 1⟩ (some n) none = some 0 := by
  simp only [suggestPoolSize, memFigure, cpuFigure, limitCols, Nat.cast_one, sub_self,
    Option.some.injEq]
  rw [min_eq_right (by positivity)]; simp

/-- The memory figure is not a safety limit: more data allows more workers, all else being equal. -/
theorem C47_memory_figure_grows (m : Machine) (n n' : ℕ) (h : n ≤ n') (cols : Option ℕ) (s s' : ℤ)
    (hav : ∀ av, m.available = some av → 0 < av)
    (h1 : suggestPoolSize m (some n) cols = some s) (h2 : suggestPoolSize m (some n') cols = some s') :
    s ≤ s' := by
  simp only [suggestPoolSize, Option.some.injEq] at h1 h2
  rw [← h1, ← h2]
  apply Int.floor_le_floor
  have hmem : memFigure m n ≤ memFigure m n' := by
    unfold memFigure
    split
    · rename_i av hav'
      have hp := hav av hav'
      have hc : (n : ℚ) ≤ n' := by exact_mod_cast h
      apply div_le_div_of_nonneg_right _ (by positivity)
      linarith
    · exact le_rfl
  unfold limitCols
  split
  · exact min_le_min_right _ (min_le_min_right _ hmem)
  · exact min_le_min_right _ hmem

/-- **C47** A pool is only ever created with more than two workers; without a user limit it leaves a
CPU free and has at most one worker per column. -/
theorem C47_pool_created (m : Machine) (works : Bool) (limit : Option ℤ) (dataSize cols : Option ℕ)
    (hav : ∀ av, m.available = some av → 0 < av) (hcpu : ∀ c, m.cpus = some c → 1 ≤ c)
    (k : ℤ) (h : (generatePool m works limit dataSize cols).1 = some k) :
    2 < k ∧ works = true ∧ dataSize ≠ none ∧
    (∀ l, limit = some l → k = l) ∧
    (limit = none → (∀ c, m.cpus = some c → k ≤ (c : ℤ) - 1) ∧ ∀ c, cols = some c → k ≤ (c : ℤ)) := by
  obtain ⟨hn, hb⟩ := C47_suggestion_bounds_partial m dataSize cols hav hcpu
  unfold generatePool at h
  simp only at h
  cases hs : suggestPoolSize m dataSize cols with
  | none => rw [hs] at h; simp at h
  | some s =>
    rw [hs] at h
    have hd : dataSize ≠ none := fun e => by rw [hn.2 e] at hs; cases hs
    cases limit with
    | none =>
      simp at h
      obtain ⟨h1, h2, h3⟩ := h
      subst h3
      obtain ⟨_, b1, b2, _⟩ := hb s hs
      exact ⟨h1, h2, hd, by simp, fun _ => ⟨b1, b2⟩⟩
    | some l =>
      simp at h
      obtain ⟨h1, h2, h3⟩ := h
      subst h3
      exact ⟨h1, h2, hd, by simp, by simp⟩

/-- **C47** The automatic multiprocessing switch is monotone in the size of the data. -/
theorem C47_toggle_monotone (r c r' c' tr tc : ℕ) (hr : r ≤ r') (hc : c ≤ c')
    (h : autoMultiprocess r c tr tc = true) : autoMultiprocess r' c' tr tc = true := by
  simp [autoMultiprocess] at *
  omega

/-- **C47** One dimension beyond its threshold is enough whatever the other one is, and data that have at most as many rows and columns as the
thresholds do not switch multiprocessing on. -/
theorem C47_toggle_exact (r c tr tc : ℕ) :
    (tr < r → autoMultiprocess r c tr tc = true) ∧ (tc < c → autoMultiprocess r c tr tc = true) ∧
    (r ≤ tr → c ≤ tc → autoMultiprocess r c tr tc = false) := by
  refine ⟨fun h => ?_, fun h => ?_, fun h1 h2 => ?_⟩ <;> simp [autoMultiprocess] <;> omega

example : autoMultiprocess 750001 1 750000 20 = true ∧ autoMultiprocess 10 21 750000 20 = true ∧
    autoMultiprocess 750000 20 750000 20 = false := by decide

/-- A usual machine: 8 CPUs, 16 GB free, a million rows, 12 columns gives 7 workers. -/
example : suggestPoolSize ⟨some 16000000000, some 8⟩ (some 1000000) (some 12) = some 7 ∧
    (generatePool ⟨some 16000000000, some 8⟩ true none (some 1000000) (some 12)).1 = some 7 := by
  have : suggestPoolSize ⟨some 16000000000, some 8⟩ (some 1000000) (some 12) = some 7 := by
    simp only [suggestPoolSize, memFigure, cpuFigure, limitCols]
    norm_num
  exact ⟨this, by simp [generatePool, this]⟩

end Verif.Pool
