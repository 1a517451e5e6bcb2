import Mathlib.Tactic.NormNum
import Verif.Lemmas.ChiSquared

/-! # C23: chi-squared test -/

namespace Verif.ChiSquared

open Verif

variable {K : Type} [DecidableEq K]

/-- **C23** With at least two categories, non-empty samples and no category that is empty in both,
the reported statistic is Pearson's statistic of the table and the p-value is its upper tail. -/
theorem C23_is_pearson (cdf : ℕ → ℝ → ℝ) (c1 c2 : PyDict K ℕ) (n1 n2 : ℕ)
    (h1 : PyDict.WF c1) (h2 : PyDict.WF c2) (hk : 2 ≤ (categories c1 c2).card)
    (hn1 : 0 < n1) (hn2 : 0 < n2) (hc : ∀ k ∈ categories c1 c2, 0 < count c1 k + count c2 k) :
    chi2Test cdf c1 n1 c2 n2 =
      ⟨some (.fin (pearson c1 c2 n1 n2)), some ((categories c1 c2).card - 1),
        some (1 - cdf ((categories c1 c2).card - 1) (pearson c1 c2 n1 n2))⟩ := by
  unfold chi2Test
  have hl := addCounts_length h1 h2
  have hz : ¬ (0 ∈ PyDict.values (addCounts c1 c2)) := by
    rw [zero_mem_values h1 h2]
    rintro ⟨k, hk, ha, hb⟩
    have := hc k hk
    omega
  have hn : ¬ ((n1 = 0 ∨ n2 = 0) ∨ 0 ∈ PyDict.values (addCounts c1 c2)) := by
    rintro (h | h)
    · omega
    · exact hz h
  simp only
  rw [if_neg (by omega), if_neg hn, hl, stat_eq_pearson h1 h2]

/-- **C23** The remaining cases: fewer than two categories give no result; an empty sample or a
category counted nowhere gives an infinite statistic with p-value 0. -/
theorem C23_degenerate (cdf : ℕ → ℝ → ℝ) (c1 c2 : PyDict K ℕ) (n1 n2 : ℕ)
    (h1 : PyDict.WF c1) (h2 : PyDict.WF c2) :
    ((categories c1 c2).card ≤ 1 → chi2Test cdf c1 n1 c2 n2 = ⟨none, none, none⟩) ∧
    (2 ≤ (categories c1 c2).card →
      (n1 = 0 ∨ n2 = 0 ∨ ∃ k ∈ categories c1 c2, count c1 k = 0 ∧ count c2 k = 0) →
      chi2Test cdf c1 n1 c2 n2 = ⟨some .inf, some ((categories c1 c2).card - 1), some 0⟩) := by
  have hl := addCounts_length h1 h2
  constructor
  · intro h
    unfold chi2Test
    simp only
    rw [if_pos (by omega)]
  · intro h hz
    unfold chi2Test
    simp only
    rw [if_neg (by omega), if_pos, hl]
    rcases hz with h | h | h
    · exact Or.inl (Or.inl h)
    · exact Or.inl (Or.inr h)
    · exact Or.inr ((zero_mem_values h1 h2).2 h)

/-- **C23** The test does not depend on the order of its two samples. -/
theorem C23_symmetric (cdf : ℕ → ℝ → ℝ) (c1 c2 : PyDict K ℕ) (n1 n2 : ℕ)
    (h1 : PyDict.WF c1) (h2 : PyDict.WF c2) :
    chi2Test cdf c1 n1 c2 n2 = chi2Test cdf c2 n2 c1 n1 := by
  by_cases hk : (categories c1 c2).card ≤ 1
  · rw [(C23_degenerate cdf c1 c2 n1 n2 h1 h2).1 hk,
      (C23_degenerate cdf c2 c1 n2 n1 h2 h1).1 (by rwa [categories_comm])]
  · have hk : 2 ≤ (categories c1 c2).card := by omega
    by_cases hz : n1 = 0 ∨ n2 = 0 ∨ ∃ k ∈ categories c1 c2, count c1 k = 0 ∧ count c2 k = 0
    · rw [(C23_degenerate cdf c1 c2 n1 n2 h1 h2).2 hk hz,
        (C23_degenerate cdf c2 c1 n2 n1 h2 h1).2 (by rwa [categories_comm]) ?_, categories_comm]
      rcases hz with h | h | ⟨k, h, a, b⟩
      · exact Or.inr (Or.inl h)
      · exact Or.inl h
      · exact Or.inr (Or.inr ⟨k, by rwa [categories_comm], b, a⟩)
    · push Not at hz
      obtain ⟨a, b, c⟩ := hz
      have hpos : ∀ k ∈ categories c1 c2, 0 < count c1 k + count c2 k := by
        intro k hk
        by_contra h0
        exact c k hk (by omega) (by omega)
      rw [C23_is_pearson cdf c1 c2 n1 n2 h1 h2 hk (by omega) (by omega) hpos,
        C23_is_pearson cdf c2 c1 n2 n1 h2 h1 (by rwa [categories_comm]) (by omega) (by omega)
          (by intro k hk; rw [Nat.add_comm]; exact hpos k (by rwa [categories_comm])),
        pearson_comm, categories_comm]

/-- **C23** A finite statistic is never negative. -/
theorem C23_nonneg (cdf : ℕ → ℝ → ℝ) (c1 c2 : PyDict K ℕ) (n1 n2 : ℕ)
    (h1 : PyDict.WF c1) (h2 : PyDict.WF c2) (x : ℝ)
    (h : (chi2Test cdf c1 n1 c2 n2).stat = some (.fin x)) : 0 ≤ x := by
  unfold chi2Test at h
  simp only at h
  split at h
  · cases h
  · split at h
    · cases h
    · simp only [Option.some.injEq, Stat.fin.injEq] at h
      rw [← h, stat_eq_pearson h1 h2]
      exact pearson_nonneg _ _ _ _

/-- **C23** The statistic is 0 exactly when the two samples have all categories in the same
proportion. -/
theorem C23_zero_iff_proportional (cdf : ℕ → ℝ → ℝ) (c1 c2 : PyDict K ℕ) (n1 n2 : ℕ)
    (h1 : PyDict.WF c1) (h2 : PyDict.WF c2) (hk : 2 ≤ (categories c1 c2).card)
    (hn1 : 0 < n1) (hn2 : 0 < n2) (hc : ∀ k ∈ categories c1 c2, 0 < count c1 k + count c2 k) :
    (chi2Test cdf c1 n1 c2 n2).stat = some (.fin 0) ↔
      ∀ k ∈ categories c1 c2, count c1 k * n2 = count c2 k * n1 := by
  rw [C23_is_pearson cdf c1 c2 n1 n2 h1 h2 hk hn1 hn2 hc]
  simp only [Option.some.injEq, Stat.fin.injEq]
  unfold pearson expected
  rw [Finset.sum_eq_zero_iff_of_nonneg (by intro k _; positivity)]
  constructor
  · intro h k hk
    exact (cell_zero _ _ n1 n2 hn1 hn2 (hc k hk)).1 (h k hk)
  · intro h k hk
    exact (cell_zero _ _ n1 n2 hn1 hn2 (hc k hk)).2 (h k hk)

/-- **C23** The reported matrix: an entry is filled exactly for two categorical columns; the diagonal
is 1 and off-diagonal entries are the p-value of the test between the two columns. -/
theorem C23_matrix_entries (cdf : ℕ → ℝ → ℝ) (cols : List (Col K)) (hw : ∀ c ∈ cols, PyDict.WF c.counts)
    (i j : ℕ) (a b : Col K) (ha : cols[i]? = some a) (hb : cols[j]? = some b) :
    chi2Matrix cdf cols i j =
      if a.isMatch = true ∧ b.isMatch = true then
        (if i = j then some 1 else (chi2Test cdf a.counts a.size b.counts b.size).pval)
      else none := by
  have hi : i < cols.length := (List.getElem?_eq_some_iff.1 ha).1
  have hj : j < cols.length := (List.getElem?_eq_some_iff.1 hb).1
  unfold chi2Matrix
  rw [outer_fold cdf cols cols.length (Nat.le_refl _)]
  have ca : catAt cols i = a.isMatch := by simp [catAt, ha]
  have cb : catAt cols j = b.isMatch := by simp [catAt, hb]
  rw [ca, cb]
  by_cases hM : a.isMatch = true ∧ b.isMatch = true
  · rw [if_pos ⟨by omega, hM⟩, if_pos hM]
    unfold entry
    rw [ha, hb]
    simp only
    split
    · rfl
    · split
      · rfl
      · rw [C23_symmetric cdf b.counts a.counts b.size a.size
          (hw b (List.mem_of_getElem? hb)) (hw a (List.mem_of_getElem? ha))]
  · rw [if_neg (fun h => hM h.2), if_neg hM]

/-- **C23** The reported matrix is symmetric. -/
theorem C23_matrix_symmetric (cdf : ℕ → ℝ → ℝ) (cols : List (Col K))
    (hw : ∀ c ∈ cols, PyDict.WF c.counts) (i j : ℕ) :
    chi2Matrix cdf cols i j = chi2Matrix cdf cols j i := by
  cases ha : cols[i]? with
  | none =>
    unfold chi2Matrix
    rw [outer_fold cdf cols cols.length (Nat.le_refl _), outer_fold cdf cols cols.length (Nat.le_refl _)]
    simp [catAt, ha]
  | some a =>
    cases hb : cols[j]? with
    | none =>
      unfold chi2Matrix
      rw [outer_fold cdf cols cols.length (Nat.le_refl _),
        outer_fold cdf cols cols.length (Nat.le_refl _)]
      simp [catAt, hb]
    | some b =>
      rw [C23_matrix_entries cdf cols hw i j a b ha hb, C23_matrix_entries cdf cols hw j i b a hb ha,
        C23_symmetric cdf a.counts b.counts a.size b.size
          (hw a (List.mem_of_getElem? ha)) (hw b (List.mem_of_getElem? hb))]
      simp only [and_comm, eq_comm]

/-- Two proportional samples (2:1 and 4:2) meet the hypotheses; the statistic is 0. -/
example (cdf : ℕ → ℝ → ℝ) :
    (chi2Test cdf [("a", 2), ("b", 1)] 3 [("b", 2), ("a", 4)] 6).stat = some (.fin 0) := by
  rw [C23_zero_iff_proportional cdf _ _ 3 6 (by decide) (by decide) (by decide) (by decide) (by decide)
    (by decide)]
  decide

/-- … and two samples that are not. -/
example (cdf : ℕ → ℝ → ℝ) :
    (chi2Test cdf [("a", 3)] 3 [("b", 2), ("a", 4)] 6).stat ≠ some (.fin 0) := by
  rw [Ne, C23_zero_iff_proportional cdf _ _ 3 6 (by decide) (by decide) (by decide) (by decide) (by decide)
    (by decide)]
  decide

end Verif.ChiSquared
