import Mathlib.Algebra.BigOperators.Group.Finset.Basic
import Mathlib.Algebra.Order.BigOperators.Group.Finset
import Mathlib.Tactic.FieldSimp
import Mathlib.Tactic.Positivity
import Mathlib.Tactic.Linarith
import Mathlib.Tactic.Ring
import Verif.Lemmas.PyDict
import Verif.Model.ChiSquared
import Verif.Spec.ChiSquared

/-! Helper lemmas about the chi-squared test. -/

namespace Verif.ChiSquared

open Verif

variable {K : Type} [DecidableEq K]

/-- The two-line description of the summed dictionary: its keys and its values. -/
theorem addCounts_keys (c1 c2 : PyDict K ℕ) :
    PyDict.keys (addCounts c1 c2) =
      PyDict.keys c1 ++ (PyDict.keys c2).filter (fun k => !PyDict.has c1 k) := by
  unfold addCounts PyDict.keys
  rw [List.map_append, List.map_map]
  congr 1
  · apply List.map_congr_left
    intro kv _
    simp only [Function.comp]
    split <;> rfl
  · rw [List.filter_map]; rfl

theorem addCounts_WF {c1 c2 : PyDict K ℕ} (h1 : PyDict.WF c1) (h2 : PyDict.WF c2) :
    PyDict.WF (addCounts c1 c2) := by
  unfold PyDict.WF
  rw [addCounts_keys, List.nodup_append]
  refine ⟨h1, h2.filter _, ?_⟩
  intro a ha b hb hab
  subst hab
  simp only [List.mem_filter, Bool.not_eq_true'] at hb
  have := (PyDict.has_iff c1 a).2 ha
  rw [this] at hb; simp at hb

theorem addCounts_mem {c1 c2 : PyDict K ℕ} (h1 : PyDict.WF c1) (h2 : PyDict.WF c2) {k : K} {n : ℕ}
    (h : (k, n) ∈ addCounts c1 c2) : n = count c1 k + count c2 k := by
  unfold addCounts at h
  rcases List.mem_append.1 h with h | h
  · obtain ⟨⟨k', v⟩, hm, e⟩ := List.mem_map.1 h
    have hg := PyDict.get?_of_mem h1 hm
    simp only at e
    split at e
    · rename_i w hw
      cases e
      simp [count, hg, hw]
    · rename_i hw
      cases e
      simp [count, hg, hw]
  · rw [List.mem_filter] at h
    obtain ⟨hm, hn⟩ := h
    have hg := PyDict.get?_of_mem h2 hm
    simp only [PyDict.has, Bool.not_eq_true', Option.isSome_eq_false_iff, Option.isNone_iff_eq_none] at hn
    simp [count, hg, hn]

theorem addCounts_keys_toFinset (c1 c2 : PyDict K ℕ) :
    (PyDict.keys (addCounts c1 c2)).toFinset = categories c1 c2 := by
  ext k
  rw [addCounts_keys, categories]
  simp only [List.mem_toFinset, List.mem_append, List.mem_filter, Bool.not_eq_true']
  constructor
  · rintro (h | h)
    · exact Or.inl h
    · exact Or.inr h.1
  · rintro (h | h)
    · exact Or.inl h
    · by_cases hk : k ∈ PyDict.keys c1
      · exact Or.inl hk
      · refine Or.inr ⟨h, ?_⟩
        rw [← Bool.not_eq_true, PyDict.has_iff]; exact hk

theorem addCounts_length {c1 c2 : PyDict K ℕ} (h1 : PyDict.WF c1) (h2 : PyDict.WF c2) :
    (addCounts c1 c2).length = (categories c1 c2).card := by
  rw [← addCounts_keys_toFinset, List.toFinset_card_of_nodup (addCounts_WF h1 h2)]
  simp [PyDict.keys]

theorem zero_mem_values {c1 c2 : PyDict K ℕ} (h1 : PyDict.WF c1) (h2 : PyDict.WF c2) :
    0 ∈ PyDict.values (addCounts c1 c2) ↔ ∃ k ∈ categories c1 c2, count c1 k = 0 ∧ count c2 k = 0 := by
  constructor
  · intro h
    obtain ⟨⟨k, n⟩, hm, e⟩ := List.mem_map.1 h
    simp only at e; subst e
    have := addCounts_mem h1 h2 hm
    refine ⟨k, ?_, by omega, by omega⟩
    rw [← addCounts_keys_toFinset, List.mem_toFinset]
    exact List.mem_map.2 ⟨_, hm, rfl⟩
  · rintro ⟨k, hk, ha, hb⟩
    rw [← addCounts_keys_toFinset, List.mem_toFinset] at hk
    obtain ⟨⟨k', n⟩, hm, rfl⟩ := List.mem_map.1 hk
    have := addCounts_mem h1 h2 hm
    simp only at ha hb
    exact List.mem_map.2 ⟨_, hm, by simp only; omega⟩

theorem stat_eq_pearson {c1 c2 : PyDict K ℕ} (h1 : PyDict.WF c1) (h2 : PyDict.WF c2) (n1 n2 : ℕ) :
    ((addCounts c1 c2).map fun kv => term c1 n1 c2 n2 kv.1 kv.2).sum = pearson c1 c2 n1 n2 := by
  unfold pearson
  rw [← addCounts_keys_toFinset, List.sum_toFinset _ (addCounts_WF h1 h2)]
  unfold PyDict.keys
  rw [List.map_map]
  congr 1
  apply List.map_congr_left
  rintro ⟨k, n⟩ hm
  have := addCounts_mem h1 h2 hm
  simp only [Function.comp, term, expected, PyDict.getD, this]
  rfl

theorem categories_comm (c1 c2 : PyDict K ℕ) : categories c1 c2 = categories c2 c1 := by
  ext k; simp [categories, or_comm]

theorem pearson_comm (c1 c2 : PyDict K ℕ) (n1 n2 : ℕ) : pearson c1 c2 n1 n2 = pearson c2 c1 n2 n1 := by
  unfold pearson
  rw [categories_comm]
  apply Finset.sum_congr rfl
  intro k _
  unfold expected
  rw [Nat.add_comm (count c1 k), Nat.add_comm n1 n2]
  ring

theorem pearson_nonneg (c1 c2 : PyDict K ℕ) (n1 n2 : ℕ) : 0 ≤ pearson c1 c2 n1 n2 := by
  unfold pearson expected
  apply Finset.sum_nonneg
  intro k _
  positivity

/-- A cell contributes nothing exactly when the two samples have it in proportion. -/
theorem cell_zero (a b n1 n2 : ℕ) (hn1 : 0 < n1) (hn2 : 0 < n2) (hab : 0 < a + b) :
    ((a : ℝ) - (n1 : ℝ) * ((a + b : ℕ) : ℝ) / ((n1 + n2 : ℕ) : ℝ)) ^ 2 /
        ((n1 : ℝ) * ((a + b : ℕ) : ℝ) / ((n1 + n2 : ℕ) : ℝ)) +
      ((b : ℝ) - (n2 : ℝ) * ((a + b : ℕ) : ℝ) / ((n1 + n2 : ℕ) : ℝ)) ^ 2 /
        ((n2 : ℝ) * ((a + b : ℕ) : ℝ) / ((n1 + n2 : ℕ) : ℝ)) = 0 ↔ a * n2 = b * n1 := by
  have h1 : (0 : ℝ) < n1 := by exact_mod_cast hn1
  have h2 : (0 : ℝ) < n2 := by exact_mod_cast hn2
  have h3 : (0 : ℝ) < ((a + b : ℕ) : ℝ) := by exact_mod_cast hab
  have h4 : (0 : ℝ) < ((n1 + n2 : ℕ) : ℝ) := by exact_mod_cast (by omega : 0 < n1 + n2)
  have e1 : (0 : ℝ) < (n1 : ℝ) * ((a + b : ℕ) : ℝ) / ((n1 + n2 : ℕ) : ℝ) := by positivity
  have e2 : (0 : ℝ) < (n2 : ℝ) * ((a + b : ℕ) : ℝ) / ((n1 + n2 : ℕ) : ℝ) := by positivity
  constructor
  · intro h
    have hx : ((a : ℝ) - (n1 : ℝ) * ((a + b : ℕ) : ℝ) / ((n1 + n2 : ℕ) : ℝ)) ^ 2 /
        ((n1 : ℝ) * ((a + b : ℕ) : ℝ) / ((n1 + n2 : ℕ) : ℝ)) = 0 := by
      have p1 : 0 ≤ ((a : ℝ) - (n1 : ℝ) * ((a + b : ℕ) : ℝ) / ((n1 + n2 : ℕ) : ℝ)) ^ 2 /
        ((n1 : ℝ) * ((a + b : ℕ) : ℝ) / ((n1 + n2 : ℕ) : ℝ)) := by positivity
      have p2 : 0 ≤ ((b : ℝ) - (n2 : ℝ) * ((a + b : ℕ) : ℝ) / ((n1 + n2 : ℕ) : ℝ)) ^ 2 /
        ((n2 : ℝ) * ((a + b : ℕ) : ℝ) / ((n1 + n2 : ℕ) : ℝ)) := by positivity
      linarith
    rw [div_eq_zero_iff] at hx
    rcases hx with hx | hx
    · have hx := pow_eq_zero_iff (two_ne_zero) |>.1 hx
      have hx' : (a : ℝ) * ((n1 + n2 : ℕ) : ℝ) = (n1 : ℝ) * ((a + b : ℕ) : ℝ) := by
        field_simp at hx; linarith
      have : (a : ℝ) * n2 = b * n1 := by push_cast at hx'; linarith
      exact_mod_cast this
    · exact absurd hx e1.ne'
  · intro h
    have hr : (a : ℝ) * n2 = b * n1 := by exact_mod_cast h
    have z1 : (a : ℝ) - (n1 : ℝ) * ((a + b : ℕ) : ℝ) / ((n1 + n2 : ℕ) : ℝ) = 0 := by
      field_simp; push_cast; linarith
    have z2 : (b : ℝ) - (n2 : ℝ) * ((a + b : ℕ) : ℝ) / ((n1 + n2 : ℕ) : ℝ) = 0 := by
      field_simp; push_cast; linarith
    rw [z1, z2]; simp

/-- Column `a` exists and is categorical. -/
def catAt (cols : List (Col K)) (a : ℕ) : Bool :=
  match cols[a]? with
  | some c => c.isMatch
  | none => false

/-- Value of one matrix entry. -/
noncomputable def entry (cdf : ℕ → ℝ → ℝ) (cols : List (Col K)) (i j : ℕ) : Option ℝ :=
  match cols[i]?, cols[j]? with
  | some a, some b =>
      if i = j then some 1
      else if i < j then (chi2Test cdf a.counts a.size b.counts b.size).pval
      else (chi2Test cdf b.counts b.size a.counts a.size).pval
  | _, _ => none

theorem innerStep_apply (cdf : ℕ → ℝ → ℝ) (cols : List (Col K)) (c1 : Col K) (i : ℕ)
    (hc1 : cols[i]? = some c1) (hm : c1.isMatch = true) (s : ℕ) (hs : i ≤ s) (m : Mat) (a b : ℕ) :
    innerStep cdf cols c1 i m s a b =
      if (a = i ∧ b = s ∨ b = i ∧ a = s) ∧ catAt cols a = true ∧ catAt cols b = true
      then entry cdf cols a b else m a b := by
  have hci : catAt cols i = true := by simp [catAt, hc1, hm]
  unfold innerStep
  by_cases his : i = s
  · subst his
    simp only [if_true, Mat.put]
    by_cases hab : a = i ∧ b = i
    · obtain ⟨rfl, rfl⟩ := hab
      simp [hc1, hci, entry]
    · rw [if_neg hab, if_neg]
      rintro ⟨h, _⟩; omega
  · rw [if_neg his]
    cases hc2 : cols[s]? with
    | none =>
      have hcs : catAt cols s = false := by simp [catAt, hc2]
      rw [if_neg]
      rintro ⟨h | h, hx, hy⟩
      · rw [h.2, hcs] at hy; cases hy
      · rw [h.2, hcs] at hx; cases hx
    | some c2 =>
      have hcs : catAt cols s = c2.isMatch := by simp [catAt, hc2]
      cases hm2 : c2.isMatch with
      | false =>
        rw [hm2] at hcs
        rw [if_neg]
        · simp [hm2]
        · rintro ⟨h | h, hx, hy⟩
          · rw [h.2, hcs] at hy; cases hy
          · rw [h.2, hcs] at hx; cases hx
      | true =>
        rw [hm2] at hcs
        simp only [hm2, if_true, Mat.put]
        by_cases h1 : a = s ∧ b = i
        · obtain ⟨rfl, rfl⟩ := h1
          have hlt : ¬ a < b := by omega
          have hne : ¬ a = b := by omega
          simp [hc1, hc2, hci, hcs, entry, hlt, hne]
        · rw [if_neg h1]
          by_cases h2 : a = i ∧ b = s
          · obtain ⟨rfl, rfl⟩ := h2
            have hlt : a < b := by omega
            simp [hc1, hc2, hci, hcs, entry, hlt, his]
          · rw [if_neg h2, if_neg]
            rintro ⟨h | h, _⟩
            · exact h2 h
            · exact h1 ⟨h.2, h.1⟩

theorem inner_fold (cdf : ℕ → ℝ → ℝ) (cols : List (Col K)) (c1 : Col K) (i : ℕ)
    (hc1 : cols[i]? = some c1) (hm : c1.isMatch = true) (len s : ℕ) (hs : i ≤ s) (m : Mat) (a b : ℕ) :
    (List.range' s len).foldl (innerStep cdf cols c1 i) m a b =
      if (a = i ∧ s ≤ b ∧ b < s + len ∨ b = i ∧ s ≤ a ∧ a < s + len) ∧
        catAt cols a = true ∧ catAt cols b = true then entry cdf cols a b
      else m a b := by
  induction len generalizing s m with
  | zero => rw [if_neg (by omega)]; rfl
  | succ len ih =>
    rw [List.range'_succ, List.foldl_cons, ih (s + 1) (by omega),
      innerStep_apply cdf cols c1 i hc1 hm s hs]
    by_cases hM : catAt cols a = true ∧ catAt cols b = true
    · simp only [hM, and_true]
      by_cases hP : (a = i ∧ s + 1 ≤ b ∧ b < s + 1 + len ∨ b = i ∧ s + 1 ≤ a ∧ a < s + 1 + len)
      · rw [if_pos hP, if_pos (by omega)]
      · rw [if_neg hP]
        by_cases hQ : a = i ∧ b = s ∨ b = i ∧ a = s
        · rw [if_pos hQ, if_pos (by omega)]
        · rw [if_neg hQ, if_neg (by omega)]
    · simp [hM]

theorem outer_fold (cdf : ℕ → ℝ → ℝ) (cols : List (Col K)) (n : ℕ) (hn : n ≤ cols.length)
    (a b : ℕ) :
    (List.range n).foldl (outerStep cdf cols) (fun _ _ => none) a b =
      if min a b < n ∧ catAt cols a = true ∧ catAt cols b = true then entry cdf cols a b else none := by
  induction n with
  | zero => simp
  | succ n ih =>
    rw [List.range_succ, List.foldl_append, List.foldl_cons, List.foldl_nil]
    have ih := ih (by omega)
    generalize (List.range n).foldl (outerStep cdf cols) (fun _ _ => none) = m at ih
    have hget : cols[n]? = some (cols[n]'(by omega)) := List.getElem?_eq_getElem (by omega)
    have hcn : catAt cols n = (cols[n]'(by omega)).isMatch := by simp [catAt, hget]
    unfold outerStep
    rw [hget]
    simp only
    cases hm : (cols[n]'(by omega)).isMatch with
    | false =>
      rw [hm] at hcn
      simp only [Bool.false_eq_true, if_false]
      rw [ih]
      by_cases hM : catAt cols a = true ∧ catAt cols b = true
      · have ha : a ≠ n := by rintro rfl; rw [hcn] at hM; simp at hM
        have hb : b ≠ n := by rintro rfl; rw [hcn] at hM; simp at hM
        simp only [hM, and_true]
        by_cases h1 : min a b < n
        · rw [if_pos h1, if_pos (by omega)]
        · rw [if_neg h1, if_neg (by omega)]
      · simp [hM]
    | true =>
      rw [hm] at hcn
      simp only [if_true]
      rw [inner_fold cdf cols _ n hget hm _ n (Nat.le_refl n), ih]
      by_cases hM : catAt cols a = true ∧ catAt cols b = true
      · have hlt : ∀ x, catAt cols x = true → x < cols.length := by
          intro x hx
          by_contra h
          simp [catAt, List.getElem?_eq_none (show cols.length ≤ x by omega)] at hx
        have ha := hlt a hM.1
        have hb := hlt b hM.2
        simp only [hM, and_true]
        by_cases hP : (a = n ∧ n ≤ b ∧ b < n + (cols.length - n) ∨
            b = n ∧ n ≤ a ∧ a < n + (cols.length - n))
        · rw [if_pos hP, if_pos (by omega)]
        · rw [if_neg hP]
          by_cases h1 : min a b < n
          · rw [if_pos h1, if_pos (by omega)]
          · rw [if_neg h1, if_neg (by omega)]
      · simp [hM]

end Verif.ChiSquared
