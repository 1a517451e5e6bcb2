import Mathlib.Algebra.Order.BigOperators.Ring.List
import Mathlib.Tactic.NormNum
import Verif.Lemmas.CorrelationHist

/-!
# C22 — correlation of streamed and merged data
-/

namespace Verif.Correlation

open Verif.CorrelationSpec

noncomputable section

/-- **Streamed and merged data**: after any history of complete batches and merges, the matrix holds Pearson's
coefficient of all rows for every two numeric columns, and nothing for other columns. -/
theorem C22_history (numeric : List Bool) (h0 : numeric ≠ []) (h : Hist) (hg : Good numeric h) (hf : Fed h) :
    ∃ p M, run h = .ok p ∧ p.matrix = some M ∧ M.size = numeric.length ∧
      (∀ i j, numeric[i]? = some true → numeric[j]? = some true → M.get i j = some (pearson (pairs (rows h) i j))) ∧
      (∀ i j, ¬ (numeric[i]? = some true ∧ numeric[j]? = some true) → M.get i j = none) := by
  obtain ⟨p, hp, hi⟩ := (inv_run h0 h hg).1 hf
  obtain ⟨M, h1, h2, h3, h4⟩ := hi.matrix
  exact ⟨p, M, hp, h1, h2, h3, h4⟩

/-! ## Properties of the coefficient -/

theorem comoment_swap (ps : List (ℝ × ℝ)) : comoment (ps.map Prod.swap) = comoment ps := by
  unfold comoment
  simp only [List.map_map, Function.comp_def, Prod.fst_swap, Prod.snd_swap]
  congr 1
  apply List.map_congr_left
  intro p _
  exact mul_comm _ _

/-- Symmetry. -/
theorem C22_symmetric (rows : List (List (Option ℝ))) (i j : ℕ) :
    pearson (pairs rows i j) = pearson (pairs rows j i) := by
  have : pairs rows j i = (pairs rows i j).map Prod.swap := by simp [pairs]
  unfold pearson
  rw [this, comoment_swap, List.map_map, List.map_map, mul_comm]
  rfl

/-- Cauchy–Schwarz for lists. -/
theorem cauchy (ps : List (ℝ × ℝ)) :
    (ps.map fun p => p.1 * p.2).sum ^ 2 ≤ (ps.map fun p => p.1 * p.1).sum * (ps.map fun p => p.2 * p.2).sum := by
  have key : ∀ t : ℝ, 0 ≤ (ps.map fun p => p.1 * p.1).sum * (t * t) + 2 * (ps.map fun p => p.1 * p.2).sum * t +
      (ps.map fun p => p.2 * p.2).sum := by
    intro t
    have : (ps.map fun p => p.1 * p.1).sum * (t * t) + 2 * (ps.map fun p => p.1 * p.2).sum * t +
        (ps.map fun p => p.2 * p.2).sum = (ps.map fun p => (t * p.1 + p.2) * (t * p.1 + p.2)).sum := by
      induction ps with
      | nil => simp
      | cons p ps ih =>
        simp only [List.map_cons, List.sum_cons]
        rw [← ih]
        ring
    rw [this]
    apply List.sum_nonneg
    intro z hz
    obtain ⟨p, _, rfl⟩ := List.mem_map.1 hz
    exact mul_self_nonneg _
  have ha0 : 0 ≤ (ps.map fun p => p.1 * p.1).sum := by
    apply List.sum_nonneg
    intro z hz
    obtain ⟨p, _, rfl⟩ := List.mem_map.1 hz
    exact mul_self_nonneg _
  generalize (ps.map fun p => p.1 * p.1).sum = a at *
  generalize hb : (ps.map fun p => p.1 * p.2).sum = b at *
  generalize (ps.map fun p => p.2 * p.2).sum = c at *
  have hc : 0 ≤ c := by simpa using key 0
  rcases ha0.eq_or_lt with ha | ha
  · rw [← ha]
    by_contra hne
    have hb0 : b ≠ 0 := by
      rintro rfl
      exact hne (by simp)
    have h2 := key (-(c + 1) / (2 * b))
    have : a * (-(c + 1) / (2 * b) * (-(c + 1) / (2 * b))) + 2 * b * (-(c + 1) / (2 * b)) + c = -1 := by
      rw [← ha]
      field_simp
      ring
    linarith
  · have h1 := key (-b / a)
    have e : a * (-b / a * (-b / a)) + 2 * b * (-b / a) + c = c - b ^ 2 / a := by
      field_simp
      ring
    rw [e] at h1
    have h5 : b ^ 2 / a ≤ c := by linarith
    rw [div_le_iff₀ ha] at h5
    linarith

/-- The coefficient lies between -1 and 1. -/
theorem C22_range (ps : List (ℝ × ℝ)) : -1 ≤ pearson ps ∧ pearson ps ≤ 1 := by
  rw [← abs_le]
  have hc := cauchy (ps.map fun p => (p.1 - average (ps.map Prod.fst), p.2 - average (ps.map Prod.snd)))
  have e1 : comoment (ps.map fun p => (p.1, p.1)) =
      ((ps.map fun p => (p.1 - average (ps.map Prod.fst), p.2 - average (ps.map Prod.snd))).map fun p => p.1 * p.1).sum := by
    unfold comoment
    simp only [List.map_map, Function.comp_def]
  have e2 : comoment (ps.map fun p => (p.2, p.2)) =
      ((ps.map fun p => (p.1 - average (ps.map Prod.fst), p.2 - average (ps.map Prod.snd))).map fun p => p.2 * p.2).sum := by
    unfold comoment
    simp only [List.map_map, Function.comp_def]
  have e3 : comoment ps =
      ((ps.map fun p => (p.1 - average (ps.map Prod.fst), p.2 - average (ps.map Prod.snd))).map fun p => p.1 * p.2).sum := by
    unfold comoment
    simp only [List.map_map, Function.comp_def]
  rw [← e1, ← e2, ← e3] at hc
  have hx : 0 ≤ comoment (ps.map fun p => (p.1, p.1)) := by
    have := comoment_self_nonneg (ps.map Prod.fst)
    rwa [List.map_map] at this
  have hs : |comoment ps| ≤ √(comoment (ps.map fun p => (p.1, p.1))) * √(comoment (ps.map fun p => (p.2, p.2))) := by
    rw [← Real.sqrt_mul hx]
    exact Real.abs_le_sqrt hc
  unfold pearson
  rw [abs_div]
  exact div_le_one_of_le₀ (hs.trans (le_abs_self _)) (abs_nonneg _)

/-- A column that varies correlates perfectly with itself. -/
theorem C22_diagonal (rows : List (List (Option ℝ))) (i : ℕ) (h : 0 < comoment (pairs rows i i)) :
    pearson (pairs rows i i) = 1 := by
  have e1 : (pairs rows i i).map (fun p => (p.1, p.1)) = pairs rows i i := by simp [pairs]
  have e2 : (pairs rows i i).map (fun p => (p.2, p.2)) = pairs rows i i := by simp [pairs]
  unfold pearson
  rw [e1, e2, Real.mul_self_sqrt h.le, div_self h.ne']

/-- In particular in every matrix computed: symmetric, ones on the diagonal, all between -1 and 1. -/
theorem C22_matrix (numeric : List Bool) (h0 : numeric ≠ []) (h : Hist) (hg : Good numeric h) (hf : Fed h) :
    ∃ p M, run h = .ok p ∧ p.matrix = some M ∧ (∀ i j, M.get i j = M.get j i) ∧
      (∀ i, numeric[i]? = some true → M.get i i = some 1) ∧ (∀ i j x, M.get i j = some x → -1 ≤ x ∧ x ≤ 1) := by
  obtain ⟨p, hp, hi⟩ := (inv_run h0 h hg).1 hf
  obtain ⟨M, h1, h2, h3, h4⟩ := hi.matrix
  refine ⟨p, M, hp, h1, ?_, ?_, ?_⟩
  · intro i j
    by_cases hij : Marked numeric i ∧ Marked numeric j
    · rw [h3 i j hij.1 hij.2, h3 j i hij.2 hij.1, C22_symmetric]
    · rw [h4 i j hij, h4 j i fun hc => hij ⟨hc.2, hc.1⟩]
  · intro i hm
    rw [h3 i i hm hm, C22_diagonal]
    have := hi.nice.spread i hm
    rw [← sxx_pairs _ i i] at this
    have e1 : (pairs (rows h) i i).map (fun p => (p.1, p.1)) = pairs (rows h) i i := by simp [pairs]
    rwa [sxx, e1] at this
  · intro i j x hx
    by_cases hij : Marked numeric i ∧ Marked numeric j
    · rw [h3 i j hij.1 hij.2] at hx
      cases hx
      exact C22_range _
    · rw [h4 i j hij] at hx
      cases hx

/-! ## One batch with nulls -/

/-- The pairs of values in columns `i` and `j` over the rows with some number, nulls replaced by column means. -/
def filledPairs (k : ℕ) (b : Batch) (i j : ℕ) : List (ℝ × ℝ) :=
  (b.kept k).map fun r => ((cell r i).getD (average (b.values i)), (cell r j).getD (average (b.values j)))

theorem kept_values {k : ℕ} {b : Batch} {i : ℕ} (hk : i < k) (hi : b.isNumeric i = true) :
    (b.kept k).filterMap (fun r => cell r i) = b.values i := by
  unfold Batch.kept Batch.values
  induction b.rows with
  | nil => rfl
  | cons r rows ih =>
    rw [List.filter_cons]
    split_ifs with h
    · rw [List.filterMap_cons, List.filterMap_cons, ih]
    · have : cell r i = none := by
        by_contra hc
        apply h
        rw [List.any_eq_true]
        exact ⟨i, List.mem_range.2 hk, by simp [hi, Option.isSome_iff_ne_none.2 hc]⟩
      rw [List.filterMap_cons, this, ih]

theorem sum_filled (K : List (List (Option ℝ))) (i : ℕ) (m : ℝ) :
    (K.map fun r => (cell r i).getD m).sum =
      (K.filterMap fun r => cell r i).sum + (K.length - (K.filterMap fun r => cell r i).length) * m := by
  induction K with
  | nil => simp
  | cons r K ih =>
    rw [List.map_cons, List.sum_cons, ih, List.filterMap_cons]
    cases cell r i with
    | none => simp only [Option.getD_none, List.length_cons, Nat.cast_add, Nat.cast_one]; ring
    | some v => simp only [Option.getD_some, List.length_cons, List.sum_cons, Nat.cast_add, Nat.cast_one]; ring

theorem squares_filled (K : List (List (Option ℝ))) (i : ℕ) (m : ℝ) :
    (K.map fun r => ((cell r i).getD m - m) * ((cell r i).getD m - m)).sum =
      ((K.filterMap fun r => cell r i).map fun x => (x - m) * (x - m)).sum := by
  induction K with
  | nil => simp
  | cons r K ih =>
    rw [List.map_cons, List.sum_cons, ih, List.filterMap_cons]
    cases cell r i with
    | none => simp
    | some v => simp

theorem average_impute (K : List (List (Option ℝ))) (i : ℕ) (xs : List ℝ) (hK : (K.filterMap fun r => cell r i) = xs)
    (hv : xs ≠ []) : average (K.map fun r => (cell r i).getD (average xs)) = average xs := by
  have hn : (xs.length : ℝ) ≠ 0 := by exact_mod_cast (List.length_pos_iff.2 hv).ne'
  have hle : xs.length ≤ K.length := by
    rw [← hK]
    exact List.length_filterMap_le _ _
  have hk0 : (K.length : ℝ) ≠ 0 := by
    have := List.length_pos_iff.2 hv
    exact_mod_cast (by omega : K.length ≠ 0)
  have e : average (K.map fun r => (cell r i).getD (average xs)) =
      (xs.sum + (K.length - xs.length) * average xs) / K.length := by
    conv_lhs => unfold average
    rw [sum_filled, hK, List.length_map]
    rfl
  rw [e]
  unfold average
  field_simp
  ring

theorem average_filled {k : ℕ} {b : Batch} {i : ℕ} (hk : i < k) (hi : b.isNumeric i = true) (hv : b.values i ≠ []) :
    average ((b.kept k).map fun r => (cell r i).getD (average (b.values i))) = average (b.values i) :=
  average_impute _ _ _ (kept_values hk hi) hv

theorem comoment_filter {β : Type} (K : List β) (p : β → Bool) (u v : β → ℝ) (a c : ℝ) (h1 : average (K.map u) = a)
    (h2 : average ((K.filter p).map u) = a) (h3 : average (K.map v) = c) (h4 : average ((K.filter p).map v) = c)
    (hu : ∀ r ∈ K, p r = false → u r = a) :
    comoment ((K.filter p).map fun r => (u r, v r)) = comoment (K.map fun r => (u r, v r)) := by
  unfold comoment
  simp only [List.map_map, Function.comp_def]
  rw [h1, h2, h3, h4]
  clear h1 h2 h3 h4
  induction K with
  | nil => rfl
  | cons r K ih =>
    have ih := ih fun x hx => hu x (List.mem_cons_of_mem _ hx)
    rw [List.filter_cons]
    split_ifs with h
    · rw [List.map_cons, List.sum_cons, List.map_cons, List.sum_cons, ih]
    · rw [List.map_cons, List.sum_cons, hu r (by simp) (by simpa using h), ih]
      ring

/-- Rows without any number do not matter. -/
theorem pearson_filled {k : ℕ} {b : Batch} {i j : ℕ} (hi : i < k) (hj : j < k) (ni : b.isNumeric i = true)
    (nj : b.isNumeric j = true) (vi : b.values i ≠ []) (vj : b.values j ≠ []) :
    pearson (filledPairs k b i j) = pearson (imputed b.rows i j) := by
  have out : ∀ (l : ℕ) (r : List (Option ℝ)), l < k → b.isNumeric l = true →
      ((List.range k).any fun i => b.isNumeric i && (cell r i).isSome) = false →
      (cell r l).getD (average (b.values l)) = average (b.values l) := by
    intro l r hl nl h
    rw [List.any_eq_false] at h
    have := h l (List.mem_range.2 hl)
    cases hc : cell r l with
    | none => rfl
    | some x => rw [nl, hc] at this; simp at this
  have key : ∀ l m, l < k → m < k → b.isNumeric l = true → b.isNumeric m = true → b.values l ≠ [] → b.values m ≠ [] →
      comoment ((b.kept k).map fun r => ((cell r l).getD (average (b.values l)), (cell r m).getD (average (b.values m)))) =
      comoment (b.rows.map fun r => ((cell r l).getD (average (b.values l)), (cell r m).getD (average (b.values m)))) := by
    intro l m hl hm nl nm vl vm
    exact comoment_filter b.rows _ (fun r => (cell r l).getD (average (b.values l)))
      (fun r => (cell r m).getD (average (b.values m))) _ _ (average_impute _ _ _ rfl vl) (average_filled hl nl vl)
      (average_impute _ _ _ rfl vm) (average_filled hm nm vm) fun r _ h => out l r hl nl h
  have e1 := key i j hi hj ni nj vi vj
  have e2 := key i i hi hi ni ni vi vi
  have e3 := key j j hj hj nj nj vj vj
  have f2 : (filledPairs k b i j).map (fun p => (p.1, p.1)) =
      (b.kept k).map fun r => ((cell r i).getD (average (b.values i)), (cell r i).getD (average (b.values i))) := by
    simp only [filledPairs, List.map_map, Function.comp_def]
  have f3 : (filledPairs k b i j).map (fun p => (p.2, p.2)) =
      (b.kept k).map fun r => ((cell r j).getD (average (b.values j)), (cell r j).getD (average (b.values j))) := by
    simp only [filledPairs, List.map_map, Function.comp_def]
  have g2 : (imputed b.rows i j).map (fun p => (p.1, p.1)) =
      b.rows.map fun r => ((cell r i).getD (average (b.values i)), (cell r i).getD (average (b.values i))) := by
    simp only [imputed, List.map_map, Function.comp_def]
    rfl
  have g3 : (imputed b.rows i j).map (fun p => (p.2, p.2)) =
      b.rows.map fun r => ((cell r j).getD (average (b.values j)), (cell r j).getD (average (b.values j))) := by
    simp only [imputed, List.map_map, Function.comp_def]
    rfl
  unfold pearson
  rw [f2, f3, g2, g3, e2, e3]
  congr 1

theorem spread_filled {k : ℕ} {b : Batch} {i : ℕ} (hk : i < k) (hi : b.isNumeric i = true) (hv : b.values i ≠ []) :
    comoment (((b.kept k).map fun r => (cell r i).getD (average (b.values i))).map fun x => (x, x)) =
      sumSquares (b.values i) := by
  have e : ∀ xs : List ℝ, comoment (xs.map fun x => (x, x)) = (xs.map fun x => (x - average xs) * (x - average xs)).sum := by
    intro xs
    unfold comoment
    simp only [List.map_map, Function.comp_def, List.map_id']
  rw [sumSquares_eq, e, e, average_filled hk hi hv, List.map_map]
  have := squares_filled (b.kept k) i (average (b.values i))
  rw [kept_values hk hi] at this
  exact this

/-- Statistics of a batch with nulls. -/
theorem batch_holds_nulls {p : Prof} {k : ℕ} {b : Batch} {i j : ℕ} (hi : i < k) (hj : j < k) (ni : b.isNumeric i = true)
    (nj : b.isNumeric j = true) (vi : 0 < sumSquares (b.values i)) (vj : 0 < sumSquares (b.values j)) :
    Holds (batchCorr p k b) (batchMean p k b) (batchStd p k b) i j (filledPairs k b i j) := by
  have two : ∀ xs : List ℝ, 0 < sumSquares xs → 2 ≤ xs.length := by
    intro xs h
    match xs with
    | [] => simp [sumSquares] at h
    | [x] => simp [sumSquares] at h
    | _ :: _ :: _ => simp
  have ei : b.values i ≠ [] := by intro h; have := two _ vi; rw [h] at this; simp at this
  have ej : b.values j ≠ [] := by intro h; have := two _ vj; rw [h] at this; simp at this
  have hfst : (filledPairs k b i j).map Prod.fst = (b.kept k).map fun r => (cell r i).getD (average (b.values i)) := by
    simp [filledPairs, Function.comp_def]
  have hsnd : (filledPairs k b i j).map Prod.snd = (b.kept k).map fun r => (cell r j).getD (average (b.values j)) := by
    simp [filledPairs, Function.comp_def]
  have hlen : (filledPairs k b i j).length = (b.kept k).length := by simp [filledPairs]
  have h2 : 2 ≤ (b.kept k).length := by
    refine (two _ vi).trans ?_
    rw [← kept_values hi ni]
    exact List.length_filterMap_le _ _
  have h2r : (2 : ℝ) ≤ (b.kept k).length := by exact_mod_cast h2
  have hx : sxx (filledPairs k b i j) = sumSquares (b.values i) := by
    rw [← spread_filled hi ni ei, ← hfst, List.map_map]; rfl
  have hy : syy (filledPairs k b i j) = sumSquares (b.values j) := by
    rw [← spread_filled hj nj ej, ← hsnd, List.map_map]; rfl
  have std : ∀ l, b.isNumeric l = true → 0 < sumSquares (b.values l) →
      (batchStd p k b).get l = some (√(sumSquares (b.values l) / ((b.kept k).length - 1))) := by
    intro l nl vl
    have h3 : (2 : ℝ) ≤ (b.values l).length := by exact_mod_cast two _ vl
    have h4 : (0 : ℝ) < (b.values l).length - 1 := by linarith
    have h5 : (0 : ℝ) < (b.kept k).length - 1 := by linarith
    unfold batchStd
    simp only [nl, if_true]
    rw [recent_of (List.ne_nil_of_length_pos (by have := two _ vl; omega))]
    unfold biasedVariance
    rw [num_eq, num_eq, num_eq]
    push_cast
    rw [std_forms _ _ vl h3, some_mul, some_mul, some_div _ _ h5.ne', Real.mul_self_sqrt (by positivity),
      div_mul_cancel₀ _ h4.ne', root_some _ (by positivity)]
  have mn : ∀ l, b.isNumeric l = true → b.values l ≠ [] → (batchMean p k b).get l = some (average (b.values l)) := by
    intro l nl vl
    unfold batchMean
    simp only [nl, if_true]
    rw [recent_of vl]
    unfold mean average
    rw [num_eq, div_some _ _ (by exact_mod_cast (List.length_pos_iff.2 vl).ne')]
    rfl
  refine ⟨by rw [hlen]; exact h2, by rw [hx]; exact vi, by rw [hy]; exact vj, ?_, ?_, ?_, ?_, ?_⟩
  · have := corrcoef_pairs (filledPairs k b i j) (by rw [hlen]; exact h2) (by rw [hx]; exact vi) (by rw [hy]; exact vj)
    unfold batchCorr
    simp only [ni, nj, Bool.and_self, if_true]
    rw [← this, hfst, hsnd]
    unfold filled
    rw [recent_of ei, recent_of ej]
    rfl
  · rw [hfst, average_filled hi ni ei, mn i ni ei]
  · rw [hsnd, average_filled hj nj ej, mn j nj ej]
  · rw [hx, hlen, std i ni vi]
  · rw [hy, hlen, std j nj vj]

/-- **One batch with nulls**: for two numeric columns that vary, Pearson's coefficient of all rows with nulls replaced
by the mean of their column. A column counts as numeric once it had a number. -/
theorem C22_batch_nulls (b : Batch) (h0 : b.rows ≠ []) (hnum : ∀ l : ℕ, b.numeric[l]? = some true → present b.rows l ≠ []) (i j : ℕ) (hi : b.numeric[i]? = some true)
    (hj : b.numeric[j]? = some true) (vi : ∃ x ∈ present b.rows i, ∃ y ∈ present b.rows i, x ≠ y)
    (vj : ∃ x ∈ present b.rows j, ∃ y ∈ present b.rows j, x ≠ y) :
    ∃ p M, update .new b = .ok p ∧ p.matrix = some M ∧ M.get i j = some (pearson (imputed b.rows i j)) := by
  have pos : ∀ l, (∃ x ∈ b.values l, ∃ y ∈ b.values l, x ≠ y) → 0 < sumSquares (b.values l) := by
    rintro l ⟨x, hx, y, hy, hne⟩
    rw [sumSquares_eq]
    exact comoment_self_pos _ _ _ hx hy hne
  have nei : b.values i ≠ [] := by obtain ⟨x, hx, _⟩ := vi; exact List.ne_nil_of_mem hx
  have nej : b.values j ≠ [] := by obtain ⟨x, hx, _⟩ := vj; exact List.ne_nil_of_mem hx
  rw [← pearson_filled (Marked.lt hi) (Marked.lt hj) (Marked.getD hi) (Marked.getD hj) nei nej]
  refine ⟨⟨b.numeric, (List.range b.numeric.length).map fun i => Prof.new.values i ++ b.values i,
    (List.range b.numeric.length).map (recent .new b), 0 + b.rows.length,
    0 + b.rows.countP (fun r => (List.range b.numeric.length).all fun i => (cell r i).isNone),
    some (batchCorr .new b.numeric.length b)⟩, batchCorr .new b.numeric.length b, ?_, rfl,
    (batch_holds_nulls (Marked.lt hi) (Marked.lt hj) (Marked.getD hi) (Marked.getD hj) (pos i vi) (pos j vj)).corr⟩
  have he : ((List.range b.numeric.length).any fun i => b.isNumeric i && (recent .new b i).isEmpty) = false := by
    rw [List.any_eq_false]
    intro l hl hc
    rw [Bool.and_eq_true] at hc
    have hm : Marked b.numeric l := by
      have := getD_marked b.numeric l
      rw [show b.numeric.getD l false = true from hc.1] at this
      exact of_decide_eq_true this.symm
    have hv : b.values l ≠ [] := hnum l hm
    rw [recent_of hv] at hc
    exact hv (List.isEmpty_iff.1 hc.2)
  unfold update
  rw [if_neg h0]
  simp only [show Prof.new.width = 0 from rfl, if_true]
  rw [he]
  rfl

/-- **Merging with a profile of no rows** keeps the matrix of the other one, whichever comes first. -/
theorem C22_merge_empty (π : ℕ → ℕ) (p q : Prof) :
    (p.count = 0 → ∃ s, merge π p q = .ok s ∧ s.matrix = q.matrix) ∧
    (p.count ≠ 0 → q.count = 0 → ∃ s, merge π p q = .ok s ∧ s.matrix = p.matrix) := by
  unfold merge mergeMatrix
  refine ⟨fun h => ?_, fun h h' => ?_⟩
  · rw [if_pos h]
    exact ⟨_, rfl, rfl⟩
  · rw [if_neg h, if_pos h']
    exact ⟨_, rfl, rfl⟩

example : (∃ s, merge id .new .new = .ok s ∧ s.matrix = none) := (C22_merge_empty id .new .new).1 rfl

/-! ## What does not hold -/

/-- **Counterexample**: merging two profiles with at least two numeric columns and some other column always raises. -/
theorem C22_merge_mixed_raises_fails (numeric : List Bool) (h1 h2 : Hist) (g1 : Good numeric h1) (g2 : Good numeric h2)
    (f1 : Fed h1) (f2 : Fed h2) (htwo : 2 ≤ numeric.count true) (hmix : false ∈ numeric) :
    run (.merge h1 h2) = .error .valueError := by
  have h0 : numeric ≠ [] := by rintro rfl; simp at hmix
  obtain ⟨p, hp, ip⟩ := (inv_run h0 h1 g1).1 f1
  obtain ⟨q, hq, iq⟩ := (inv_run h0 h2 g2).1 f2
  obtain ⟨M, hM1, hM2, hM3, hM4⟩ := ip.matrix
  obtain ⟨N, hN1, hN2, hN3, hN4⟩ := iq.matrix
  have d1 := defined_eq hM2 hM3 hM4
  have d2 := defined_eq hN2 hN3 hN4
  have hlen : ((List.range numeric.length).filter fun i => decide (Marked numeric i)).length = numeric.count true := by
    have key : ∀ l : List Bool, ((List.range l.length).filter fun i => decide (Marked l i)).length = l.count true := by
      intro l
      induction l with
      | nil => rfl
      | cons f l ih =>
        rw [List.length_cons, List.range_succ_eq_map, List.filter_cons, List.filter_map, List.count_cons, ← ih]
        have : (List.range l.length).filter ((fun i => decide (Marked (f :: l) i)) ∘ Nat.succ) =
            (List.range l.length).filter fun i => decide (Marked l i) := by
          apply List.filter_congr
          intro i _
          simp [Marked]
        rw [this]
        cases f <;> simp [Marked]
    exact key numeric
  have hlt : numeric.count true < numeric.length := by
    have := List.count_le_length (a := true) (l := numeric)
    rcases this.lt_or_eq with h | h
    · exact h
    · have := List.count_eq_length.1 h false hmix
      simp at this
  have c1 := List.length_pos_iff.2 ip.nice.nonempty
  have c2 := List.length_pos_iff.2 iq.nice.nonempty
  have hh : mergeMatrix p q = .error .valueError := by
    unfold mergeMatrix
    rw [if_neg (by rw [ip.count]; omega), if_neg (by rw [iq.count]; omega), hM1, hN1]
    simp only [d1, d2]
    rw [if_neg (by rw [hlen]; omega), if_neg (by simp)]
    unfold helper
    simp only [pick, hlen]
    rw [if_neg (by omega), if_neg (by omega), if_neg (by rw [hM2]; omega)]
  simp only [run, hp, hq, merge, hh]

theorem sumSquares_const (xs : List ℝ) (c : ℝ) (h : ∀ x ∈ xs, x = c) : sumSquares xs = 0 := by
  have e : xs = List.replicate xs.length c := List.eq_replicate_iff.2 ⟨rfl, h⟩
  rw [e]
  unfold sumSquares
  rcases Nat.eq_zero_or_pos xs.length with h0 | h0
  · simp [h0]
  · have : (xs.length : ℝ) ≠ 0 := by exact_mod_cast h0.ne'
    simp only [List.sum_replicate, List.length_replicate, List.map_replicate, nsmul_eq_mul]
    field_simp
    simp

/-- **Counterexample**: once a column is constant in one batch (or has no or a single value), its correlations are lost
whatever comes before and after. -/
theorem C22_constant_batch_fails (p p' : Prof) (b : Batch) (i j : ℕ) (hb : b.rows ≠ []) (hm : p.matrix ≠ none)
    (hw : p.width ≠ 0) (c : ℝ) (hcon : ∀ x ∈ present b.rows i, x = c) (h : update p b = .ok p') :
    ∃ M, p'.matrix = some M ∧ M.get i j = none := by
  have hc : sumSquares (filled p p.width b i) = 0 := by
    have hcell : ∀ r ∈ b.rows, ∀ y, cell r i = some y → y = c := by
      intro r hr y hy
      exact hcon y (List.mem_filterMap.2 ⟨r, hr, hy⟩)
    have hkept : ∀ r ∈ b.kept p.width, r ∈ b.rows := fun r hr => List.mem_of_mem_filter hr
    by_cases hv : b.values i = []
    · refine sumSquares_const _ ((recent p b i).sum / (recent p b i).length) ?_
      intro x hx
      obtain ⟨r, hr, rfl⟩ := List.mem_map.1 hx
      cases hcc : cell r i with
      | none => rfl
      | some y =>
        have : y ∈ b.values i := List.mem_filterMap.2 ⟨r, hkept r hr, hcc⟩
        rw [hv] at this
        simp at this
    · refine sumSquares_const _ c ?_
      intro x hx
      obtain ⟨r, hr, rfl⟩ := List.mem_map.1 hx
      cases hcc : cell r i with
      | some y => exact hcell r (hkept r hr) y hcc
      | none =>
        have e : b.values i = List.replicate (b.values i).length c := List.eq_replicate_iff.2 ⟨rfl, fun y hy => hcon y hy⟩
        have hne : ((b.values i).length : ℝ) ≠ 0 := by exact_mod_cast (List.length_pos_iff.2 hv).ne'
        rw [recent_of hv, Option.getD_none, e, List.sum_replicate, List.length_replicate, nsmul_eq_mul]
        field_simp
  have hcorr : (batchCorr p p.width b).get i j = none := by
    unfold batchCorr
    simp only
    split_ifs
    · unfold corrcoef
      simp only [hc, num_eq]
      generalize (((filled p p.width b i).length - 1 : ℤ) : ℝ) = n
      by_cases h0 : n = 0
      · have : ∀ x, div (some x) (some n) = none := fun x => if_pos h0
        rw [this, none_div]
      · rw [div_some 0 n h0, zero_div, root_some 0 (le_refl _), Real.sqrt_zero]
        cases root (div (some (sumSquares (filled p p.width b j))) (some n)) with
        | none => exact div_none _
        | some y =>
          rw [some_mul, zero_mul, div_some _ _ h0]
          exact if_pos rfl
    · rfl
  unfold update at h
  rw [if_neg hb] at h
  simp only [if_neg hw] at h
  obtain ⟨A, hA⟩ := Option.ne_none_iff_exists'.1 hm
  rw [hA] at h
  unfold helper at h
  have s1 : (prevMean p).size = p.width := rfl
  have s2 : (batchMean p p.width b).size = p.width := rfl
  simp only [s1, s2, if_neg hw] at h
  split_ifs at h
  cases h
  refine ⟨_, rfl, ?_⟩
  unfold combine
  simp only [hcorr, none_mul, add_none, none_add, none_div]

/-- **Counterexample**: after a merge, a batch in which a numeric column has no value raises, as merged columns have no batch
history. -/
theorem C22_after_merge_raises_fails (π : ℕ → ℕ) (p q s : Prof) (hs : merge π p q = .ok s) (b : Batch) (hb : b.rows ≠ []) (i : ℕ)
    (hi : i < s.width) (hn : b.numeric[i]? = some true) (he : present b.rows i = []) : update s b = .error .indexError := by
  have hl : s.lately = [] := by
    unfold merge at hs
    split at hs
    · cases hs
    · cases hs; rfl
  have hv : b.values i = [] := he
  unfold update
  rw [if_neg hb]
  have hw : s.width ≠ 0 := by omega
  simp only [hw, if_false]
  rw [if_pos]
  rw [List.any_eq_true]
  refine ⟨i, List.mem_range.2 hi, ?_⟩
  rw [Bool.and_eq_true]
  refine ⟨Marked.getD hn, ?_⟩
  unfold recent
  rw [if_pos hv, hl]
  rfl

/-- The batches seen so far leave this state behind. -/
structure Tracks (k : ℕ) (bs : List Batch) (p : Prof) : Prop where
  width : p.width = k
  matrix : ∃ M, p.matrix = some M ∧ M.size = k
  lately : ∀ i < k, p.lately.getD i [] = [] → ∀ b ∈ bs, present b.rows i = []

theorem update_tracks {k : ℕ} (hk : 0 < k) {bs : List Batch} {p : Prof} {b : Batch} (hb : b.rows ≠ []) (hl : b.numeric.length = k)
    (hp : (p = .new ∧ bs = []) ∨ Tracks k bs p)
    (hnum : ∀ i : ℕ, b.numeric[i]? = some true → ∃ c ∈ bs ++ [b], present c.rows i ≠ []) :
    ∃ p', update p b = .ok p' ∧ Tracks k (bs ++ [b]) p' := by
  have hkk : (if p.width = 0 then b.numeric.length else p.width) = k := by
    rcases hp with ⟨rfl, _⟩ | hp
    · rw [if_pos (show Prof.new.width = 0 from rfl), hl]
    · rw [hp.width]; split_ifs <;> omega
  have hrec : ∀ i < k, recent p b i = [] → ∀ c ∈ bs ++ [b], present c.rows i = [] := by
    intro i hi hr c hc
    have hv : b.values i = [] := by
      by_contra hv
      rw [recent_of hv] at hr
      exact hv hr
    rcases List.mem_append.1 hc with hc | hc
    · rcases hp with ⟨_, rfl⟩ | hp
      · simp at hc
      · unfold recent at hr
        rw [if_pos hv] at hr
        exact hp.lately i hi hr c hc
    · rw [List.mem_singleton.1 hc]; exact hv
  have hany : ((List.range k).any fun i => b.isNumeric i && (recent p b i).isEmpty) = false := by
    rw [List.any_eq_false]
    intro i hi hc
    rw [Bool.and_eq_true] at hc
    have hm : Marked b.numeric i := by
      have := getD_marked b.numeric i
      rw [show b.numeric.getD i false = true from hc.1] at this
      exact of_decide_eq_true this.symm
    obtain ⟨c, hc1, hc2⟩ := hnum i hm
    exact hc2 (hrec i (List.mem_range.1 hi) (List.isEmpty_iff.1 hc.2) c hc1)
  have hhelp : ∃ M, helper p.matrix (prevMean p) (prevStd p) p.count (some (batchCorr p k b)) (batchMean p k b) (batchStd p k b)
      (b.kept k).length = .ok (some M) ∧ M.size = k := by
    rcases hp with ⟨rfl, _⟩ | hp
    · exact ⟨_, rfl, rfl⟩
    · obtain ⟨M, hM, hs⟩ := hp.matrix
      have s1 : (prevMean p).size = k := hp.width
      have s2 : (prevStd p).size = k := hp.width
      rw [hM]
      unfold helper
      simp only [s1, s2, hs]
      rw [if_neg (by omega), if_neg (by show k ≠ 0; omega), if_pos (by simp [batchCorr, batchMean, batchStd])]
      exact ⟨_, rfl, hs⟩
  obtain ⟨M, hM, hs⟩ := hhelp
  refine ⟨⟨b.numeric, (List.range k).map fun i => p.values i ++ b.values i, (List.range k).map (recent p b), p.total + b.rows.length,
    p.nullRows + b.rows.countP (fun r => (List.range k).all fun i => (cell r i).isNone), some M⟩, ?_, ?_⟩
  · unfold update
    rw [if_neg hb]
    simp only [hkk, hM]
    rw [hany]
    rfl
  · refine ⟨by simp [Prof.width], ⟨M, rfl, hs⟩, ?_⟩
    intro i hi hr
    exact hrec i hi ((values_map k (recent p b) i hi).symm.trans hr)

/-- Batches one after the other. -/
def stream : List Batch → Hist
  | [] => .new
  | b :: bs => .update (stream bs) b

/-- **No exception without merges**: batches of one table, each with some rows, in which a column counts as numeric only if this or
an earlier batch had a number in it. `bs` lists the batches with the latest first. -/
theorem C22_updates_go_through (k : ℕ) (hk : 0 < k) (bs : List Batch)
    (h : ∀ b rest, (b :: rest) <:+ bs → b.rows ≠ [] ∧ b.numeric.length = k ∧
      ∀ i : ℕ, b.numeric[i]? = some true → ∃ c ∈ b :: rest, present c.rows i ≠ []) :
    ∃ p, run (stream bs) = .ok p := by
  have key : ∃ p, run (stream bs) = .ok p ∧ ((p = .new ∧ bs = []) ∨ Tracks k bs.reverse p) := by
    induction bs with
    | nil => exact ⟨.new, rfl, .inl ⟨rfl, rfl⟩⟩
    | cons b bs ih =>
      obtain ⟨p, hp, ht⟩ := ih fun b' rest hr => h b' rest (hr.trans (List.suffix_cons _ _))
      obtain ⟨h1, h2, h3⟩ := h b bs List.suffix_rfl
      obtain ⟨p', hp', ht'⟩ := update_tracks (bs := bs.reverse) hk h1 h2
        (by rcases ht with ⟨a, rfl⟩ | ht
            · exact .inl ⟨a, rfl⟩
            · exact .inr ht)
        (by
          intro i hi
          obtain ⟨c, hc1, hc2⟩ := h3 i hi
          refine ⟨c, ?_, hc2⟩
          rw [← List.reverse_cons, List.mem_reverse]
          exact hc1)
      refine ⟨p', ?_, .inr ?_⟩
      · simp only [stream, run, hp, hp']
      · rw [List.reverse_cons]; exact ht'
  obtain ⟨p, hp, _⟩ := key
  exact ⟨p, hp⟩

/-- Two rows without nulls. -/
def early : Batch := ⟨[[some 0, some 0], [some 2, some 2]], [true, true]⟩

/-- Three rows, one null. -/
def late : Batch := ⟨[[some 0, some 10], [some 2, some 12], [some 1, none]], [true, true]⟩

theorem early_complete : Complete [true, true] early := by
  refine ⟨rfl, by simp [early], ?_, ?_, ?_⟩
  · intro r hr
    simp only [early, List.mem_cons, List.not_mem_nil, or_false] at hr
    rcases hr with rfl | rfl <;> rfl
  · intro r hr c hc
    simp only [early, List.mem_cons, List.not_mem_nil, or_false] at hr
    rcases hr with rfl | rfl <;> simp at hc <;> rcases hc with rfl | rfl <;> simp
  · intro i hi
    have : i = 0 ∨ i = 1 := by
      have := Marked.lt hi
      simp at this
      omega
    refine ⟨[some 0, some 0], by simp [early], [some 2, some 2], by simp [early], ?_⟩
    rcases this with rfl | rfl <;> simp

theorem pearson_early_late :
    pearson (pairs early.rows 0 1 ++ filledPairs 2 late 0 1) = 4 / (√4 * √124) := by
  have e : pairs early.rows 0 1 ++ filledPairs 2 late 0 1 = [(0, 0), (2, 2), (0, 10), (2, 12), (1, 11)] := by
    simp [pairs, early, filledPairs, late, Batch.kept, Batch.isNumeric, Batch.values, cell, average, List.range_succ]
    norm_num
  rw [e]
  unfold pearson comoment average
  norm_num

/-- The same rows in one batch. -/
def both : Batch := ⟨early.rows ++ late.rows, [true, true]⟩

theorem pearson_both : pearson (imputed both.rows 0 1) = 4 / (√4 * √104) := by
  have e : imputed both.rows 0 1 = [(0, 0), (2, 2), (0, 10), (2, 12), (1, 6)] := by
    simp [both, early, imputed, late, present, average]
    norm_num
  rw [e]
  unfold pearson comoment average
  norm_num

/-- **Counterexample**: with nulls the result depends on the batches, as nulls are replaced by the mean of their own
batch: the same five rows give 4/√496 in two batches and 4/√416 in one. -/
theorem C22_nulls_batching_fails :
    (∃ p M, run (.update (.update .new early) late) = .ok p ∧ p.matrix = some M ∧ M.get 0 1 = some (4 / (√4 * √124))) ∧
    (∃ p M, run (.update .new both) = .ok p ∧ p.matrix = some M ∧ M.get 0 1 = some (4 / (√4 * √104))) ∧
    (4 / (√4 * √124) : ℝ) ≠ 4 / (√4 * √104) := by
  have sq : ∀ x y : ℝ, x ≠ y → ∀ l : List ℝ, x ∈ l → y ∈ l → 0 < sumSquares l := by
    intro x y h l hx hy
    rw [sumSquares_eq]
    exact comoment_self_pos _ _ _ hx hy h
  refine ⟨?_, ?_, ?_⟩
  · obtain ⟨p, hp, hi⟩ := inv_first (numeric := [true, true]) (by simp) early_complete
    obtain ⟨M, h1, h2, h3, _⟩ := hi.matrix
    have hh := combine_entry (prev_holds hi h3 (i := 0) (j := 1) rfl rfl)
      (batch_holds_nulls (p := p) (k := 2) (b := late) (i := 0) (j := 1) (by simp) (by simp) rfl rfl
        (sq 0 2 (by norm_num) _ (by simp [late, Batch.values, cell]) (by simp [late, Batch.values, cell]))
        (sq 10 12 (by norm_num) _ (by simp [late, Batch.values, cell]) (by simp [late, Batch.values, cell])))
    have hlen : (filledPairs 2 late 0 1).length = (late.kept 2).length := by simp [filledPairs]
    rw [pairs_length, hlen, pearson_early_late] at hh
    have hw : p.width = 2 := hi.width
    simp only [run, hp]
    unfold update
    rw [if_neg (by simp [late]), h1, hi.count]
    simp only [hw]
    have e : helper (some M) (prevMean p) (prevStd p) early.rows.length (some (batchCorr p 2 late)) (batchMean p 2 late)
        (batchStd p 2 late) (late.kept 2).length = .ok (some (combine M (prevMean p) (prevStd p) early.rows.length
          (batchCorr p 2 late) (batchMean p 2 late) (batchStd p 2 late) (late.kept 2).length)) := by
      have s1 : (prevMean p).size = 2 := hw
      have s2 : (prevStd p).size = 2 := hw
      unfold helper
      simp only [s1, s2]
      rw [if_neg (by simp), if_neg (by simp [batchMean]), if_pos (by simp [h2, batchCorr, batchMean, batchStd])]
    simp only [show ¬ (2 = 0) by simp, if_false, e]
    exact ⟨_, _, rfl, rfl, hh⟩
  · obtain ⟨p, M, h1, h2, h3⟩ := C22_batch_nulls both (by simp [both, early])
      (by
        intro l hl
        have hlt := Marked.lt hl
        have : l = 0 ∨ l = 1 := by simp [both] at hlt; omega
        rcases this with rfl | rfl <;> simp [both, early, late, present]) 0 1 rfl rfl
      ⟨0, by simp [both, early, late, present], 2, by simp [both, early, late, present], by norm_num⟩
      ⟨0, by simp [both, early, late, present], 2, by simp [both, early, late, present], by norm_num⟩
    exact ⟨p, M, h1, h2, by rw [h3]; exact congrArg _ pearson_both⟩
  · have h1 : √(104 : ℝ) < √124 := Real.sqrt_lt_sqrt (by norm_num) (by norm_num)
    have h2 : (0 : ℝ) < √4 := Real.sqrt_pos.2 (by norm_num)
    have h3 : (0 : ℝ) < √104 := Real.sqrt_pos.2 (by norm_num)
    intro he
    have h4 : √4 * √124 = √4 * √104 := by
      field_simp at he
      rw [he]
    have := mul_left_cancel₀ h2.ne' h4
    linarith

theorem two_rows_complete (x y z w : ℝ) (h1 : x ≠ z) (h2 : y ≠ w) :
    Complete [true, true] ⟨[[some x, some y], [some z, some w]], [true, true]⟩ := by
  refine ⟨rfl, by simp, ?_, ?_, ?_⟩
  · intro r hr
    simp only [List.mem_cons, List.not_mem_nil, or_false] at hr
    rcases hr with rfl | rfl <;> rfl
  · intro r hr c hc
    simp only [List.mem_cons, List.not_mem_nil, or_false] at hr
    rcases hr with rfl | rfl <;> simp at hc <;> rcases hc with rfl | rfl <;> simp
  · intro i hi
    have : i = 0 ∨ i = 1 := by
      have := Marked.lt hi
      simp at this
      omega
    refine ⟨[some x, some y], by simp, [some z, some w], by simp, ?_⟩
    rcases this with rfl | rfl
    · simpa using h1
    · simpa using h2

/-- **Counterexample**: columns are merged by name but correlations by position. Columns `a, b` holding (0,0), (2,4)
merged with columns `b, a` holding (0,10), (4,12) give 17/√1001; the correlation of `a` and `b` is 8/√1664. -/
theorem C22_merge_permuted_fails :
    ∃ p q s M, run (.update .new ⟨[[some 0, some 0], [some 2, some 4]], [true, true]⟩) = .ok p ∧
      run (.update .new ⟨[[some 0, some 10], [some 4, some 12]], [true, true]⟩) = .ok q ∧
      merge (fun i => 1 - i) p q = .ok s ∧ s.seen = [[0, 2, 10, 12], [0, 4, 0, 4]] ∧
      s.matrix = some M ∧ M.get 0 1 = some (17 / (√11 * √91)) ∧
      pearson [(0, 0), (2, 4), (10, 0), (12, 4)] = 8 / (√104 * √16) := by
  obtain ⟨p, hp, ip⟩ := inv_first (numeric := [true, true]) (by simp)
    (two_rows_complete 0 0 2 4 (by norm_num) (by norm_num))
  obtain ⟨q, hq, iq⟩ := inv_first (numeric := [true, true]) (by simp)
    (two_rows_complete 0 10 4 12 (by norm_num) (by norm_num))
  obtain ⟨s, hs, is⟩ := inv_merge (by simp) (by simp) ip iq
  obtain ⟨M, m1, m2, m3, m4⟩ := is.matrix
  have hm := m3 0 1 rfl rfl
  have e : mergeMatrix p q = .ok (some M) := by
    unfold merge at hs
    split at hs
    · simp at hs
    · rename_i m' hm'
      rw [hm']
      cases hs
      exact congrArg Except.ok m1
  have v : ∀ i < 2, p.values i = _ := ip.values
  have w : ∀ i < 2, q.values i = _ := iq.values
  have hw : p.width = 2 := ip.width
  refine ⟨p, q, ⟨(List.range p.width).map (fun i => p.isNumeric i && q.isNumeric (1 - i)),
      (List.range p.width).map (fun i => p.values i ++ q.values (1 - i)), [], p.total + q.total, p.nullRows + q.nullRows, some M⟩,
    M, hp, hq, ?_, ?_, rfl, ?_, ?_⟩
  · unfold merge
    rw [e]
  · simp only [hw, List.range_succ, List.range_zero, List.nil_append, List.map_cons, List.map_nil, Nat.sub_zero,
      Nat.sub_self, List.singleton_append]
    rw [v 0 (by simp), v 1 (by simp), w 0 (by simp), w 1 (by simp)]
    simp [column, cell]
  · rw [hm]
    simp only [pairs]
    unfold pearson comoment average
    norm_num
  · unfold pearson comoment average
    norm_num

-- a second batch without numbers in its second column goes through after a batch, and raises after a merge
example : (∃ p, run (.update (.update .new early) ⟨[[some 5, none]], [true, true]⟩) = .ok p) ∧
    run (.update (.merge (.update .new early) (.update .new early)) ⟨[[some 5, none]], [true, true]⟩) = .error .indexError := by
  refine ⟨?_, ?_⟩
  · have h2 : ∀ i : ℕ, ([true, true] : List Bool)[i]? = some true → i = 0 ∨ i = 1 := by
      intro i hi
      have := Marked.lt (numeric := [true, true]) hi
      simp at this
      omega
    refine C22_updates_go_through 2 (by simp) [⟨[[some 5, none]], [true, true]⟩, early] ?_
    intro b rest hr
    rcases List.suffix_cons_iff.1 hr with h | h
    · cases h
      refine ⟨by simp, rfl, ?_⟩
      intro i hi
      refine ⟨early, by simp, ?_⟩
      rcases h2 i hi with rfl | rfl <;> simp [early, present]
    · rcases List.suffix_cons_iff.1 h with h | h
      · cases h
        refine ⟨by simp [early], rfl, ?_⟩
        intro i hi
        refine ⟨early, by simp, ?_⟩
        rcases h2 i hi with rfl | rfl <;> simp [early, present]
      · simp at h
  · obtain ⟨p, hp, ip⟩ := inv_first (numeric := [true, true]) (by simp) early_complete
    obtain ⟨s, hs, is⟩ := inv_merge (by simp) (by simp) ip ip
    simp only [run, hp, hs]
    exact C22_after_merge_raises_fails id p p s hs _ (by simp) 1 (by rw [is.width]; simp) rfl (by simp [present])

-- a history meeting the hypotheses: two batches merged with a third; first against second column
example : Good [true, true] (.merge (.update (.update .new early) early) (.update .new early)) ∧
    Fed (.merge (.update (.update .new early) early) (.update .new early)) :=
  ⟨⟨⟨⟨trivial, early_complete⟩, early_complete⟩, ⟨trivial, early_complete⟩, trivial, trivial, by simp, by simp⟩,
    trivial, trivial⟩

-- an uneven case: the pairs (1,1), (2,2), (3,4), (4,3) have coefficient 4/5
example : pearson [(1, 1), (2, 2), (3, 4), (4, 3)] = 4 / 5 := by
  unfold pearson comoment average
  norm_num

end

end Verif.Correlation
