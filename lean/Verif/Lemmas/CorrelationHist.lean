import Verif.Lemmas.Correlation

/-!
# Lemmas on correlation matrices over histories
-/

namespace Verif.Correlation

open Verif.CorrelationSpec

noncomputable section

/-- The numbers of a column. -/
def column (rows : List (List (Option ℝ))) (i : ℕ) : List ℝ := rows.map fun r => (cell r i).getD 0

/-- Rows of `k` cells without nulls. -/
def Filled (k : ℕ) (rows : List (List (Option ℝ))) : Prop := ∀ r ∈ rows, r.length = k ∧ ∀ c ∈ r, c ≠ none

theorem Filled.cell {k : ℕ} {rows : List (List (Option ℝ))} (h : Filled k rows) {r : List (Option ℝ)} (hr : r ∈ rows)
    {i : ℕ} (hi : i < k) : cell r i = some ((Correlation.cell r i).getD 0) := by
  obtain ⟨hl, hc⟩ := h r hr
  have hi' : i < r.length := by omega
  have : Correlation.cell r i = r[i] := by
    unfold Correlation.cell
    rw [List.getD_eq_getElem _ _ hi']
  rw [this]
  have := hc _ (List.getElem_mem hi')
  cases hv : r[i] with
  | none => exact absurd hv this
  | some v => rfl

theorem Filled.values {k : ℕ} {b : Batch} (h : Filled k b.rows) {i : ℕ} (hi : i < k) : b.values i = column b.rows i := by
  unfold Batch.values column
  generalize hb : b.rows = rows
  rw [hb] at h
  clear hb
  induction rows with
  | nil => rfl
  | cons r rows ih =>
    rw [List.filterMap_cons, h.cell (by simp) hi, List.map_cons]
    simp only
    rw [ih fun s hs => h s (by simp [hs])]

theorem pairs_fst (rows : List (List (Option ℝ))) (i j : ℕ) : (pairs rows i j).map Prod.fst = column rows i := by
  simp [pairs, column, cell, List.map_map, Function.comp_def]

theorem pairs_snd (rows : List (List (Option ℝ))) (i j : ℕ) : (pairs rows i j).map Prod.snd = column rows j := by
  simp [pairs, column, cell, List.map_map, Function.comp_def]

theorem pairs_append (r1 r2 : List (List (Option ℝ))) (i j : ℕ) : pairs (r1 ++ r2) i j = pairs r1 i j ++ pairs r2 i j := by
  simp [pairs]

theorem pairs_length (rows : List (List (Option ℝ))) (i j : ℕ) : (pairs rows i j).length = rows.length := by
  simp [pairs]

theorem column_length (rows : List (List (Option ℝ))) (i : ℕ) : (column rows i).length = rows.length := by
  simp [column]

theorem column_append (r1 r2 : List (List (Option ℝ))) (i : ℕ) : column (r1 ++ r2) i = column r1 i ++ column r2 i := by
  simp [column]

/-- Sum of squares of a column. -/
def spread (rows : List (List (Option ℝ))) (i : ℕ) : ℝ := comoment ((column rows i).map fun x => (x, x))

theorem sxx_pairs (rows : List (List (Option ℝ))) (i j : ℕ) : sxx (pairs rows i j) = spread rows i := by
  unfold sxx spread
  rw [← pairs_fst rows i j, List.map_map]
  rfl

theorem syy_pairs (rows : List (List (Option ℝ))) (i j : ℕ) : syy (pairs rows i j) = spread rows j := by
  unfold syy spread
  rw [← pairs_snd rows i j, List.map_map]
  rfl

theorem sumSquares_eq (xs : List ℝ) : sumSquares xs = comoment (xs.map fun x => (x, x)) := by
  unfold sumSquares comoment average
  simp only [List.map_map, Function.comp_def, List.map_id', pow_two]

theorem sumSquares_column (rows : List (List (Option ℝ))) (i : ℕ) : sumSquares (column rows i) = spread rows i :=
  sumSquares_eq _

theorem mean_column (rows : List (List (Option ℝ))) (i : ℕ) (h : rows ≠ []) :
    mean (column rows i) = some (average (column rows i)) := by
  unfold mean average
  rw [num_eq, div_some _ _ (by simpa [column_length] using h)]
  simp

/-- Standard deviations however computed. -/
theorem std_forms (s n : ℝ) (hs : 0 < s) (hn : 2 ≤ n) :
    root (div (some s) (some n) * some n / some (n - 1)) = some (√(s / (n - 1))) := by
  have h1 : n ≠ 0 := by linarith
  have h2 : n - 1 ≠ 0 := by linarith
  have h3 : 0 < n - 1 := by linarith
  rw [div_some _ _ h1, some_mul, some_div _ _ h2, div_mul_cancel₀ _ h1, root_some _ (by positivity)]

theorem std_adjusted (s n : ℝ) (hs : 0 < s) (hn : 2 ≤ n) :
    root (some (√(s / (n - 1))) * some (√(s / (n - 1))) * some (n - 1) / some (n - 1)) = some (√(s / (n - 1))) := by
  have h2 : n - 1 ≠ 0 := by linarith
  have h3 : 0 < n - 1 := by linarith
  have h4 : √(s / (n - 1)) * √(s / (n - 1)) = s / (n - 1) := Real.mul_self_sqrt (by positivity)
  rw [some_mul, some_mul, some_div _ _ h2, h4, mul_div_assoc, div_self h2, mul_one, root_some _ (by positivity)]

theorem corrcoef_pairs (ps : List (ℝ × ℝ)) (h2 : 2 ≤ ps.length) (hx : 0 < sxx ps) (hy : 0 < syy ps) :
    corrcoef (ps.map Prod.fst) (ps.map Prod.snd) = some (pearson ps) := by
  have hn : (2 : ℝ) ≤ ps.length := by exact_mod_cast h2
  have hn1 : (ps.length : ℝ) - 1 ≠ 0 := by linarith
  have hn2 : 0 < (ps.length : ℝ) - 1 := by linarith
  have e1 : sumSquares (ps.map Prod.fst) = sxx ps := by
    rw [sumSquares_eq, List.map_map]; rfl
  have e2 : sumSquares (ps.map Prod.snd) = syy ps := by
    rw [sumSquares_eq, List.map_map]; rfl
  have e3 : ∀ a b : ℝ, (List.zipWith (fun x y => (x - a) * (y - b)) (ps.map Prod.fst) (ps.map Prod.snd)).sum =
      (ps.map fun p => (p.1 - a) * (p.2 - b)).sum := by
    intro a b
    rw [List.zipWith_map_left, List.zipWith_map_right]
    congr 1
    induction ps with
    | nil => rfl
    | cons p ps ih => simp
  unfold corrcoef
  simp only [e1, e2, e3, num_eq, List.length_map]
  push_cast
  rw [div_some _ _ hn1, div_some _ _ hn1, div_some _ _ hn1, root_some _ (by positivity), root_some _ (by positivity), some_mul,
    some_div _ _ (by positivity), cov_div_std _ _ _ _ hx hy hn2]
  have e4 : (ps.map fun p => (p.1 - (ps.map Prod.fst).sum / (ps.length : ℝ)) *
      (p.2 - (ps.map Prod.snd).sum / (ps.length : ℝ))).sum = comoment ps := by
    unfold comoment average
    simp only [List.length_map]
  rw [e4]
  rfl

/-! ## One batch -/

/-- `numeric` marks column `i`. -/
def Marked (numeric : List Bool) (i : ℕ) : Prop := numeric[i]? = some true

instance (numeric : List Bool) (i : ℕ) : Decidable (Marked numeric i) := by unfold Marked; infer_instance

theorem Marked.lt {numeric : List Bool} {i : ℕ} (h : Marked numeric i) : i < numeric.length :=
  (List.getElem?_eq_some_iff.1 h).1

theorem getD_marked (numeric : List Bool) (i : ℕ) : numeric.getD i false = decide (Marked numeric i) := by
  rw [List.getD_eq_getElem?_getD, Bool.eq_iff_iff, decide_eq_true_iff]
  unfold Marked
  cases numeric[i]? with
  | none => simp
  | some f => simp

theorem Marked.getD {numeric : List Bool} {i : ℕ} (h : Marked numeric i) : numeric.getD i false = true := by
  rw [getD_marked, decide_eq_true h]

/-- What is known of rows with the marked columns varying. -/
structure Nice (numeric : List Bool) (rows : List (List (Option ℝ))) : Prop where
  filled : Filled numeric.length rows
  nonempty : rows ≠ []
  two : ∀ i, Marked numeric i → 2 ≤ rows.length
  spread : ∀ i, Marked numeric i → 0 < spread rows i

theorem Complete.nice {numeric : List Bool} {b : Batch} (h : Complete numeric b) : Nice numeric b.rows := by
  have hf : Filled numeric.length b.rows := fun r hr => ⟨h.widths r hr, h.full r hr⟩
  have key : ∀ i, Marked numeric i → ∃ r ∈ b.rows, ∃ s ∈ b.rows, (cell r i).getD 0 ≠ (cell s i).getD 0 := by
    intro i hi
    obtain ⟨r, hr, s, hs, hne⟩ := h.varied i hi
    refine ⟨r, hr, s, hs, fun he => hne ?_⟩
    have h1 := hf.cell hr hi.lt
    have h2 := hf.cell hs hi.lt
    rw [he, ← h2] at h1
    unfold cell at h1
    have hr' : i < r.length := by rw [h.widths r hr]; exact hi.lt
    have hs' : i < s.length := by rw [h.widths s hs]; exact hi.lt
    rw [List.getD_eq_getElem _ _ hr', List.getD_eq_getElem _ _ hs'] at h1
    rw [List.getElem?_eq_getElem hr', List.getElem?_eq_getElem hs', h1]
  refine ⟨hf, h.nonempty, ?_, ?_⟩
  · intro i hi
    obtain ⟨r, hr, s, hs, hne⟩ := key i hi
    match hb : b.rows with
    | [] => exact absurd hb h.nonempty
    | [x] =>
      rw [hb] at hr hs
      simp only [List.mem_singleton] at hr hs
      rw [hr, hs] at hne
      exact absurd rfl hne
    | _ :: _ :: _ => simp
  · intro i hi
    obtain ⟨r, hr, s, hs, hne⟩ := key i hi
    exact comoment_self_pos _ _ _ (List.mem_map.2 ⟨r, hr, rfl⟩) (List.mem_map.2 ⟨s, hs, rfl⟩) hne

theorem Nice.append {numeric : List Bool} {r1 r2 : List (List (Option ℝ))} (h1 : Nice numeric r1) (h2 : Nice numeric r2) :
    Nice numeric (r1 ++ r2) := by
  refine ⟨?_, by simp [h1.nonempty], ?_, ?_⟩
  · intro r hr
    rcases List.mem_append.1 hr with hr | hr
    · exact h1.filled r hr
    · exact h2.filled r hr
  · intro i hi
    have := h1.two i hi
    simp only [List.length_append]
    omega
  · intro i hi
    have a := h1.spread i hi
    have b := h2.spread i hi
    rw [← sxx_pairs r1 i i] at a
    rw [← sxx_pairs r2 i i] at b
    rw [← sxx_pairs _ i i, pairs_append, sxx_append _ _ (by simpa [pairs] using h1.nonempty)
      (by simpa [pairs] using h2.nonempty)]
    have := mul_self_nonneg (average ((pairs r2 i i).map Prod.fst) - average ((pairs r1 i i).map Prod.fst))
    positivity

theorem kept_all {numeric : List Bool} {b : Batch} (hn : Nice numeric b.rows) (ht : b.numeric = numeric) {i : ℕ}
    (hi : Marked numeric i) : b.kept numeric.length = b.rows := by
  unfold Batch.kept
  rw [List.filter_eq_self]
  intro r hr
  rw [List.any_eq_true]
  refine ⟨i, List.mem_range.2 hi.lt, ?_⟩
  rw [hn.filled.cell hr hi.lt]
  simp only [Batch.isNumeric, ht, hi.getD, Option.isSome_some, Bool.and_self]

theorem recent_of {p : Prof} {b : Batch} {i : ℕ} (h : b.values i ≠ []) : recent p b i = b.values i := if_neg h

theorem recent_nice {numeric : List Bool} {p : Prof} {b : Batch} (hn : Nice numeric b.rows) {i : ℕ} (hi : i < numeric.length) :
    recent p b i = column b.rows i := by
  rw [recent_of, hn.filled.values hi]
  rw [hn.filled.values hi]
  intro h
  have := congrArg List.length h
  rw [column_length] at this
  exact hn.nonempty (List.length_eq_zero_iff.1 this)

theorem recent_ne {numeric : List Bool} {p : Prof} {b : Batch} (hn : Nice numeric b.rows) :
    ((List.range numeric.length).any fun i => b.isNumeric i && (recent p b i).isEmpty) = false := by
  rw [List.any_eq_false]
  intro i hi
  rw [recent_nice hn (List.mem_range.1 hi)]
  have : column b.rows i ≠ [] := by
    intro h
    have := congrArg List.length h
    rw [column_length] at this
    exact hn.nonempty (List.length_eq_zero_iff.1 this)
  simp [this]

theorem filled_column {numeric : List Bool} {p : Prof} {b : Batch} (hn : Nice numeric b.rows) (ht : b.numeric = numeric) {i j : ℕ}
    (hi : Marked numeric i) (hj : Marked numeric j) : filled p numeric.length b j = column b.rows j := by
  unfold filled
  rw [kept_all hn ht hi]
  apply List.map_congr_left
  intro r hr
  rw [hn.filled.cell hr hj.lt]
  rfl

theorem batch_holds {numeric : List Bool} {p : Prof} {b : Batch} (hn : Nice numeric b.rows) (ht : b.numeric = numeric) {i j : ℕ}
    (hi : Marked numeric i) (hj : Marked numeric j) :
    Holds (batchCorr p numeric.length b) (batchMean p numeric.length b) (batchStd p numeric.length b) i j (pairs b.rows i j) := by
  have h2 := hn.two i hi
  have h2r : (2 : ℝ) ≤ b.rows.length := by exact_mod_cast h2
  have ni : b.isNumeric i = true := by unfold Batch.isNumeric; rw [ht]; exact hi.getD
  have nj : b.isNumeric j = true := by unfold Batch.isNumeric; rw [ht]; exact hj.getD
  have hx : 0 < sxx (pairs b.rows i j) := by rw [sxx_pairs]; exact hn.spread i hi
  have hy : 0 < syy (pairs b.rows i j) := by rw [syy_pairs]; exact hn.spread j hj
  have std : ∀ l, Marked numeric l → b.isNumeric l = true →
      (batchStd p numeric.length b).get l = some (√(spread b.rows l / (b.rows.length - 1))) := by
    intro l hl hnl
    unfold batchStd
    simp only [hnl, if_true]
    rw [recent_nice hn hl.lt, kept_all hn ht hl]
    unfold biasedVariance
    rw [sumSquares_column, column_length, num_eq, num_eq]
    push_cast
    rw [std_forms _ _ (hn.spread l hl) h2r, std_adjusted _ _ (hn.spread l hl) h2r]
  have mn : ∀ l, Marked numeric l → b.isNumeric l = true →
      (batchMean p numeric.length b).get l = some (average (column b.rows l)) := by
    intro l hl hnl
    unfold batchMean
    simp only [hnl, if_true]
    rw [recent_nice hn hl.lt, mean_column _ _ hn.nonempty]
  refine ⟨by rw [pairs_length]; exact h2, hx, hy, ?_, ?_, ?_, ?_, ?_⟩
  · unfold batchCorr
    simp only [ni, nj, Bool.and_self, if_true]
    rw [filled_column hn ht hi hi, filled_column hn ht hi hj, ← pairs_fst b.rows i j, ← pairs_snd b.rows i j]
    exact corrcoef_pairs _ (by rw [pairs_length]; exact h2) hx hy
  · rw [mn i hi ni, pairs_fst]
  · rw [mn j hj nj, pairs_snd]
  · rw [std i hi ni, sxx_pairs, pairs_length]
  · rw [std j hj nj, syy_pairs, pairs_length]

theorem batch_none {numeric : List Bool} {p : Prof} {b : Batch} (ht : b.numeric = numeric) {i j : ℕ}
    (h : ¬ (Marked numeric i ∧ Marked numeric j)) : (batchCorr p numeric.length b).get i j = none := by
  unfold batchCorr
  simp only [Batch.isNumeric, ht, getD_marked]
  rw [if_neg]
  simpa using h

/-! ## Profiles -/

/-- The profile describes the rows. -/
structure Inv (numeric : List Bool) (rows : List (List (Option ℝ))) (p : Prof) : Prop where
  types : p.numeric = numeric
  width : p.width = numeric.length
  values : ∀ i < numeric.length, p.values i = column rows i
  total : p.total = rows.length
  nulls : p.nullRows = 0
  nice : Nice numeric rows
  matrix : ∃ M, p.matrix = some M ∧ M.size = numeric.length ∧
    (∀ i j, Marked numeric i → Marked numeric j → M.get i j = some (pearson (pairs rows i j))) ∧
    (∀ i j, ¬ (Marked numeric i ∧ Marked numeric j) → M.get i j = none)

theorem Inv.count {numeric : List Bool} {rows : List (List (Option ℝ))} {p : Prof} (h : Inv numeric rows p) :
    p.count = rows.length := by
  simp [Prof.count, h.total, h.nulls]

theorem prev_holds {numeric : List Bool} {rows : List (List (Option ℝ))} {p : Prof} (h : Inv numeric rows p) {M : Mat}
    (hM : ∀ i j, Marked numeric i → Marked numeric j → M.get i j = some (pearson (pairs rows i j))) {i j : ℕ}
    (hi : Marked numeric i) (hj : Marked numeric j) :
    Holds M (prevMean p) (prevStd p) i j (pairs rows i j) := by
  have hn := h.nice
  have h2 := hn.two i hi
  have h2r : (2 : ℝ) ≤ rows.length := by exact_mod_cast h2
  have hnum : ∀ l, Marked numeric l → p.isNumeric l = true := by
    intro l hl
    unfold Prof.isNumeric
    rw [h.types]
    exact hl.getD
  have std : ∀ l, Marked numeric l → (prevStd p).get l = some (√(spread rows l / (rows.length - 1))) := by
    intro l hl
    unfold prevStd Prof.whenNumeric
    simp only [hnum l hl, if_true]
    rw [h.values l hl.lt, h.count]
    unfold biasedVariance
    rw [sumSquares_column, column_length, num_eq, num_eq]
    push_cast
    rw [std_forms _ _ (hn.spread l hl) h2r]
  have mn : ∀ l, Marked numeric l → (prevMean p).get l = some (average (column rows l)) := by
    intro l hl
    unfold prevMean Prof.whenNumeric
    simp only [hnum l hl, if_true]
    rw [h.values l hl.lt, mean_column _ _ hn.nonempty]
  refine ⟨by rw [pairs_length]; exact h2, by rw [sxx_pairs]; exact hn.spread i hi, by rw [syy_pairs]; exact hn.spread j hj,
    hM i j hi hj, ?_, ?_, ?_, ?_⟩
  · rw [mn i hi, pairs_fst]
  · rw [mn j hj, pairs_snd]
  · rw [std i hi, sxx_pairs, pairs_length]
  · rw [std j hj, syy_pairs, pairs_length]

theorem combine_none {c1 c2 : Mat} {m1 s1 m2 s2 : Vec} {n1 n2 : ℤ} {i j : ℕ} (h : c1.get i j = none) :
    (combine c1 m1 s1 n1 c2 m2 s2 n2).get i j = none := by
  unfold combine
  simp only [h, none_mul, none_add, none_div]

theorem nulls_zero {numeric : List Bool} {b : Batch} (h0 : 0 < numeric.length) (hn : Nice numeric b.rows) :
    b.rows.countP (fun r => (List.range numeric.length).all fun i => (cell r i).isNone) = 0 := by
  rw [List.countP_eq_zero]
  intro r hr hall
  rw [List.all_eq_true] at hall
  have := hall 0 (List.mem_range.2 h0)
  rw [hn.filled.cell hr h0] at this
  simp at this

theorem values_map (k : ℕ) (f : ℕ → List ℝ) (i : ℕ) (hi : i < k) : ((List.range k).map f).getD i [] = f i := by
  rw [List.getD_eq_getElem _ _ (by simpa using hi)]
  simp

/-- First batch. -/
theorem inv_first {numeric : List Bool} (h0 : 0 < numeric.length) {b : Batch} (hb : Complete numeric b) :
    ∃ p, update .new b = .ok p ∧ Inv numeric b.rows p := by
  have hn := Complete.nice hb
  have hw : Prof.new.width = 0 := rfl
  refine ⟨⟨b.numeric, (List.range numeric.length).map fun i => Prof.new.values i ++ b.values i, (List.range numeric.length).map (recent .new b), 0 + b.rows.length,
    0 + b.rows.countP (fun r => (List.range numeric.length).all fun i => (cell r i).isNone),
    some (batchCorr .new numeric.length b)⟩, ?_, ?_⟩
  · unfold update
    rw [if_neg hb.nonempty]
    simp only [hw, if_true, hb.types]
    rw [recent_ne hn]
    rfl
  · refine ⟨hb.types, by simp [Prof.width], ?_, by simp, by simp [nulls_zero h0 hn], hn, batchCorr .new numeric.length b, rfl, rfl,
      ?_, ?_⟩
    · intro i hi
      unfold Prof.values
      rw [values_map _ _ _ hi, hn.filled.values hi]
      simp [Prof.new]
    · intro i j hi hj
      exact (batch_holds hn hb.types hi hj).corr
    · intro i j h
      exact batch_none hb.types h

/-- A further batch. -/
theorem inv_update {numeric : List Bool} (h0 : 0 < numeric.length) {rows : List (List (Option ℝ))} {p : Prof}
    (h : Inv numeric rows p) {b : Batch} (hb : Complete numeric b) :
    ∃ p', update p b = .ok p' ∧ Inv numeric (rows ++ b.rows) p' := by
  have hn := Complete.nice hb
  obtain ⟨M, hM1, hM2, hM3, hM4⟩ := h.matrix
  have hk : (if p.width = 0 then b.numeric.length else p.width) = numeric.length := by
    rw [h.width, hb.types]; split_ifs <;> rfl
  have hs1 : (prevMean p).size = numeric.length := h.width
  have hs2 : (prevStd p).size = numeric.length := h.width
  have hh : helper p.matrix (prevMean p) (prevStd p) p.count (some (batchCorr p numeric.length b)) (batchMean p numeric.length b)
      (batchStd p numeric.length b) (b.kept numeric.length).length =
      .ok (some (combine M (prevMean p) (prevStd p) p.count (batchCorr p numeric.length b) (batchMean p numeric.length b)
        (batchStd p numeric.length b) (b.kept numeric.length).length)) := by
    rw [hM1]
    unfold helper
    simp only
    rw [if_neg (by rw [hs1]; omega), if_neg (by show numeric.length ≠ 0; omega), if_pos]
    exact ⟨by rw [hM2, hs2], rfl, by rw [hs1, hs2], rfl, hs2⟩
  refine ⟨⟨b.numeric, (List.range numeric.length).map fun i => p.values i ++ b.values i, (List.range numeric.length).map (recent p b), p.total + b.rows.length,
    p.nullRows + b.rows.countP (fun r => (List.range numeric.length).all fun i => (cell r i).isNone), ?_⟩, ?_, ?_⟩
  · exact some (combine M (prevMean p) (prevStd p) p.count (batchCorr p numeric.length b) (batchMean p numeric.length b)
        (batchStd p numeric.length b) (b.kept numeric.length).length)
  · unfold update
    rw [if_neg hb.nonempty]
    simp only [hk, hh]
    rw [recent_ne hn]
    rfl
  · refine ⟨hb.types, by simp [Prof.width], ?_, by simp [h.total], by simp [h.nulls, nulls_zero h0 hn], h.nice.append hn, _, rfl,
      hM2, ?_, ?_⟩
    · intro i hi
      refine (values_map _ _ _ hi).trans ?_
      rw [h.values i hi, hn.filled.values hi, column_append]
    · intro i j hi hj
      have := combine_entry (prev_holds h hM3 hi hj) (batch_holds (p := p) hn hb.types hi hj)
      rw [pairs_length, pairs_length, ← pairs_append] at this
      rw [h.count, kept_all hn hb.types hi]
      exact this
    · intro i j hij
      exact combine_none (hM4 i j hij)

theorem defined_eq {numeric : List Bool} {rows : List (List (Option ℝ))} {M : Mat} (hM2 : M.size = numeric.length)
    (hM3 : ∀ i j, Marked numeric i → Marked numeric j → M.get i j = some (pearson (pairs rows i j)))
    (hM4 : ∀ i j, ¬ (Marked numeric i ∧ Marked numeric j) → M.get i j = none) :
    M.defined = (List.range numeric.length).filter fun i => decide (Marked numeric i) := by
  unfold Mat.defined
  rw [hM2]
  apply List.filter_congr
  intro j hj
  simp only [decide_eq_decide]
  constructor
  · rintro ⟨i, _, hne⟩
    by_contra hc
    exact hne (hM4 i j fun h => hc h.2)
  · intro h
    exact ⟨j, h.lt, by rw [hM3 j j h h]; simp⟩

theorem pick_holds {numeric : List Bool} {rows : List (List (Option ℝ))} {p : Prof} (h : Inv numeric rows p) {M : Mat}
    (hM : ∀ i j, Marked numeric i → Marked numeric j → M.get i j = some (pearson (pairs rows i j))) {i j : ℕ}
    (hi : Marked numeric i) (hj : Marked numeric j) :
    Holds M (pick p mean (List.range numeric.length)) (pick p stddev (List.range numeric.length)) i j (pairs rows i j) := by
  have hn := h.nice
  have h2 := hn.two i hi
  have h2r : (2 : ℝ) ≤ rows.length := by exact_mod_cast h2
  have hget : ∀ (f : List ℝ → Num) l, Marked numeric l → (pick p f (List.range numeric.length)).get l = f (column rows l) := by
    intro f l hl
    unfold pick
    simp only
    rw [List.getElem?_range hl.lt]
    simp only
    rw [h.values l hl.lt]
  have std : ∀ l, Marked numeric l → stddev (column rows l) = some (√(spread rows l / (rows.length - 1))) := by
    intro l hl
    unfold stddev
    rw [sumSquares_column, column_length, num_eq]
    push_cast
    have hs := hn.spread l hl
    have : (0 : ℝ) < rows.length - 1 := by linarith
    rw [div_some _ _ this.ne', root_some _ (by positivity)]
  refine ⟨by rw [pairs_length]; exact h2, by rw [sxx_pairs]; exact hn.spread i hi, by rw [syy_pairs]; exact hn.spread j hj,
    hM i j hi hj, ?_, ?_, ?_, ?_⟩
  · rw [hget _ i hi, mean_column _ _ hn.nonempty, pairs_fst]
  · rw [hget _ j hj, mean_column _ _ hn.nonempty, pairs_snd]
  · rw [hget _ i hi, std i hi, sxx_pairs, pairs_length]
  · rw [hget _ j hj, std j hj, syy_pairs, pairs_length]

/-- Merging, all columns numeric. -/
theorem inv_merge {numeric : List Bool} (h0 : 2 ≤ numeric.length) (hall : ∀ f ∈ numeric, f = true)
    {r1 r2 : List (List (Option ℝ))} {p q : Prof} (h1 : Inv numeric r1 p) (h2 : Inv numeric r2 q) :
    ∃ s, merge id p q = .ok s ∧ Inv numeric (r1 ++ r2) s := by
  obtain ⟨M, hM1, hM2, hM3, hM4⟩ := h1.matrix
  obtain ⟨N, hN1, hN2, hN3, hN4⟩ := h2.matrix
  have hmark : ∀ i < numeric.length, Marked numeric i := by
    intro i hi
    unfold Marked
    rw [List.getElem?_eq_getElem hi, hall _ (List.getElem_mem hi)]
  have hd : ((List.range numeric.length).filter fun i => decide (Marked numeric i)) = List.range numeric.length := by
    rw [List.filter_eq_self]
    intro i hi
    simpa using hmark i (List.mem_range.1 hi)
  have d1 := defined_eq hM2 hM3 hM4
  have d2 := defined_eq hN2 hN3 hN4
  rw [hd] at d1 d2
  have c1 := List.length_pos_iff.2 h1.nice.nonempty
  have c2 := List.length_pos_iff.2 h2.nice.nonempty
  have hh : mergeMatrix p q = .ok (some (combine M (pick p mean (List.range numeric.length))
      (pick p stddev (List.range numeric.length)) p.count N (pick q mean (List.range numeric.length))
      (pick q stddev (List.range numeric.length)) q.count)) := by
    unfold mergeMatrix
    rw [if_neg (by rw [h1.count]; omega), if_neg (by rw [h2.count]; omega), hM1, hN1]
    simp only [d1, d2]
    rw [if_neg (by simp; omega), if_neg (by simp)]
    unfold helper
    simp only [pick, List.length_range]
    rw [if_neg (by omega), if_neg (by omega), if_pos (by simp [hM2, hN2])]
  refine ⟨⟨(List.range p.width).map (fun i => p.isNumeric i && q.isNumeric i),
    (List.range p.width).map (fun i => p.values i ++ q.values i), [], p.total + q.total, p.nullRows + q.nullRows, ?_⟩, ?_, ?_⟩
  · exact some (combine M (pick p mean (List.range numeric.length))
      (pick p stddev (List.range numeric.length)) p.count N (pick q mean (List.range numeric.length))
      (pick q stddev (List.range numeric.length)) q.count)
  · unfold merge
    rw [hh]
    rfl
  · refine ⟨?_, by simp [Prof.width, ← h1.width], ?_, by simp [h1.total, h2.total], by simp [h1.nulls, h2.nulls],
      h1.nice.append h2.nice, _, rfl, hM2, ?_, ?_⟩
    · simp only
      apply List.ext_getElem
      · simp [h1.width]
      · intro i a b
        rw [List.getElem_map, List.getElem_range]
        have hm := hmark i b
        simp only [Prof.isNumeric, h1.types, h2.types, getD_marked, hm, decide_true, Bool.and_self]
        exact (hall _ (List.getElem_mem b)).symm
    · intro i hi
      unfold Prof.values
      simp only
      rw [h1.width, values_map _ _ _ hi, column_append]
      exact congrArg₂ _ (h1.values i hi) (h2.values i hi)
    · intro i j hi hj
      have := combine_entry (pick_holds h1 hM3 hi hj) (pick_holds h2 hN3 hi hj)
      rw [pairs_length, pairs_length, ← pairs_append] at this
      rw [h1.count, h2.count]
      exact this
    · intro i j hij
      exact combine_none (hM4 i j hij)

/-- Every history. -/
theorem inv_run {numeric : List Bool} (h0 : numeric ≠ []) (h : Hist) (hg : Good numeric h) :
    (Fed h → ∃ p, run h = .ok p ∧ Inv numeric (rows h) p) ∧ (¬ Fed h → run h = .ok .new) := by
  have h0' := List.length_pos_iff.2 h0
  induction h with
  | new => exact ⟨fun hf => absurd hf id, fun _ => rfl⟩
  | update h b ih =>
    obtain ⟨hg1, hb⟩ := hg
    obtain ⟨i1, i2⟩ := ih hg1
    refine ⟨fun _ => ?_, fun hf => absurd trivial hf⟩
    by_cases hf : Fed h
    · obtain ⟨p, hp, hi⟩ := i1 hf
      simp only [run, hp]
      exact inv_update h0' hi hb
    · simp only [run, i2 hf]
      obtain ⟨p, hp, hi⟩ := inv_first h0' hb
      refine ⟨p, hp, ?_⟩
      have hr : rows h = [] := by
        cases h with
        | new => rfl
        | update => exact absurd trivial hf
        | merge a b => exact absurd ⟨hg1.2.2.1, hg1.2.2.2.1⟩ hf
      simp only [rows, hr, List.nil_append]
      exact hi
  | merge a b iha ihb =>
    obtain ⟨ga, gb, fa, fb, h2, hall⟩ := hg
    refine ⟨fun _ => ?_, fun hf => absurd ⟨fa, fb⟩ hf⟩
    obtain ⟨p, hp, hi⟩ := (iha ga).1 fa
    obtain ⟨q, hq, hj⟩ := (ihb gb).1 fb
    simp only [run, hp, hq]
    exact inv_merge h2 hall hi hj

end

end Verif.Correlation
