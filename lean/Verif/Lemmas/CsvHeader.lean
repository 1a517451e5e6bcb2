import Verif.Lemmas.Csv
import Mathlib.Tactic.Ring
import Mathlib.Tactic.FieldSimp
import Mathlib.Algebra.Order.Field.Basic
import Mathlib.Data.Rat.Lemmas

/-!
# Lemmas: header rows
-/

namespace Verif.Csv

open Verif Verif.Csv.Spec

theorem filled_amount (r : List CellType) : filled r = amount r := by
  unfold filled amount
  have h := List.length_eq_countP_add_countP (fun t => decide (t = CellType.none)) (l := r)
  have h2 : r.count .none = r.countP fun t => decide (t = CellType.none) := by
    rw [List.count]; congr 1
  have h3 : (r.countP fun t => decide (t ≠ CellType.none)) = r.countP fun t => decide (¬ decide (t = CellType.none) = true) := by
    congr 1; funext t; simp
  rw [h2, h3]
  omega

theorem count_none_amount (r : List CellType) : r.count .none = r.length - amount r := by
  rw [← filled_amount]
  unfold filled
  have := List.count_le_length (a := CellType.none) (l := r)
  omega

theorem count_text (r : List CellType) :
    r.count .str + r.count .upstr + r.count .none = r.countP fun t => decide (t = .str ∨ t = .upstr ∨ t = .none) := by
  induction r with
  | nil => rfl
  | cons t r ih =>
    rw [List.countP_cons, ← ih]
    simp only [List.count_cons]
    cases t <;> simp <;> omega

/-! ### Differences -/

/-- `reference` with another first row. -/
def reference' (p : List CellType) (rs : List (List CellType)) (i : ℕ) : List CellType :=
  (((rs.take i).filter fun r => decide (0 < amount r)).getLast?).getD p

theorem diffs_length (p : List CellType) (rs : List (List CellType)) : (diffs p rs).length = rs.length := by
  induction rs generalizing p with
  | nil => rfl
  | cons r rs ih => simp [diffs, ih]

theorem diffs_getElem? (rs : List (List CellType)) :
    ∀ (p : List CellType) (i : ℕ), (diffs p rs)[i]? = (rs[i]?).map (rowDiff (reference' p rs i)) := by
  induction rs with
  | nil => intro p i; simp [diffs]
  | cons r rs ih =>
    intro p i
    rw [diffs]
    cases i with
    | zero => simp [reference']
    | succ i =>
      rw [List.getElem?_cons_succ, List.getElem?_cons_succ, ih]
      congr 2
      unfold reference'
      rw [List.take_succ_cons, List.filter_cons, filled_amount]
      by_cases hr : 0 < amount r
      · simp only [hr, if_true, decide_true]
        rw [List.getLast?_cons]
        simp
      · simp only [hr, if_false, decide_false, Bool.false_eq_true]

theorem rowDiff_count (p r : List CellType) :
    (rowDiff p r).count true = if 0 < amount r ∧ amount r ≤ p.length then
      ((List.range r.length).filter fun j => decide (p[j]? ≠ r[j]?)).length else 0 := by
  unfold rowDiff
  rw [filled_amount]
  by_cases h : 0 < amount r ∧ amount r ≤ p.length
  · rw [if_pos h, if_neg (by omega)]
    have : (r.mapIdx fun j t => decide (p[j]? ≠ some t)) = (List.range r.length).map fun j => decide (p[j]? ≠ r[j]?) := by
      apply List.ext_getElem
      · simp
      · intro j h1 h2
        simp only [List.length_mapIdx] at h1
        simp [h1]
    rw [this, List.count, List.countP_map, List.countP_eq_length_filter]
    congr 2
    funext j
    simp
  · rw [if_neg h, if_pos (by omega)]
    simp [List.count_replicate]

theorem rowDiff_length (p r : List CellType) : (rowDiff p r).length = r.length := by
  unfold rowDiff
  split_ifs <;> simp

/-! ### Thresholds -/

theorem ratio_lt {a b c n : ℕ} (hn : 0 < n) (hc : 0 < c) : (ratio a n < (b : ℚ) / (c : ℚ)) ↔ c * a < b * n := by
  unfold ratio
  have h1 : (0 : ℚ) < n := by exact_mod_cast hn
  have h2 : (0 : ℚ) < c := by exact_mod_cast hc
  rw [div_lt_div_iff₀ h1 h2]
  constructor
  · intro h
    have : a * c < b * n := by exact_mod_cast h
    nlinarith
  · intro h
    have : a * c < b * n := by nlinarith
    exact_mod_cast this

theorem lt_ratio {a b c n : ℕ} (hn : 0 < n) (hc : 0 < c) : ((b : ℚ) / (c : ℚ) < ratio a n) ↔ b * n < c * a := by
  unfold ratio
  have h1 : (0 : ℚ) < n := by exact_mod_cast hn
  have h2 : (0 : ℚ) < c := by exact_mod_cast hc
  rw [div_lt_div_iff₀ h2 h1]
  constructor
  · intro h
    have : b * n < a * c := by exact_mod_cast h
    nlinarith
  · intro h
    have : b * n < a * c := by nlinarith
    exact_mod_cast this

theorem looksLike_iff {r : List CellType} {df : List Bool} (hr : r ≠ []) (hd : df.length = r.length) :
    looksLike r df = true ↔
      9 * r.length < 10 * (r.countP fun t => decide (t = .str ∨ t = .upstr ∨ t = .none)) ∧
      2 * (r.length - amount r) < r.length ∧ 10 * df.count true < r.length := by
  have hpos : 0 < r.length := List.length_pos_iff.2 hr
  unfold looksLike
  rw [Bool.and_eq_true, Bool.and_eq_true, decide_eq_true_eq, decide_eq_true_eq, decide_eq_true_eq, hd, count_text,
    count_none_amount]
  have e1 := lt_ratio (a := r.countP fun t => decide (t = .str ∨ t = .upstr ∨ t = .none)) (b := 9) (c := 10) hpos (by omega)
  have e2 := ratio_lt (a := r.length - amount r) (b := 1) (c := 2) hpos (by omega)
  have e3 := ratio_lt (a := df.count true) (b := 1) (c := 10) hpos (by omega)
  simp only [Nat.cast_ofNat, Nat.cast_one, one_mul] at e1 e2 e3
  rw [e1, e2, e3, and_assoc]

/-! ### The loop -/

/-- The state after the first `n` rows. -/
def stateAt (types : List (List CellType)) (n : ℕ) : Hdr :=
  (((types.zip (diffs (types.headD []) types)).zipIdx).take n).foldl hdrStep {}

theorem pairs_getElem? (types : List (List CellType)) (n : ℕ) (hn : n < types.length) :
    ((types.zip (diffs (types.headD []) types)).zipIdx)[n]? =
      some ((types.getD n [], rowDiff (reference types n) (types.getD n [])), n) := by
  rw [List.getElem?_zipIdx]
  have hz : (types.zip (diffs (types.headD []) types))[n]? = some (types.getD n [], rowDiff (reference types n) (types.getD n [])) := by
    rw [List.getElem?_zip_eq_some]
    rw [diffs_getElem?, List.getElem?_eq_getElem hn, List.getD_eq_getElem?_getD, List.getElem?_eq_getElem hn]
    exact ⟨rfl, rfl⟩
  rw [hz]
  simp

theorem stateAt_succ (types : List (List CellType)) (n : ℕ) (hn : n < types.length) :
    stateAt types (n + 1) =
      hdrStep (stateAt types n) ((types.getD n [], rowDiff (reference types n) (types.getD n [])), n) := by
  unfold stateAt
  rw [List.take_add_one, pairs_getElem? types n hn, List.foldl_append]
  rfl

theorem changes_eq (types : List (List CellType)) (i : ℕ) :
    changes types i = (rowDiff (reference types i) (types.getD i [])).count true := by
  rw [rowDiff_count]
  rfl

theorem changes_amount {types : List (List CellType)} {i : ℕ} (h : 0 < changes types i) : 0 < amount (types.getD i []) := by
  unfold changes at h
  dsimp only at h
  split_ifs at h with h1
  · exact h1.1
  · omega

theorem stateAt_spec (types : List (List CellType)) (hne : ∀ r ∈ types, r ≠ []) :
    ∀ n ≤ types.length,
      (∀ p < n, amount (types.getD p []) ≤ (stateAt types n).priorLen) ∧
      ((stateAt types n).priorLen = 0 ∨ ∃ p < n, (stateAt types n).priorLen = amount (types.getD p [])) ∧
      ((stateAt types n).change = true ↔ ∃ p < n, 0 < changes types p) ∧
      (∀ h, (stateAt types n).last = some h → h < n ∧ Candidate types h ∧ ∀ k, h < k → k < n → ¬ Candidate types k) ∧
      ((stateAt types n).last = none → ∀ k < n, ¬ Candidate types k) := by
  intro n
  induction n with
  | zero => intro _; simp [stateAt]
  | succ n ih =>
    intro hn
    obtain ⟨h1, h2, h3, h4, h5⟩ := ih (by omega)
    rw [stateAt_succ types n (by omega)]
    generalize hs : stateAt types n = s at h1 h2 h3 h4 h5 ⊢
    have hmem : types.getD n [] ∈ types := by
      rw [List.getD_eq_getElem?_getD, List.getElem?_eq_getElem (by omega : n < types.length)]
      exact List.getElem_mem _
    have hr := hne _ hmem
    have hlen : ¬ (types.getD n []).length = 0 := by rwa [List.length_eq_zero_iff]
    unfold hdrStep
    dsimp only
    rw [if_neg hlen]
    dsimp only
    rw [filled_amount, ← changes_eq]
    have hcand : Candidate types n ↔
        looksLike (types.getD n []) (rowDiff (reference types n) (types.getD n [])) = true ∧
        (decide (s.priorLen ≤ amount (types.getD n []) ∧ 0 < amount (types.getD n []))) = true ∧ ¬ s.change = true := by
      rw [looksLike_iff hr (rowDiff_length _ _), ← changes_eq, decide_eq_true_eq, h3]
      constructor
      · rintro ⟨a, b, c, d, e⟩
        refine ⟨⟨a, b, c⟩, ⟨?_, by omega⟩, ?_⟩
        · rcases h2 with h2 | ⟨p, hp, h2⟩
          · omega
          · rw [h2]; exact d p hp
        · rintro ⟨p, hp, h⟩
          have := e p hp
          omega
      · rintro ⟨⟨a, b, c⟩, ⟨d, -⟩, e⟩
        refine ⟨a, b, c, fun p hp => (h1 p hp).trans d, ?_⟩
        intro p hp
        by_contra hh
        exact e ⟨p, hp, by omega⟩
    have hstep : ∀ P : ℕ → Prop, (∃ p < n + 1, P p) ↔ ((∃ p < n, P p) ∨ P n) := by
      intro P
      constructor
      · rintro ⟨p, hp, h⟩
        by_cases hpn : p = n
        · subst hpn; exact Or.inr h
        · exact Or.inl ⟨p, by omega, h⟩
      · rintro (⟨p, hp, h⟩ | h)
        · exact ⟨p, by omega, h⟩
        · exact ⟨n, by omega, h⟩
    refine ⟨?_, ?_, ?_, ?_, ?_⟩
    · intro p hp
      by_cases hpn : p = n
      · subst hpn
        split_ifs with hi
        · exact le_rfl
        · rw [decide_eq_true_eq] at hi; omega
      · have := h1 p (by omega)
        split_ifs with hi
        · rw [decide_eq_true_eq] at hi; omega
        · exact this
    · split_ifs with hi
      · exact Or.inr ⟨n, by omega, rfl⟩
      · rcases h2 with h2 | ⟨p, hp, h2⟩
        · exact Or.inl h2
        · exact Or.inr ⟨p, by omega, h2⟩
    · rw [Bool.or_eq_true, h3, decide_eq_true_eq, hstep]
      constructor
      · rintro (h | h)
        · exact Or.inl h
        · exact Or.inr h.1
      · rintro (h | h)
        · exact Or.inl h
        · exact Or.inr ⟨h, changes_amount h⟩
    · intro h hh
      by_cases hc : Candidate types n
      · rw [if_pos (hcand.1 hc), Option.some_inj] at hh
        subst hh
        exact ⟨by omega, hc, fun k _ _ => by omega⟩
      · rw [if_neg (fun hx => hc (hcand.2 hx))] at hh
        obtain ⟨a, b, c⟩ := h4 h hh
        refine ⟨by omega, b, ?_⟩
        intro k hk hkn
        by_cases hkn' : k = n
        · subst hkn'; exact hc
        · exact c k hk (by omega)
    · intro hh k hk
      by_cases hc : Candidate types n
      · rw [if_pos (hcand.1 hc)] at hh
        exact absurd hh (by simp)
      · rw [if_neg (fun hx => hc (hcand.2 hx))] at hh
        by_cases hkn : k = n
        · subst hkn; exact hc
        · exact h5 hh k (by omega)

theorem byTypes_iff (types : List (List CellType)) (hne : ∀ r ∈ types, r ≠ []) (h : ℕ) :
    byTypes types = some h ↔ TypeHeader types h := by
  have hst : stateAt types types.length = ((types.zip (diffs (types.headD []) types)).zipIdx).foldl hdrStep {} := by
    unfold stateAt
    rw [List.take_of_length_le]
    simp
  obtain ⟨-, -, h3, h4, h5⟩ := stateAt_spec types hne types.length le_rfl
  rw [hst] at h3 h4 h5
  unfold byTypes TypeHeader
  dsimp only
  by_cases hc : (((types.zip (diffs (types.headD []) types)).zipIdx).foldl hdrStep {}).change = true
  · rw [if_pos hc]
    constructor
    · intro hh
      obtain ⟨a, b, c⟩ := h4 h hh
      exact ⟨a, b, c, h3.1 hc⟩
    · rintro ⟨a, b, c, -⟩
      cases hl : (((types.zip (diffs (types.headD []) types)).zipIdx).foldl hdrStep {}).last with
      | none => exact absurd b (h5 hl h a)
      | some k =>
        obtain ⟨a', b', c'⟩ := h4 k hl
        rcases lt_trichotomy h k with hlt | rfl | hlt
        · exact absurd b' (c k hlt a')
        · rfl
        · exact absurd b (c' h hlt a)
  · rw [if_neg hc]
    simp only [reduceCtorEq, false_iff]
    rintro ⟨-, -, -, hx⟩
    exact hc (h3.2 hx)

/-! ### Words -/

theorem splitOn_length (c : Char) (s : List Char) : (s.splitOn c).length = s.count c + 1 := by
  induction s with
  | nil => simp [List.splitOn]
  | cons x s ih =>
    unfold List.splitOn at ih ⊢
    rw [List.splitOnP_cons_eq_if_modifyHead, List.count_cons]
    by_cases h : (x == c) = true
    · rw [if_pos h, if_pos h, List.length_cons, ih]
    · rw [if_neg h, if_neg h, List.length_modifyHead, ih]

theorem words_eq (env : Env) (c : List Char) : wordCount env c = words env c := by
  unfold wordCount words
  rw [splitOn_length]

theorem mem_column {env : Env} {rows : List (List (List Char))} {j : ℕ} {x : ℕ × ℕ} :
    x ∈ column env rows j ↔ ∃ r c, rows[x.2]? = some r ∧ r[j]? = some c ∧ x.1 = words env c := by
  unfold column
  rw [List.mem_filterMap]
  constructor
  · rintro ⟨⟨r, i⟩, hm, h⟩
    rw [List.mem_zipIdx_iff_getElem?] at hm
    dsimp only at hm h
    rw [Option.map_eq_some_iff] at h
    obtain ⟨c, hc, rfl⟩ := h
    exact ⟨r, c, hm, hc, words_eq _ _⟩
  · rintro ⟨r, c, hr, hc, hx⟩
    refine ⟨(r, x.2), List.mem_zipIdx_iff_getElem?.2 hr, ?_⟩
    dsimp only
    rw [hc]
    simp [words_eq, ← hx]

theorem column_sorted (env : Env) (rows : List (List (List Char))) (j : ℕ) :
    (column env rows j).Pairwise fun a b => a.2 < b.2 := by
  unfold column
  rw [List.pairwise_filterMap]
  have h : (rows.zipIdx).Pairwise fun a b => a.2 < b.2 := by
    rw [← List.pairwise_map (f := Prod.snd), List.zipIdx_map_snd]
    exact List.pairwise_lt_range'
  refine h.imp ?_
  rintro ⟨r, i⟩ ⟨r', i'⟩ hlt a ha b hb
  simp only [Option.map_eq_some_iff] at ha hb
  obtain ⟨c, -, rfl⟩ := ha
  obtain ⟨c', -, rfl⟩ := hb
  exact hlt

theorem firstIndex_iff {env : Env} {rows : List (List (List Char))} {j i : ℕ} :
    firstIndex (column env rows j) = some i ↔ FirstWords env rows j i := by
  unfold firstIndex FirstWords
  rw [Option.map_eq_some_iff]
  constructor
  · rintro ⟨x, hx, rfl⟩
    rw [List.find?_eq_some_iff_append] at hx
    obtain ⟨hp, A, B, hl, hA⟩ := hx
    rw [decide_eq_true_eq] at hp
    have hm : x ∈ column env rows j := by rw [hl]; simp
    obtain ⟨r, c, hr, hc, hw⟩ := mem_column.1 hm
    refine ⟨⟨r, c, hr, hc, by omega⟩, ?_⟩
    intro p hlt r' c' hr' hc'
    have hm' : (words env c', p) ∈ column env rows j := mem_column.2 ⟨r', c', hr', hc', rfl⟩
    have hs := column_sorted env rows j
    rw [hl] at hm' hs
    rcases List.mem_append.1 hm' with h | h
    · have := hA _ h
      simpa using this
    · rcases List.mem_cons.1 h with h | h
      · have := congrArg Prod.snd h
        dsimp only at this
        omega
      · have := (List.pairwise_cons.1 (List.pairwise_append.1 hs).2.1).1 _ h
        dsimp only at this
        omega
  · rintro ⟨⟨r, c, hr, hc, hw⟩, hall⟩
    have hm : (words env c, i) ∈ column env rows j := mem_column.2 ⟨r, c, hr, hc, rfl⟩
    cases hf : (column env rows j).find? fun x => decide (0 < x.1) with
    | none =>
      rw [List.find?_eq_none] at hf
      exact absurd (hf _ hm) (by rw [decide_eq_true_eq, not_not]; exact hw)
    | some x =>
      refine ⟨x, rfl, ?_⟩
      have hf' := hf
      rw [List.find?_eq_some_iff_append] at hf
      obtain ⟨hp, A, B, hl, hA⟩ := hf
      rw [decide_eq_true_eq] at hp
      have hmx : x ∈ column env rows j := by rw [hl]; simp
      obtain ⟨r', c', hr', hc', hw'⟩ := mem_column.1 hmx
      have hge : ¬ x.2 < i := by
        intro hlt
        have := hall _ hlt r' c' hr' hc'
        omega
      have hs := column_sorted env rows j
      rw [hl] at hm hs
      rcases List.mem_append.1 hm with h | h
      · have := hA _ h
        rw [Bool.not_eq_true', decide_eq_false_iff_not] at this
        exact absurd hw this
      · rcases List.mem_cons.1 h with h | h
        · rw [← h]
        · have := (List.pairwise_cons.1 (List.pairwise_append.1 hs).2.1).1 _ h
          dsimp only at this
          omega

theorem foldl_max_spec (l : List ℕ) : ∀ a, a ≤ l.foldl max a ∧ (∀ x ∈ l, x ≤ l.foldl max a) ∧ (l.foldl max a = a ∨ l.foldl max a ∈ l) := by
  induction l with
  | nil => intro a; simp
  | cons y l ih =>
    intro a
    rw [List.foldl_cons]
    obtain ⟨h1, h2, h3⟩ := ih (max a y)
    refine ⟨(le_max_left _ _).trans h1, ?_, ?_⟩
    · intro x hx
      rcases List.mem_cons.1 hx with rfl | hx
      · exact (le_max_right _ _).trans h1
      · exact h2 x hx
    · rcases h3 with h3 | h3
      · rw [h3]
        rcases le_total a y with h | h
        · right; rw [max_eq_right h]; simp
        · left; exact max_eq_left h
      · right; exact List.mem_cons_of_mem _ h3

theorem foldl_min_spec (l : List ℕ) : ∀ a, l.foldl min a ≤ a ∧ (∀ x ∈ l, l.foldl min a ≤ x) ∧ (l.foldl min a = a ∨ l.foldl min a ∈ l) := by
  induction l with
  | nil => intro a; simp
  | cons y l ih =>
    intro a
    rw [List.foldl_cons]
    obtain ⟨h1, h2, h3⟩ := ih (min a y)
    refine ⟨h1.trans (min_le_left _ _), ?_, ?_⟩
    · intro x hx
      rcases List.mem_cons.1 hx with rfl | hx
      · exact h1.trans (min_le_right _ _)
      · exact h2 x hx
    · rcases h3 with h3 | h3
      · rw [h3]
        rcases le_total a y with h | h
        · left; exact min_eq_left h
        · right; rw [min_eq_right h]; simp
      · right; exact List.mem_cons_of_mem _ h3

theorem varies_iff (col : List (ℕ × ℕ)) : varies col = true ↔ ∃ x ∈ col, ∃ y ∈ col, x.1 + 2 ≤ y.1 := by
  unfold varies
  rw [decide_eq_true_eq]
  obtain ⟨-, h2, h3⟩ := foldl_max_spec (col.map (·.1)) 0
  obtain ⟨-, k2, k3⟩ := foldl_min_spec (col.map (·.1)) ((col.map (·.1)).headD 0)
  constructor
  · intro h
    cases hc : col with
    | nil => rw [hc] at h; simp at h
    | cons z col' =>
      rw [← hc]
      have hhead : (col.map (·.1)).headD 0 ∈ col.map (·.1) := by rw [hc]; simp
      have hmin : (col.map (·.1)).foldl min ((col.map (·.1)).headD 0) ∈ col.map (·.1) := by
        rcases k3 with k3 | k3
        · rw [k3]; exact hhead
        · exact k3
      have hmax : (col.map (·.1)).foldl max 0 ∈ col.map (·.1) := by
        rcases h3 with h3 | h3
        · omega
        · exact h3
      obtain ⟨x, hx, ex⟩ := List.mem_map.1 hmin
      obtain ⟨y, hy, ey⟩ := List.mem_map.1 hmax
      exact ⟨x, hx, y, hy, by omega⟩
  · rintro ⟨x, hx, y, hy, h⟩
    have := h2 y.1 (List.mem_map.2 ⟨y, hy, rfl⟩)
    have := k2 x.1 (List.mem_map.2 ⟨x, hx, rfl⟩)
    omega

theorem lastFirst_spec (l : List (Option ℕ)) :
    ∀ s : ℕ × ℕ, s.1 ≤ (l.foldl lastFirst s).1 ∧ (∀ i, some i ∈ l → i ≤ (l.foldl lastFirst s).1) ∧
      (l.foldl lastFirst s).2 = l.count (some (l.foldl lastFirst s).1) + (if (l.foldl lastFirst s).1 = s.1 then s.2 else 0) := by
  induction l with
  | nil => intro s; simp
  | cons o l ih =>
    intro s
    rw [List.foldl_cons]
    obtain ⟨h1, h2, h3⟩ := ih (lastFirst s o)
    cases o with
    | none =>
      have he : lastFirst s none = s := rfl
      rw [he] at h1 h2 h3 ⊢
      refine ⟨h1, ?_, ?_⟩
      · intro i hi
        exact h2 i (by simpa using hi)
      · rw [h3, List.count_cons]
        simp
    | some k =>
      have he : lastFirst s (some k) = if s.1 < k then (k, 1) else if k = s.1 then (s.1, s.2 + 1) else s := rfl
      generalize hg : l.foldl lastFirst (lastFirst s (some k)) = g at h1 h2 h3 ⊢
      rw [he] at h1 h3
      rw [List.count_cons]
      split_ifs at h1 h3 with c1 c2
      all_goals
        refine ⟨by first | exact h1 | omega, ?_, ?_⟩
        · intro i hi
          rcases List.mem_cons.1 hi with hi | hi
          · rw [Option.some_inj] at hi
            subst hi
            first | exact h1 | omega
          · exact h2 i hi
        · rw [h3]
          by_cases e1 : g.1 = k <;> by_cases e2 : g.1 = s.1 <;> simp_all <;> omega

theorem lastFirst_mem (l : List (Option ℕ)) :
    ∀ s : ℕ × ℕ, (l.foldl lastFirst s).1 = s.1 ∨ some (l.foldl lastFirst s).1 ∈ l := by
  induction l with
  | nil => intro s; simp
  | cons o l ih =>
    intro s
    rw [List.foldl_cons]
    rcases ih (lastFirst s o) with h | h
    · cases o with
      | none => exact Or.inl h
      | some k =>
        rw [h]
        have he : lastFirst s (some k) = if s.1 < k then (k, 1) else if k = s.1 then (s.1, s.2 + 1) else s := rfl
        rw [he]
        split_ifs with c1 c2
        · exact Or.inr (by simp)
        · exact Or.inl rfl
        · exact Or.inl rfl
    · exact Or.inr (List.mem_cons_of_mem _ h)

theorem width_le {rows : List (List (List Char))} {r : List (List Char)} (h : r ∈ rows) :
    r.length ≤ (rows.map List.length).foldl max 0 :=
  (foldl_max_spec _ 0).2.1 _ (List.mem_map.2 ⟨r, h, rfl⟩)

theorem firstWords_lt {env : Env} {rows : List (List (List Char))} {j i : ℕ} (h : FirstWords env rows j i) :
    j < (rows.map List.length).foldl max 0 := by
  obtain ⟨⟨r, c, hr, hc, -⟩, -⟩ := h
  have h1 := width_le (List.mem_of_getElem? hr)
  obtain ⟨h2, -⟩ := List.getElem?_eq_some_iff.1 hc
  omega

theorem any_varies (env : Env) (rows : List (List (List Char))) :
    (((List.range ((rows.map List.length).foldl max 0)).map (column env rows)).any varies) = true ↔ WordsVary env rows := by
  simp only [List.any_eq_true, List.mem_map, List.mem_range]
  constructor
  · rintro ⟨_, ⟨j, -, rfl⟩, hv⟩
    obtain ⟨x, hx, y, hy, h⟩ := (varies_iff _).1 hv
    obtain ⟨r, c, hr, hc, hw⟩ := mem_column.1 hx
    obtain ⟨r', c', hr', hc', hw'⟩ := mem_column.1 hy
    exact ⟨j, r, List.mem_of_getElem? hr, r', List.mem_of_getElem? hr', c, c', hc, hc', by omega⟩
  · rintro ⟨j, r, hr, r', hr', a, b, ha, hb, h⟩
    obtain ⟨i, hi⟩ := List.mem_iff_getElem?.1 hr
    obtain ⟨i', hi'⟩ := List.mem_iff_getElem?.1 hr'
    obtain ⟨hj, -⟩ := List.getElem?_eq_some_iff.1 ha
    refine ⟨_, ⟨j, ?_, rfl⟩, (varies_iff _).2 ⟨(words env a, i), mem_column.2 ⟨r, a, hi, ha, rfl⟩, (words env b, i'),
      mem_column.2 ⟨r', b, hi', hb, rfl⟩, h⟩⟩
    have := width_le hr
    omega

/-- The fold of `byWords`. -/
def lastWords (env : Env) (rows : List (List (List Char))) : ℕ × ℕ :=
  (((List.range ((rows.map List.length).foldl max 0)).map (column env rows)).map firstIndex).foldl lastFirst (0, 0)

theorem byWords_eq (env : Env) (rows : List (List (List Char))) (h : Option ℕ) :
    byWords env rows h =
      if (((List.range ((rows.map List.length).foldl max 0)).map (column env rows)).any varies) = true ∧
        (rows.map List.length).foldl max 0 / 2 < (lastWords env rows).2 then some (lastWords env rows).1 else h := rfl

theorem mem_firsts {env : Env} {rows : List (List (List Char))} {o : Option ℕ} :
    o ∈ ((List.range ((rows.map List.length).foldl max 0)).map (column env rows)).map firstIndex ↔
      ∃ j < (rows.map List.length).foldl max 0, firstIndex (column env rows j) = o := by
  simp

/-- The columns that begin in a row. -/
def begins (env : Env) (rows : List (List (List Char))) (m : ℕ) : List ℕ :=
  (List.range ((rows.map List.length).foldl max 0)).filter fun j => decide (firstIndex (column env rows j) = some m)

theorem lastWords_count (env : Env) (rows : List (List (List Char))) :
    (lastWords env rows).2 = (begins env rows (lastWords env rows).1).length := by
  have h := (lastFirst_spec (((List.range ((rows.map List.length).foldl max 0)).map (column env rows)).map firstIndex) (0, 0)).2.2
  change (lastWords env rows).2 = List.count (some (lastWords env rows).1) _ + (if (lastWords env rows).1 = 0 then 0 else 0) at h
  rw [ite_self, Nat.add_zero] at h
  rw [h, List.count, List.map_map, List.countP_map, List.countP_eq_length_filter]
  unfold begins
  congr 2
  funext j
  rw [Bool.eq_iff_iff]
  simp

theorem byWords_cond (env : Env) (rows : List (List (List Char))) (m : ℕ) :
    WordHeader env rows m ↔
      ((((List.range ((rows.map List.length).foldl max 0)).map (column env rows)).any varies) = true ∧
        (rows.map List.length).foldl max 0 / 2 < (lastWords env rows).2) ∧ m = (lastWords env rows).1 := by
  rw [any_varies, lastWords_count]
  have hmax := (lastFirst_spec (((List.range ((rows.map List.length).foldl max 0)).map (column env rows)).map firstIndex) (0, 0)).2.1
  change ∀ i, _ → i ≤ (lastWords env rows).1 at hmax
  have hle : ∀ j i, FirstWords env rows j i → i ≤ (lastWords env rows).1 := by
    intro j i h
    exact hmax i (mem_firsts.2 ⟨j, firstWords_lt h, firstIndex_iff.2 h⟩)
  have hbeg : ∀ k j, j ∈ begins env rows k ↔ FirstWords env rows j k := by
    intro k j
    unfold begins
    rw [List.mem_filter, List.mem_range, decide_eq_true_eq, firstIndex_iff]
    exact ⟨fun h => h.2, fun h => ⟨firstWords_lt h, h⟩⟩
  have hnd : ∀ k, (begins env rows k).Nodup := fun k => List.nodup_range.filter _
  unfold WordHeader
  constructor
  · rintro ⟨hv, hall, J, hJ, hJf, hJl⟩
    have hpos : 0 < J.length := by
      obtain ⟨_, r, hr, _⟩ := hv
      have := hJl r hr
      omega
    obtain ⟨j, hj⟩ := List.exists_mem_of_length_pos hpos
    have hm : m = (lastWords env rows).1 := by
      have h1 := hle j m (hJf j hj)
      by_contra hne
      have hlt : m < (lastWords env rows).1 := by omega
      have h3 := (lastFirst_mem (((List.range ((rows.map List.length).foldl max 0)).map (column env rows)).map firstIndex) (0, 0))
      change (lastWords env rows).1 = 0 ∨ _ at h3
      rcases h3 with h3 | h3
      · omega
      · obtain ⟨j', hj', h3⟩ := mem_firsts.1 h3
        have h4 := hall j' _ (firstIndex_iff.1 h3)
        change (lastWords env rows).1 ≤ m at h4
        omega
    refine ⟨⟨hv, ?_⟩, hm⟩
    rw [← hm]
    have hsub : J.length ≤ (begins env rows m).length :=
      (hJ.subperm (fun j hj => (hbeg m j).2 (hJf j hj))).length_le
    obtain ⟨_, r, hr, _⟩ := hv
    rcases (foldl_max_spec (rows.map List.length) 0).2.2 with h | h
    · rw [h]
      have := hJl r hr
      omega
    · obtain ⟨r', hr', h⟩ := List.mem_map.1 h
      rw [← h]
      exact (hJl r' hr').trans_le hsub
  · rintro ⟨⟨hv, hlt⟩, rfl⟩
    refine ⟨hv, hle, begins env rows _, hnd _, fun j hj => (hbeg _ j).1 hj, ?_⟩
    intro r hr
    have := width_le hr
    omega

theorem byWords_iff (env : Env) (rows : List (List (List Char))) (h : Option ℕ) (m : ℕ) :
    byWords env rows h = some m ↔
      WordHeader env rows m ∨ ((∀ k, ¬ WordHeader env rows k) ∧ h = some m) := by
  rw [byWords_eq]
  split_ifs with hc
  · rw [Option.some_inj]
    constructor
    · intro he
      exact Or.inl ((byWords_cond env rows m).2 ⟨hc, he.symm⟩)
    · rintro (hw | ⟨hn, -⟩)
      · exact ((byWords_cond env rows m).1 hw).2.symm
      · exact absurd ((byWords_cond env rows _).2 ⟨hc, rfl⟩) (hn _)
  · have hn : ∀ k, ¬ WordHeader env rows k := fun k hk => hc ((byWords_cond env rows k).1 hk).1
    constructor
    · intro he; exact Or.inr ⟨hn, he⟩
    · rintro (hw | ⟨-, he⟩)
      · exact absurd hw (hn m)
      · exact he

theorem rowTypes_ne_nil (env : Env) (d q : Char) (row : List Char) : rowTypes env d q row ≠ [] := by
  unfold rowTypes
  rw [Ne, List.map_eq_nil_iff]
  exact splitRow_ne_nil _ _ _

end Verif.Csv
