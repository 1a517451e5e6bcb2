import Verif.Model.RegexLabel
import Verif.Spec.RegexLabel
import Verif.Lemmas.Postprocess
import Mathlib.Tactic.FieldSimp
import Mathlib.Tactic.Ring

/-!
# Lemmas about labelling with regular expressions
-/

namespace Verif.RegexLabel

open Verif Verif.Spec.RegexLabel

variable {K S R T : Type} [DecidableEq K]

theorem le_foldl_max (l : List ℕ) (a : ℕ) : a ≤ l.foldl max a ∧ ∀ x ∈ l, x ≤ l.foldl max a := by
  induction l generalizing a with
  | nil => exact ⟨Nat.le_refl _, by simp⟩
  | cons y l ih =>
    obtain ⟨h1, h2⟩ := ih (max a y)
    refine ⟨by rw [List.foldl_cons]; omega, fun x hx => ?_⟩
    rw [List.foldl_cons]
    rcases List.mem_cons.mp hx with rfl | hx
    · omega
    · exact h2 x hx

theorem id_lt {mapping : PyDict K ℕ} {k : K} {id : ℕ} (h : PyDict.get? mapping k = some id) : id < numLabels mapping := by
  have := (le_foldl_max (mapping.map (·.2)) 0).2 id (List.mem_map_of_mem (PyDict.mem_of_get? h) (f := (·.2)))
  unfold numLabels
  omega

/-! ### Rows -/

/-- A match and the row of one character. -/
def rowStep (i dflt : ℕ) (row : List ℕ) (x : ℕ × ℕ × ℕ) : List ℕ := if x.2.1 ≤ i ∧ i < x.2.2 then hit dflt x.1 row else row

theorem marks_get (dflt : ℕ) (xs : List (ℕ × ℕ × ℕ)) (rows : List (List ℕ)) (i : ℕ) :
    (xs.foldl (mark dflt) rows)[i]? = rows[i]?.map fun r => xs.foldl (rowStep i dflt) r := by
  induction xs generalizing rows with
  | nil => simp
  | cons x xs ih =>
    rw [List.foldl_cons, ih]
    unfold mark
    rw [List.getElem?_mapIdx, Option.map_map]
    rfl

theorem marks_length (dflt : ℕ) (xs : List (ℕ × ℕ × ℕ)) (rows : List (List ℕ)) : (xs.foldl (mark dflt) rows).length = rows.length := by
  induction xs generalizing rows with
  | nil => rfl
  | cons x xs ih =>
    rw [List.foldl_cons, ih]
    simp [mark]

/-- What a row says. -/
structure RowInv (num dflt i : ℕ) (xs : List (ℕ × ℕ × ℕ)) (row : List ℕ) : Prop where
  len : row.length = num
  bit : ∀ l, l < num → row[l]? = some 0 ∨ row[l]? = some 1
  vote : ∀ l, l < num → l ≠ dflt → (row[l]? = some 1 ↔ ∃ x ∈ xs, x.1 = l ∧ x.2.1 ≤ i ∧ i < x.2.2)
  background : (∀ x ∈ xs, ¬ (x.2.1 ≤ i ∧ i < x.2.2)) → row[dflt]? = some 1
  foreground : (∃ x ∈ xs, x.2.1 ≤ i ∧ i < x.2.2) → (∀ x ∈ xs, x.2.1 ≤ i → i < x.2.2 → x.1 ≠ dflt) → row[dflt]? = some 0
  some : ∃ l, l < num ∧ row[l]? = some 1

theorem hit_get (dflt id l : ℕ) (row : List ℕ) (hl : l < row.length) :
    (hit dflt id row)[l]? = if l = id then some 1 else if l = dflt then some 0 else row[l]? := by
  unfold hit
  split_ifs with h1 h2
  · subst h1
    rw [List.getElem?_set_self (by simpa using hl)]
  · subst h2
    rw [List.getElem?_set_ne (Ne.symm h1), List.getElem?_set_self hl]
  · rw [List.getElem?_set_ne (Ne.symm h1), List.getElem?_set_ne (Ne.symm h2)]

theorem row_inv (num dflt i : ℕ) (hd : dflt < num) (xs : List (ℕ × ℕ × ℕ)) (hx : ∀ x ∈ xs, x.1 < num) :
    RowInv num dflt i xs (xs.foldl (rowStep i dflt) ((List.replicate num 0).set dflt 1)) := by
  induction xs using List.reverseRecOn with
  | nil =>
    have hself : ((List.replicate num 0).set dflt 1)[dflt]? = some 1 := by rw [List.getElem?_set_self (by simpa using hd)]
    have hother : ∀ l, l < num → l ≠ dflt → ((List.replicate num 0).set dflt 1)[l]? = some 0 := by
      intro l hl hne
      rw [List.getElem?_set_ne (Ne.symm hne), List.getElem?_replicate, if_pos hl]
    refine ⟨by simp, fun l hl => ?_, fun l hl hne => ?_, fun _ => hself, by simp, ⟨dflt, hd, hself⟩⟩
    · by_cases h : l = dflt
      · rw [h]; exact .inr hself
      · exact .inl (hother l hl h)
    · rw [List.foldl_nil, hother l hl hne]
      simp
  | append_singleton xs x ih =>
    have h := ih fun y hy => hx y (by simp [hy])
    have hxn := hx x (by simp)
    rw [List.foldl_append, List.foldl_cons, List.foldl_nil]
    generalize xs.foldl (rowStep i dflt) ((List.replicate num 0).set dflt 1) = row at h
    unfold rowStep
    split_ifs with hc
    · have hg : ∀ l, l < num → (hit dflt x.1 row)[l]? = if l = x.1 then some 1 else if l = dflt then some 0 else row[l]? :=
        fun l hl => hit_get dflt x.1 l row (by rw [h.len]; exact hl)
      refine ⟨by simp [hit, h.len], fun l hl => ?_, fun l hl hne => ?_, fun hno => ?_, fun _ hnd => ?_, ⟨x.1, hxn, ?_⟩⟩
      · rw [hg l hl]
        split_ifs
        · exact .inr rfl
        · exact .inl rfl
        · exact h.bit l hl
      · rw [hg l hl, if_neg hne]
        split_ifs with he
        · simp only [true_iff]
          exact ⟨x, by simp, he.symm, hc⟩
        · rw [h.vote l hl hne]
          constructor
          · rintro ⟨y, hy, h'⟩
            exact ⟨y, by simp [hy], h'⟩
          · rintro ⟨y, hy, h1, h2⟩
            rcases List.mem_append.mp hy with hy | hy
            · exact ⟨y, hy, h1, h2⟩
            · rw [List.mem_singleton] at hy
              subst hy
              exact absurd h1.symm he
      · exact absurd hc (hno x (by simp))
      · rw [hg dflt hd, if_neg (Ne.symm (hnd x (by simp) hc.1 hc.2)), if_pos rfl]
      · rw [hg x.1 hxn, if_pos rfl]
    · refine ⟨h.len, h.bit, fun l hl hne => ?_, fun hno => ?_, ?_, h.some⟩
      · rw [h.vote l hl hne]
        constructor
        · rintro ⟨y, hy, h'⟩
          exact ⟨y, by simp [hy], h'⟩
        · rintro ⟨y, hy, h1, h2⟩
          rcases List.mem_append.mp hy with hy | hy
          · exact ⟨y, hy, h1, h2⟩
          · rw [List.mem_singleton] at hy
            subst hy
            exact absurd h2 hc
      · exact h.background fun y hy => hno y (by simp [hy])
      · rintro ⟨y, hy, h2⟩ hnd
        rcases List.mem_append.mp hy with hy | hy
        · exact h.foreground ⟨y, hy, h2⟩ fun z hz => hnd z (by simp [hz])
        · rw [List.mem_singleton] at hy
          subst hy
          exact absurd h2 hc

/-! ### Matches -/

theorem found_mem {mapping : PyDict K ℕ} {find : R → T → List (ℕ × ℕ)} {patterns : List (K × List R)} {text : T}
    {xs : List (ℕ × ℕ × ℕ)} (h : found mapping find patterns text = .ok xs) (x : ℕ × ℕ × ℕ) :
    x ∈ xs ↔ ∃ e ∈ patterns, PyDict.get? mapping e.1 = some x.1 ∧ ∃ r ∈ e.2, x.2 ∈ find r text := by
  unfold found at h
  induction patterns generalizing xs with
  | nil =>
    injection h with h
    subst h
    simp
  | cons e ps ih =>
    rw [List.mapM_cons] at h
    unfold labelFound at h
    cases he : PyDict.get? mapping e.1 with
    | none => rw [he] at h; exact nomatch h
    | some id =>
      rw [he] at h
      cases hp : List.mapM (labelFound mapping find text) ps with
      | error err =>
        unfold labelFound at hp
        rw [hp] at h
        exact nomatch h
      | ok ys =>
        have ih' := ih (xs := ys.flatten) (by rw [hp]; rfl)
        unfold labelFound at hp
        rw [hp] at h
        injection h with h
        subst h
        rw [List.flatten_cons, List.mem_append, ih']
        simp only [List.mem_cons, exists_eq_or_imp, he, List.mem_flatMap, List.mem_map]
        constructor
        · rintro (⟨r, hr, s, hs, rfl⟩ | h')
          · exact .inl ⟨rfl, r, hr, hs⟩
          · exact .inr h'
        · rintro (⟨h1, r, hr, hs⟩ | h')
          · injection h1 with h1
            exact .inl ⟨r, hr, x.2, hs, by rw [h1]⟩
          · exact .inr h'

/-! ### The list of arrays -/

theorem fillAll_ok (f : T → Except Err (List (List ℕ))) (ts : List T) :
    ∀ preds last i out, 0 < preds.length → i ≤ preds.length → fillAll f preds last i ts = .ok out →
      (ts = [] → out.2 = last) ∧ (ts ≠ [] → out.2 + 1 = i + ts.length) ∧ i + ts.length ≤ out.1.length ∧
      out.1.take i = preds.take i ∧
      List.Forall₂ (fun t o => ∃ rows, o = some rows ∧ f t = .ok rows) ts ((out.1.drop i).take ts.length) := by
  induction ts with
  | nil =>
    intro preds last i out hp hi h
    injection h with h
    subst h
    exact ⟨fun _ => rfl, fun h => absurd rfl h, by simpa using hi, rfl, by simp⟩
  | cons t ts ih =>
    intro preds last i out hp hi h
    rw [fillAll] at h
    cases hf : f t with
    | error e => rw [hf] at h; exact nomatch h
    | ok rows =>
      rw [hf] at h
      dsimp only at h
      obtain ⟨grown, hgr⟩ : ∃ g, g = if preds.length ≤ i then preds ++ List.replicate preds.length none else preds := ⟨_, rfl⟩
      rw [← hgr] at h
      have hlen : i < grown.length := by
        rw [hgr]; split_ifs with hh
        · simp; omega
        · omega
      have htake : grown.take i = preds.take i := by
        rw [hgr]; split_ifs
        · rw [List.take_append_of_le_length hi]
        · rfl
      obtain ⟨h1, h2, h3, h4, h5⟩ := ih (grown.set i (some rows)) i (i + 1) out (by simp; omega) (by simp; omega) h
      have hget : out.1[i]? = some (some rows) := by
        have : (out.1.take (i + 1))[i]? = ((grown.set i (some rows)).take (i + 1))[i]? := by rw [h4]
        rw [List.getElem?_take_of_lt (by omega), List.getElem?_take_of_lt (by omega), List.getElem?_set_self hlen] at this
        exact this
      refine ⟨(fun h => nomatch h), fun _ => ?_, by simp; omega, ?_, ?_⟩
      · by_cases hts : ts = []
        · rw [h1 hts, hts]; simp
        · rw [h2 hts]; simp; omega
      · have := congrArg (List.take i) h4
        rw [List.take_take, List.take_take, Nat.min_eq_left (by omega)] at this
        rw [this, List.take_set_of_le (Nat.le_refl _), htake]
      · have hlt : i < out.1.length := (List.getElem?_eq_some_iff.mp hget).1
        have hgi : out.1[i] = some rows := by
          have := List.getElem?_eq_getElem hlt
          rw [hget] at this
          injection this with this
          exact this.symm
        rw [List.drop_eq_getElem_cons hlt, List.length_cons, List.take_succ_cons, hgi]
        exact .cons ⟨rows, rfl, hf⟩ h5

/-! ### Shares -/

theorem sum_pos {row : List ℕ} {l : ℕ} (h : row[l]? = some 1) : 0 < row.sum := by
  have hm := List.mem_of_getElem? h
  clear h
  induction row with
  | nil => exact nomatch hm
  | cons x row ih =>
    rw [List.sum_cons]
    rcases List.mem_cons.mp hm with h | h
    · omega
    · have := ih h; omega

theorem normalize_shares {row : List ℕ} (h : 0 < row.sum) : Shares row (normalize row) := by
  refine ⟨by simp [normalize], ?_, fun l hl => ?_, fun l l' h1 h2 => ?_⟩
  · have hcast : ∀ (ls : List ℕ) (t : ℚ), (ls.map fun (x : ℕ) => (x : ℚ) / t).sum = ((ls.sum : ℕ) : ℚ) / t := by
      intro ls t
      induction ls with
      | nil => simp
      | cons x ls ih => rw [List.map_cons, List.sum_cons, ih, List.sum_cons, Nat.cast_add, add_div]
    unfold normalize
    rw [hcast]
    exact div_self (by exact_mod_cast h.ne')
  · unfold normalize; rw [List.getElem?_map, hl]; simp
  · unfold normalize; rw [List.getElem?_map, List.getElem?_map, h1, h2]

theorem argmax_spec (xs : List ℚ) (h : xs ≠ []) : FirstMax xs (argmax xs) := by
  induction xs with
  | nil => exact absurd rfl h
  | cons x xs ih =>
    unfold argmax
    split_ifs with hall
    · rw [List.all_eq_true] at hall
      refine ⟨x, rfl, fun y hy => ?_, fun j y hj => by omega⟩
      rcases List.mem_cons.mp hy with rfl | hy
      · exact le_refl _
      · simpa using hall y hy
    · have hex : ∃ y ∈ xs, x < y := by
        by_contra hno
        refine hall (List.all_eq_true.mpr fun y hy => ?_)
        by_contra hy'
        exact hno ⟨y, hy, not_le.mp (by simpa using hy')⟩
      obtain ⟨y, hy, hxy⟩ := hex
      obtain ⟨m, h1, h2, h3⟩ := ih (List.ne_nil_of_mem hy)
      refine ⟨m, by simpa using h1, fun z hz => ?_, fun j z hj hz => ?_⟩
      · rcases List.mem_cons.mp hz with rfl | hz
        · exact le_of_lt (lt_of_lt_of_le hxy (h2 y hy))
        · exact h2 z hz
      · cases j with
        | zero =>
          simp only [List.getElem?_cons_zero, Option.some.injEq] at hz
          rw [← hz]
          exact lt_of_lt_of_le hxy (h2 y hy)
        | succ j => exact h3 j z (by omega) (by simpa using hz)

/-- The first label in the order that is voted for, if any is. -/
theorem pick_spec (order row : List ℕ) (hbit : ∀ l ∈ order, row[l]? = some 0 ∨ row[l]? = some 1)
    (hex : ∃ l ∈ order, row[l]? = some 1) :
    ∃ k : ℕ, order[k]? = some (pick order row) ∧ row[pick order row]? = some 1 ∧
      ∀ (j l : ℕ), j < k → order[j]? = some l → row[l]? = some 0 := by
  have hne : (order.map fun l => ((row.getD l 0 : ℕ) : ℚ)) ≠ [] := by
    obtain ⟨l, hl, -⟩ := hex
    intro h
    rw [List.map_eq_nil_iff] at h
    rw [h] at hl
    exact nomatch hl
  obtain ⟨m, h1, h2, h3⟩ := argmax_spec _ hne
  obtain ⟨k, hk⟩ : ∃ k, k = argmax (order.map fun l => ((row.getD l 0 : ℕ) : ℚ)) := ⟨_, rfl⟩
  rw [← hk] at h1 h3
  rw [List.getElem?_map, Option.map_eq_some_iff] at h1
  obtain ⟨l, hl, hm⟩ := h1
  have hpick : pick order row = l := by
    unfold pick
    rw [← hk, List.getD_eq_getElem?_getD, hl]; rfl
  obtain ⟨l1, hl1, hr1⟩ := hex
  have hm1 : m = 1 := by
    have hle : (1 : ℚ) ≤ m := by
      have := h2 _ (List.mem_map_of_mem hl1)
      rw [List.getD_eq_getElem?_getD, hr1] at this
      simpa using this
    rcases hbit l (List.mem_of_getElem? hl) with h | h
    · rw [List.getD_eq_getElem?_getD, h] at hm
      simp at hm
      linarith
    · rw [List.getD_eq_getElem?_getD, h] at hm
      simp at hm
      exact hm.symm
  refine ⟨k, by rw [hpick]; exact hl, ?_, fun j l' hj hl' => ?_⟩
  · rw [hpick]
    rcases hbit l (List.mem_of_getElem? hl) with h | h
    · rw [List.getD_eq_getElem?_getD, h] at hm
      simp at hm
      linarith
    · exact h
  · rcases hbit l' (List.mem_of_getElem? hl') with h | h
    · exact h
    · have := h3 j 1 hj (by rw [List.getElem?_map, hl', Option.map_some, List.getD_eq_getElem?_getD, h]; simp)
      linarith

/-! ### Cells -/

theorem sum_div (ls : List ℚ) (t : ℚ) : (ls.map fun x => x / t).sum = ls.sum / t := by
  induction ls with
  | nil => simp
  | cons x ls ih => rw [List.map_cons, List.sum_cons, ih, List.sum_cons, add_div]

theorem sum_range_getD (r : List ℚ) : ((List.range r.length).map fun l => r.getD l 0).sum = r.sum := by
  congr 1
  apply List.ext_getElem?
  intro i
  rw [List.getElem?_map]
  by_cases h : i < r.length
  · rw [List.getElem?_range h, Option.map_some, List.getElem?_eq_getElem h, List.getD_eq_getElem?_getD, List.getElem?_eq_getElem h]
    rfl
  · rw [List.getElem?_eq_none (by simpa using h), List.getElem?_eq_none (by simpa using h)]
    rfl

theorem sum_swap (num : ℕ) (rows : List (List ℚ)) :
    ((List.range num).map fun l => (rows.map fun r => r.getD l 0).sum).sum =
      (rows.map fun r => ((List.range num).map fun l => r.getD l 0).sum).sum := by
  induction rows with
  | nil => simp
  | cons r rows ih =>
    simp only [List.map_cons, List.sum_cons]
    rw [← ih]
    generalize List.range num = ls
    induction ls with
    | nil => simp
    | cons l ls ih2 =>
      simp only [List.map_cons, List.sum_cons, ih2]
      ring

theorem mean_sum (num : ℕ) (rows : List (List ℚ)) (hne : rows ≠ []) (h : ∀ r ∈ rows, r.length = num ∧ r.sum = 1) (m : List ℚ)
    (hm : mean num rows = some m) : m.sum = 1 := by
  unfold mean at hm
  rw [if_neg hne] at hm
  injection hm with hm
  subst hm
  have := sum_div ((List.range num).map fun l => (rows.map fun r => r.getD l 0).sum) ((rows.length : ℕ) : ℚ)
  rw [List.map_map] at this
  have h2 : ((List.range num).map fun l => (rows.map fun r => r.getD l 0).sum / ((rows.length : ℕ) : ℚ)).sum =
      ((List.range num).map fun l => (rows.map fun r => r.getD l 0).sum).sum / ((rows.length : ℕ) : ℚ) := this
  rw [h2, sum_swap]
  have h3 : (rows.map fun r => ((List.range num).map fun l => r.getD l 0).sum) = rows.map fun _ => (1 : ℚ) := by
    refine List.map_congr_left fun r hr => ?_
    obtain ⟨h4, h5⟩ := h r hr
    rw [← h4, sum_range_getD, h5]
  rw [h3]
  simp only [List.map_const', List.sum_replicate, nsmul_eq_mul, mul_one]
  exact div_self (by exact_mod_cast (List.length_pos_iff.mpr hne).ne')

end Verif.RegexLabel
