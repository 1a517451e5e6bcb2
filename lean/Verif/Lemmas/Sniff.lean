import Verif.Model.Sniff
import Verif.Spec.Sniff
import Mathlib.Tactic.SplitIfs
import Mathlib.Data.List.Basic
import Mathlib.Data.List.Infix

namespace Verif.Lemmas.Sniff

open Verif Verif.Sniff Verif.Spec.Sniff

/-! ### Matches -/

theorem matchStarts_ge (c : Char) (merge inside : Bool) (i : ℕ) (s : List Char) :
    ∀ j ∈ matchStarts c merge inside i s, i ≤ j := by
  induction s generalizing inside i with
  | nil => intro j hj; cases hj
  | cons x xs ih =>
    intro j hj
    simp only [matchStarts] at hj
    split_ifs at hj
    · have := ih _ _ j hj; omega
    · rcases List.mem_cons.1 hj with rfl | hj
      · exact Nat.le_refl _
      · have := ih _ _ j hj; omega
    · have := ih _ _ j hj; omega

theorem matchStarts_sorted (c : Char) (merge inside : Bool) (i : ℕ) (s : List Char) :
    (matchStarts c merge inside i s).Pairwise (· < ·) := by
  induction s generalizing inside i with
  | nil => exact List.Pairwise.nil
  | cons x xs ih =>
    simp only [matchStarts]
    split_ifs
    · exact ih _ _
    · exact List.pairwise_cons.2 ⟨fun j hj => matchStarts_ge c merge _ _ _ j hj, ih _ _⟩
    · exact ih _ _

theorem matchStarts_mem (c : Char) (inside : Bool) (i : ℕ) (s : List Char) (j : ℕ) :
    i + j ∈ matchStarts c true inside i s ↔
      s[j]? = some c ∧ (∀ k, k + 1 = j → s[k]? ≠ some c) ∧ (j = 0 → inside = false) := by
  induction s generalizing inside i j with
  | nil => simp [matchStarts]
  | cons x xs ih =>
    have hnot : ∀ b, i + 0 ∉ matchStarts c true b (i + 1) xs := by
      intro b hm
      have := matchStarts_ge _ _ _ _ _ _ hm
      omega
    have hsucc : ∀ b k, i + (k + 1) ∈ matchStarts c true b (i + 1) xs ↔
        xs[k]? = some c ∧ (∀ m, m + 1 = k → xs[m]? ≠ some c) ∧ (k = 0 → b = false) := by
      intro b k
      rw [show i + (k + 1) = i + 1 + k by omega]
      exact ih b (i + 1) k
    cases j with
    | zero =>
      simp only [matchStarts]
      by_cases hx : x = c
      · cases inside
        · simp [hx]
        · simp only [hx, if_true, and_self]
          constructor
          · intro h; exact absurd h (hnot _)
          · rintro ⟨-, -, h⟩; simp at h
      · rw [if_neg hx]
        constructor
        · intro h; exact absurd h (hnot _)
        · rintro ⟨h, -⟩; simp at h; exact absurd h hx
    | succ k =>
      have hkey : (i + (k + 1) ∈ matchStarts c true inside i (x :: xs)) ↔
          i + (k + 1) ∈ matchStarts c true (decide (x = c)) (i + 1) xs := by
        simp only [matchStarts]
        by_cases hx : x = c
        · cases inside
          · simp only [hx, if_true, Bool.false_eq_true, and_false, if_false, decide_true, List.mem_cons]
            constructor
            · rintro (h | h)
              · omega
              · exact h
            · exact Or.inr
          · simp [hx]
        · simp [hx]
      rw [hkey, hsucc]
      constructor
      · rintro ⟨h1, h2, h3⟩
        refine ⟨by simpa using h1, fun m hm => ?_, by simp⟩
        cases m with
        | zero =>
          have : k = 0 := by omega
          have := h3 this
          simpa using this
        | succ m => simpa using h2 m (by omega)
      · rintro ⟨h1, h2, -⟩
        refine ⟨by simpa using h1, fun m hm => by simpa using h2 (m + 1) (by omega), fun hk => ?_⟩
        have := h2 0 (by omega)
        simpa using this

theorem runStarts (c : Char) (s : List Char) : RunStarts c s (matchStarts c true false 0 s) := by
  refine ⟨matchStarts_sorted _ _ _ _ _, fun i => ?_⟩
  have := matchStarts_mem c false 0 s i
  rw [Nat.zero_add] at this
  rw [this]
  unfold Starts
  simp

theorem matchStarts_all (c : Char) (inside : Bool) (i : ℕ) (s : List Char) (j : ℕ) :
    i + j ∈ matchStarts c false inside i s ↔ s[j]? = some c := by
  induction s generalizing inside i j with
  | nil => simp [matchStarts]
  | cons x xs ih =>
    simp only [matchStarts, Bool.false_eq_true, false_and, if_false]
    cases j with
    | zero =>
      have hnot : ∀ b, i + 0 ∉ matchStarts c false b (i + 1) xs := by
        intro b hm
        have := matchStarts_ge _ _ _ _ _ _ hm
        omega
      by_cases hx : x = c
      · simp [hx]
      · simp [hx]; exact hnot _
    | succ k =>
      have := fun b => ih b (i + 1) k
      simp only [show i + (k + 1) = i + 1 + k by omega, List.getElem?_cons_succ]
      by_cases hx : x = c
      · simp only [hx, if_true, List.mem_cons, this]
        constructor
        · rintro (h | h)
          · omega
          · exact h
        · exact Or.inr
      · simp only [hx, if_false, this]

theorem occurrences (c : Char) (s : List Char) : Occurrences c s (matchStarts c false false 0 s) := by
  refine ⟨matchStarts_sorted _ _ _ _ _, fun i => ?_⟩
  have := matchStarts_all c false 0 s i
  rwa [Nat.zero_add] at this

theorem sorted_unique {l l' : List ℕ} (h : l.Pairwise (· < ·)) (h' : l'.Pairwise (· < ·)) (hm : ∀ i, i ∈ l ↔ i ∈ l') :
    l = l' := by
  induction l generalizing l' with
  | nil =>
    cases l' with
    | nil => rfl
    | cons a l' => exact absurd ((hm a).2 List.mem_cons_self) (by simp)
  | cons a l ih =>
    cases l' with
    | nil => exact absurd ((hm a).1 List.mem_cons_self) (by simp)
    | cons b l' =>
      rw [List.pairwise_cons] at h h'
      have hab : a = b := by
        rcases List.mem_cons.1 ((hm a).1 List.mem_cons_self) with e | e
        · exact e
        · rcases List.mem_cons.1 ((hm b).2 List.mem_cons_self) with e' | e'
          · exact e'.symm
          · have h1 := h.1 b e'
            have h2 := h'.1 a e
            omega
      subst hab
      congr 1
      refine ih h.2 h'.2 fun i => ⟨fun hi => ?_, fun hi => ?_⟩
      · rcases List.mem_cons.1 ((hm i).1 (List.mem_cons_of_mem _ hi)) with e | e
        · subst e; have := h.1 _ hi; omega
        · exact e
      · rcases List.mem_cons.1 ((hm i).2 (List.mem_cons_of_mem _ hi)) with e | e
        · subst e; have := h'.1 _ hi; omega
        · exact e

/-! ### Finding -/

theorem scan_eq (n : ℤ) (l : List ℕ) : ∀ (idx count : ℤ), count + 1 < n →
    scan n idx count l =
      if h : (n - count - 2).toNat < l.length then ((l[(n - count - 2).toNat] : ℤ), n - 1)
      else (((l.getLast?.map fun x : ℕ => (x : ℤ)).getD idx), count + l.length) := by
  induction l with
  | nil => intro idx count _; simp [scan]
  | cons i l ih =>
    intro idx count hc
    simp only [scan]
    by_cases h : count + 2 = n
    · rw [if_pos h]
      have h0 : (n - count - 2).toNat = 0 := by omega
      rw [dif_pos (by rw [h0]; simp)]
      simp only [h0, List.getElem_cons_zero]
      rw [show count + 1 = n - 1 by omega]
    · rw [if_neg h, ih _ _ (by omega)]
      have h1 : (n - count - 2).toNat = (n - (count + 1) - 2).toNat + 1 := by omega
      by_cases h2 : (n - (count + 1) - 2).toNat < l.length
      · rw [dif_pos h2, dif_pos (by rw [h1]; simpa using h2)]
        simp only [h1, List.getElem_cons_succ]
      · rw [dif_neg h2, dif_neg (by rw [h1]; simpa using h2)]
        rw [List.getLast?_cons]
        cases l.getLast? <;> simp <;> omega

theorem findNth_eq (s : List Char) (c : Char) (n : ℕ) (merge : Bool) (hs : s ≠ []) (hn : 0 < n) :
    findNth s c n merge =
      if h : n ≤ (matchStarts c merge false 0 s).length then (((matchStarts c merge false 0 s)[n - 1] : ℤ), (n : ℤ))
      else (s.length, (matchStarts c merge false 0 s).length) := by
  unfold findNth
  rw [if_neg (by rintro (h | h); exact hs h; omega)]
  dsimp only
  rw [scan_eq _ _ _ _ (by omega)]
  have h1 : ((n : ℤ) - -1 - 2).toNat = n - 1 := by omega
  by_cases h : n ≤ (matchStarts c merge false 0 s).length
  · rw [dif_pos h, dif_pos (by rw [h1]; omega)]
    simp only [h1]
    rw [if_neg (by omega)]
    simp
  · rw [dif_neg h, dif_neg (by rw [h1]; omega)]
    dsimp only
    rw [if_pos (by omega), show -1 + ((matchStarts c merge false 0 s).length : ℤ) + 1 = (matchStarts c merge false 0 s).length by omega]

/-! ### Runs -/

/-- The number of runs of line ends. -/
def runs (s : List Char) : ℕ := (matchStarts '\n' true false 0 s).length

theorem hasRuns_iff (s : List Char) (k : ℕ) : HasRuns s k ↔ runs s = k := by
  constructor
  · rintro ⟨l, h, rfl⟩
    have := runStarts '\n' s
    rw [runs, sorted_unique this.1 h.1 fun i => (this.2 i).trans (h.2 i).symm]
  · rintro rfl
    exact ⟨_, runStarts '\n' s, rfl⟩

/-- Runs, given whether the text before ends with a line end. -/
def runsAfter (inside : Bool) (s : List Char) : ℕ := (matchStarts '\n' true inside 0 s).length

theorem starts_length (c : Char) (merge inside : Bool) (i j : ℕ) (s : List Char) :
    (matchStarts c merge inside i s).length = (matchStarts c merge inside j s).length := by
  induction s generalizing inside i j with
  | nil => rfl
  | cons x xs ih =>
    simp only [matchStarts]
    split_ifs
    · exact ih _ _ _
    · simp only [List.length_cons]; rw [ih _ (i + 1) (j + 1)]
    · exact ih _ _ _

theorem runsAfter_cons (inside : Bool) (x : Char) (xs : List Char) :
    runsAfter inside (x :: xs) = (if x = '\n' ∧ inside = false then 1 else 0) + runsAfter (decide (x = '\n')) xs := by
  unfold runsAfter
  simp only [matchStarts]
  by_cases hx : x = '\n'
  · cases inside
    · simp only [hx, if_true, Bool.false_eq_true, and_false, if_false, List.length_cons, and_self, decide_true]
      rw [starts_length _ _ _ (0 + 1) 0]; omega
    · simp only [hx, if_true, and_self, decide_true, Bool.true_eq_false, and_false, if_false]
      rw [starts_length _ _ _ (0 + 1) 0]; omega
  · simp only [hx, if_false, false_and, decide_false]
    rw [starts_length _ _ _ (0 + 1) 0]; omega

theorem runsAfter_le (s : List Char) : runsAfter true s ≤ runsAfter false s ∧ runsAfter false s ≤ runsAfter true s + 1 := by
  cases s with
  | nil => simp [runsAfter, matchStarts]
  | cons x xs =>
    rw [runsAfter_cons, runsAfter_cons]
    split_ifs <;> (simp_all; try omega)

/-- Whether a text ends with a line end. -/
def ends (inside : Bool) : List Char → Bool
  | [] => inside
  | x :: xs => ends (decide (x = '\n')) xs

theorem runsAfter_append (inside : Bool) (a b : List Char) :
    runsAfter inside (a ++ b) = runsAfter inside a + runsAfter (ends inside a) b := by
  induction a generalizing inside with
  | nil => simp [runsAfter, matchStarts, ends]
  | cons x a ih =>
    rw [List.cons_append, runsAfter_cons, runsAfter_cons, ih, ends]
    omega

theorem runs_append_le (a b : List Char) : runs (a ++ b) ≤ runs a + runs b := by
  have h := runsAfter_append false a b
  have hb := (runsAfter_le b).1
  unfold runs
  change runsAfter false (a ++ b) ≤ runsAfter false a + runsAfter false b
  rw [h]
  cases ends false a
  · exact Nat.le_refl _
  · omega

theorem runs_append_left (a b : List Char) : runs a ≤ runs (a ++ b) := by
  have h := runsAfter_append false a b
  unfold runs
  change runsAfter false a ≤ runsAfter false (a ++ b)
  omega

theorem runsAfter_count (inside : Bool) (s : List Char) : runsAfter inside s ≤ s.count '\n' := by
  induction s generalizing inside with
  | nil => simp [runsAfter, matchStarts]
  | cons x xs ih =>
    rw [runsAfter_cons, List.count_cons]
    have := ih (decide (x = '\n'))
    by_cases hx : x = '\n'
    · simp only [hx, true_and, beq_self_eq_true, if_true] at this ⊢
      split_ifs <;> omega
    · simp [hx] at this ⊢
      omega

/-- Before the start of a run there are exactly the runs that start earlier. -/
theorem runs_take (inside : Bool) (i : ℕ) (s : List Char) (k : ℕ) (h : k < (matchStarts '\n' true inside i s).length) :
    (matchStarts '\n' true inside i (s.take ((matchStarts '\n' true inside i s)[k] - i))).length = k := by
  induction s generalizing inside i k with
  | nil => simp [matchStarts] at h
  | cons x xs ih =>
    have hrec : ∀ b k (h : k < (matchStarts '\n' true b (i + 1) xs).length),
        ∃ m, (matchStarts '\n' true b (i + 1) xs)[k] - i = m + 1 ∧
          (matchStarts '\n' true b (i + 1) (xs.take m)).length = k := by
      intro b k h
      have hge := matchStarts_ge _ _ _ _ _ _ (List.getElem_mem h)
      refine ⟨(matchStarts '\n' true b (i + 1) xs)[k] - (i + 1), by omega, ih b (i + 1) k h⟩
    by_cases hx : x = '\n'
    · rcases Bool.eq_false_or_eq_true inside with hb | hb
      · subst hb
        have e : ∀ ys, matchStarts '\n' true true i (x :: ys) = matchStarts '\n' true true (i + 1) ys := by
          intro ys; simp [matchStarts, hx]
        simp only [e] at h ⊢
        obtain ⟨m, h1, h2⟩ := hrec true k h
        simp only [h1, List.take_succ_cons, e, h2]
      · subst hb
        have e : ∀ ys, matchStarts '\n' true false i (x :: ys) = i :: matchStarts '\n' true true (i + 1) ys := by
          intro ys; simp [matchStarts, hx]
        simp only [e] at h ⊢
        cases k with
        | zero => simp [matchStarts]
        | succ k =>
          obtain ⟨m, h1, h2⟩ := hrec true k (by simpa using h)
          simp only [List.getElem_cons_succ, h1, List.take_succ_cons, e, List.length_cons, h2]
    · have e : ∀ ys, matchStarts '\n' true inside i (x :: ys) = matchStarts '\n' true false (i + 1) ys := by
        intro ys; simp [matchStarts, hx]
      simp only [e] at h ⊢
      obtain ⟨m, h1, h2⟩ := hrec false k h
      simp only [h1, List.take_succ_cons, e, h2]

/-! ### Chunks -/

/-- What is taken from a chunk. -/
theorem inner_eq (s : List Char) (maxLines : ℕ) (total fuel : ℕ) (data : List Char) (ht : total < maxLines) (hf : 2 ≤ fuel) :
    inner s maxLines ((maxLines : ℤ) - (total : ℤ)) fuel 0 total data =
      if s.length ≤ 1 then some ((total : ℤ), data)
      else if runs s < maxLines - total then some (((total + runs s : ℕ) : ℤ), data ++ s)
      else some ((maxLines : ℤ), data ++ s.take ((matchStarts '\n' true false 0 s).getD (maxLines - total - 1) 0)) := by
  obtain ⟨fuel, rfl⟩ : ∃ f, fuel = f + 2 := ⟨fuel - 2, by omega⟩
  by_cases h1 : s.length ≤ 1
  · rw [if_pos h1, inner, if_neg (by omega)]
  · rw [if_neg h1, inner, if_pos ⟨by omega, by omega⟩]
    dsimp only
    have hne : s ≠ [] := by rintro rfl; simp at h1
    have hslice : ∀ i : ℕ, slice s 0 (i : ℤ) = s.take i := by
      intro i
      unfold slice
      rw [if_neg (by omega), Int.toNat_natCast, List.drop_zero]
    rw [List.drop_zero, show (maxLines : ℤ) - (total : ℤ) = ((maxLines - total : ℕ) : ℤ) by omega,
      findNth_eq s '\n' (maxLines - total) true hne (by omega)]
    by_cases h2 : runs s < maxLines - total
    · rw [if_pos h2, dif_neg (by unfold runs at h2; omega)]
      dsimp only
      rw [inner, if_neg (by rw [Int.toNat_natCast]; omega)]
      rw [hslice, List.take_length]
      rfl
    · rw [if_neg h2]
      have h3 : maxLines - total ≤ (matchStarts '\n' true false 0 s).length := by unfold runs at h2; omega
      rw [dif_pos h3]
      dsimp only
      have h4 : maxLines - total - 1 < (matchStarts '\n' true false 0 s).length := by omega
      rw [inner, if_neg (by omega)]
      rw [hslice, List.getD_eq_getElem?_getD, List.getElem?_eq_getElem h4, Option.getD_some]
      congr 2
      omega

end Verif.Lemmas.Sniff
