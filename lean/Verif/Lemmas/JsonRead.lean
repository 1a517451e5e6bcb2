import Verif.Model.JsonRead
import Verif.Spec.JsonRead
import Mathlib.Data.List.Basic
import Mathlib.Data.List.TakeWhile
import Mathlib.Tactic.SplitIfs

namespace Verif.JsonRead

open Verif Verif.Json Verif.Spec.JsonRead

variable {A : Type}

theorem fileLines_flatten (brk : Char → Bool) (t : List Char) : (fileLines brk t).flatten = t := by
  induction t with
  | nil => rfl
  | cons c cs ih =>
    rw [fileLines]
    by_cases h : brk c = true
    · rw [if_pos h, List.flatten_cons, ih]; rfl
    · rw [if_neg h]
      cases hf : fileLines brk cs with
      | nil => rw [hf] at ih; rw [← ih]; rfl
      | cons l ls => rw [hf] at ih; rw [← ih]; rfl

theorem fileLines_ne_nil (brk : Char → Bool) (t : List Char) : ∀ l ∈ fileLines brk t, l ≠ [] := by
  induction t with
  | nil => intro l h; cases h
  | cons c cs ih =>
    rw [fileLines]
    by_cases h : brk c = true
    · rw [if_pos h]
      intro l hl
      rcases List.mem_cons.1 hl with rfl | hl
      · simp
      · exact ih l hl
    · rw [if_neg h]
      cases hf : fileLines brk cs with
      | nil =>
        intro l hl
        rw [List.mem_singleton.1 hl]; simp
      | cons x xs =>
        intro l hl
        rcases List.mem_cons.1 hl with rfl | hl
        · simp
        · exact ih l (by rw [hf]; exact List.mem_cons_of_mem _ hl)

/-- A line is its body and, unless it is the last one, its end. -/
theorem fileLines_shape (brk : Char → Bool) (t : List Char) : ∀ l ∈ fileLines brk t,
    (∀ c ∈ l, brk c = false) ∨ ∃ b e, l = b ++ [e] ∧ brk e = true ∧ ∀ c ∈ b, brk c = false := by
  induction t with
  | nil => intro l h; cases h
  | cons c cs ih =>
    rw [fileLines]
    by_cases h : brk c = true
    · rw [if_pos h]
      intro l hl
      rcases List.mem_cons.1 hl with rfl | hl
      · exact .inr ⟨[], c, rfl, h, by simp⟩
      · exact ih l hl
    · rw [if_neg h]
      have hc : brk c = false := by simpa using h
      cases hf : fileLines brk cs with
      | nil =>
        intro l hl
        left
        rw [List.mem_singleton.1 hl]
        simpa using hc
      | cons x xs =>
        intro l hl
        rcases List.mem_cons.1 hl with rfl | hl
        · rcases ih x (by rw [hf]; exact List.mem_cons_self) with h1 | ⟨b, e, h1, h2, h3⟩
          · left
            intro c' hc'
            rcases List.mem_cons.1 hc' with rfl | hc'
            · exact hc
            · exact h1 c' hc'
          · right
            refine ⟨c :: b, e, by rw [h1]; rfl, h2, ?_⟩
            intro c' hc'
            rcases List.mem_cons.1 hc' with rfl | hc'
            · exact hc
            · exact h3 c' hc'
        · exact ih l (by rw [hf]; exact List.mem_cons_of_mem _ hl)

theorem mapM_id_some (ls : List Line) : (ls.map some).mapM id = some ls := by
  induction ls with
  | nil => rfl
  | cons l ls ih => rw [List.map_cons, List.mapM_cons, ih]; rfl

theorem mapM_id_none {file : List (Option Line)} (h : none ∈ file) : file.mapM id = none := by
  induction file with
  | nil => cases h
  | cons x xs ih =>
    rw [List.mapM_cons]
    rcases List.mem_cons.1 h with rfl | h
    · rfl
    · rw [ih h]; cases x <;> rfl

theorem marked_iff (l : Line) : marked l = true ↔ ':' ∈ l ∨ '[' ∈ l := by
  unfold marked
  rw [List.any_eq_true]
  constructor
  · rintro ⟨c, hc, h⟩
    simp only [decide_eq_true_eq] at h
    rcases h with rfl | rfl
    · exact .inl hc
    · exact .inr hc
  · rintro (h | h)
    · exact ⟨_, h, by simp⟩
    · exact ⟨_, h, by simp⟩

theorem scan_spec (loads : Line → Option (J A)) (n total valid : ℕ) (ls : List Line) :
    scan loads n total valid (ls.map some) =
      some (total + (if ls.length < n then ls.length + 1 else n), valid + ((ls.take n).filter fun l => decide (Counts loads l)).length) := by
  induction n generalizing total valid ls with
  | zero => simp [scan]
  | succ n ih =>
    cases ls with
    | nil => simp [scan]
    | cons l ls =>
      rw [List.map_cons, scan, ih, List.take_succ_cons]
      have hc : (marked l = true ∧ (loads l).isSome = true) ↔ Counts loads l := by
        unfold Counts
        rw [marked_iff]
      have hlen : total + 1 + (if ls.length < n then ls.length + 1 else n) =
          total + (if (l :: ls).length < n + 1 then (l :: ls).length + 1 else n + 1) := by
        rw [List.length_cons]
        by_cases h : ls.length < n
        · rw [if_pos h, if_pos (by omega)]; omega
        · rw [if_neg h, if_neg (by omega)]; omega
      rw [hlen]
      by_cases h : Counts loads l
      · rw [if_pos (hc.2 h), List.filter_cons_of_pos (by simpa using h)]
        congr 2
        rw [List.length_cons]
        omega
      · rw [if_neg (fun h' => h (hc.1 h')), List.filter_cons_of_neg (by simpa using h)]

theorem scan_none (loads : Line → Option (J A)) (n total valid : ℕ) (file : List (Option Line)) (h : none ∈ file.take n) :
    scan loads n total valid file = none := by
  induction n generalizing total valid file with
  | zero => simp at h
  | succ n ih =>
    cases file with
    | nil => simp at h
    | cons x xs =>
      cases x with
      | none => rfl
      | some l =>
        rw [List.take_succ_cons] at h
        rcases List.mem_cons.1 h with h | h
        · cases h
        · rw [scan]; exact ih _ _ _ h

theorem scan_take (loads : Line → Option (J A)) (n total valid : ℕ) (file : List (Option Line)) (h : n ≤ file.length) :
    scan loads n total valid file = scan loads n total valid (file.take n) := by
  induction n generalizing total valid file with
  | zero => simp [scan]
  | succ n ih =>
    cases file with
    | nil => simp at h
    | cons x xs =>
      rw [List.take_succ_cons]
      cases x with
      | none => rfl
      | some l =>
        rw [scan, scan]
        exact ih _ _ _ (by simpa using h)

theorem readLoop_spec (loads : Line → Option (J A)) (k : ℕ) (acc : List (J A)) (ls : List Line) :
    readLoop loads k acc (ls.map some) = .ok (k + (upToBlank ls).length, acc ++ documents loads (upToBlank ls)) := by
  induction ls generalizing k acc with
  | nil => simp [readLoop, upToBlank, documents]
  | cons l ls ih =>
    cases l with
    | nil => simp [readLoop, upToBlank, documents]
    | cons c cs =>
      have hu : upToBlank ((c :: cs) :: ls) = (c :: cs) :: upToBlank ls := by
        unfold upToBlank
        rw [List.takeWhile_cons_of_pos (by simp)]
      rw [List.map_cons, readLoop, hu]
      · unfold documents
        cases hl : loads (c :: cs) with
        | none =>
          dsimp only
          rw [ih, List.filterMap_cons_none hl, List.length_cons]
          congr 2
          omega
        | some j =>
          dsimp only
          rw [ih, List.filterMap_cons_some hl, List.length_cons, List.append_assoc]
          congr 2
          omega
      · simp

theorem readJson_spec (loads : Line → Option (J A)) (ls : List Line) :
    readJson loads (ls.map some) =
      if documents loads (upToBlank ls) = [] ∧ upToBlank ls ≠ [] then .error .valueError else .ok (documents loads (upToBlank ls)) := by
  unfold readJson
  rw [readLoop_spec]
  show (if (_ : List (J A)).isEmpty = true ∧ 0 < _ then _ else _) = _
  dsimp only
  rw [List.nil_append, Nat.zero_add]
  by_cases h : documents loads (upToBlank ls) = [] ∧ upToBlank ls ≠ []
  · rw [if_pos h, if_pos ⟨by rw [h.1]; rfl, List.length_pos_of_ne_nil h.2⟩]
  · rw [if_neg h, if_neg]
    rintro ⟨h1, h2⟩
    exact h ⟨by simpa using h1, List.ne_nil_of_length_pos h2⟩

theorem upToBlank_self {ls : List Line} (h : ∀ l ∈ ls, l ≠ []) : upToBlank ls = ls := by
  unfold upToBlank
  rw [List.takeWhile_eq_self_iff]
  intro l hl
  simpa using h l hl

theorem unicodeToStr_spec (bad : A → Bool) (badKey : Key → Bool) : (j : J A) →
    (Bare bad j → unicodeToStr bad badKey true j = .error .valueError) ∧
    (¬ Bare bad j → unicodeToStr bad badKey true j = .ok j)
  | .val a => by
    rw [unicodeToStr]
    constructor
    · intro h; cases h with | val h => rw [if_pos h]
    · intro h; rw [if_neg fun h' => h (.val h')]
  | .list xs => by
    rw [unicodeToStr]
    have key : ∀ ys : List (J A), (∀ y ∈ ys, y ∈ xs) →
        ((∃ y ∈ ys, Bare bad y) → unicodeList bad badKey ys = .error .valueError) ∧
        ((∀ y ∈ ys, ¬ Bare bad y) → unicodeList bad badKey ys = .ok ys) := by
      intro ys
      induction ys with
      | nil => intro _; exact ⟨fun ⟨_, h, _⟩ => (by cases h), fun _ => rfl⟩
      | cons y ys ih =>
        intro hys
        have hy : y ∈ xs := hys y List.mem_cons_self
        have hs : sizeOf y < 1 + sizeOf xs := by have := List.sizeOf_lt_of_mem hy; omega
        have h1 := unicodeToStr_spec bad badKey y
        have h2 := ih fun z hz => hys z (List.mem_cons_of_mem _ hz)
        rw [unicodeList]
        by_cases hb : Bare bad y
        · rw [h1.1 hb]
          exact ⟨fun _ => rfl, fun h => absurd hb (h y List.mem_cons_self)⟩
        · rw [h1.2 hb]
          constructor
          · rintro ⟨z, hz, hzb⟩
            rcases List.mem_cons.1 hz with rfl | hz
            · exact absurd hzb hb
            · dsimp only; rw [h2.1 ⟨z, hz, hzb⟩]; rfl
          · intro h
            dsimp only
            rw [h2.2 fun z hz => h z (List.mem_cons_of_mem _ hz)]
            rfl
    have hk := key xs fun _ h => h
    constructor
    · intro h
      cases h with
      | item hx hb => rw [hk.1 ⟨_, hx, hb⟩]; rfl
    · intro h
      rw [hk.2 fun y hy hb => h (.item hy hb)]
      rfl
  | .obj fields => by
    rw [unicodeToStr]
    exact ⟨fun h => (by cases h), fun _ => rfl⟩

theorem lineLoads_reads (bad : A → Bool) (loads : Line → Option (J A)) : Reads bad loads (lineLoads bad loads) := by
  intro l j
  unfold lineLoads
  cases hl : loads l with
  | none => simp
  | some i =>
    dsimp only
    by_cases hb : Bare bad i
    · rw [(unicodeToStr_spec bad _ i).1 hb]
      constructor
      · intro h; cases h
      · rintro ⟨h, h'⟩; cases h; exact absurd hb h'
    · rw [(unicodeToStr_spec bad _ i).2 hb]
      constructor
      · intro h; cases h; exact ⟨rfl, hb⟩
      · rintro ⟨h, h'⟩; cases h; rfl

theorem lineLoads_eq {bad : A → Bool} {loads read : Line → Option (J A)} (h : Reads bad loads read) :
    lineLoads bad loads = read := by
  funext l
  apply Option.ext
  intro j
  exact (lineLoads_reads bad loads l j).trans (h l j).symm

end Verif.JsonRead
