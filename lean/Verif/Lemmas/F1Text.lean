import Verif.Spec.F1Text
import Mathlib.Data.List.Basic
import Mathlib.Data.List.Forall2

/-! # Lemmas about the printed table of scores -/

namespace Verif.F1Text

open Verif Verif.Spec.F1Text

variable {α : Type}

theorem length_pad {w : ℕ} {s : Text} (h : s.length ≤ w) : (pad w s).length = w := by
  simp [pad]; omega

theorem toList_eq (key : Text) (s : String) : key = s.toList ↔ String.ofList key = s := by
  constructor
  · rintro rfl; simp
  · intro h; rw [← h]; simp

theorem atEnd_iff (key : Text) : atEnd key = true ↔ Average key := by
  simp only [atEnd, Average, Bool.or_eq_true, beq_iff_eq, toList_eq, or_assoc]

theorem cell_pad {w : ℕ} {s : Text} (h : s.length ≤ w) (pre post : Text) : Cell (pre ++ pad w s ++ post) pre.length w s := by
  refine ⟨w - s.length, ?_, by omega⟩
  rw [List.append_assoc, List.drop_left, List.take_left' (length_pad h)]
  rfl

theorem line_shows {width : ℕ} {key : Text} {c : Text × Text × Text × Text} (hk : key.length ≤ width) (h1 : c.1.length ≤ 9)
    (h2 : c.2.1.length ≤ 9) (h3 : c.2.2.1.length ≤ 9) (h4 : c.2.2.2.length ≤ 9) :
    Shows width (line width key c.1 c.2.1 c.2.2.1 c.2.2.2) key c := by
  obtain ⟨a, b, c, d⟩ := c
  simp only at h1 h2 h3 h4 ⊢
  have l0 := length_pad hk
  have l1 := length_pad h1
  have l2 := length_pad h2
  have l3 := length_pad h3
  have l4 := length_pad h4
  refine ⟨by simp [line, l0, l1, l2, l3, l4], ?_, ?_, ?_, ?_, ?_⟩
  · have := cell_pad hk [] (' ' :: (' ' :: pad 9 a ++ ' ' :: pad 9 b ++ ' ' :: pad 9 c ++ ' ' :: pad 9 d))
    simpa [line] using this
  · have := cell_pad h1 (pad width key ++ [' ', ' ']) (' ' :: pad 9 b ++ ' ' :: pad 9 c ++ ' ' :: pad 9 d)
    simpa [line, l0] using this
  · have := cell_pad h2 (pad width key ++ [' ', ' '] ++ pad 9 a ++ [' ']) (' ' :: pad 9 c ++ ' ' :: pad 9 d)
    simpa [line, l0, l1, Nat.add_assoc] using this
  · have := cell_pad h3 (pad width key ++ [' ', ' '] ++ pad 9 a ++ [' '] ++ pad 9 b ++ [' ']) (' ' :: pad 9 d)
    simpa [line, l0, l1, l2, Nat.add_assoc] using this
  · have := cell_pad h4 (pad width key ++ [' ', ' '] ++ pad 9 a ++ [' '] ++ pad 9 b ++ [' '] ++ pad 9 c ++ [' ']) []
    simpa [line, l0, l1, l2, l3, Nat.add_assoc] using this

theorem entryLine_ok {fmt : α → Text} {width : ℕ} {key : Text} {e : Entry α} (hr : Regular key e) (hk : key.length ≤ width)
    (hf : Fits fmt e) : ∃ l, entryLine fmt width key e = .ok l ∧ Shows width l key (cells fmt e) := by
  obtain ⟨f1, f2, f3, f4⟩ := hf
  rcases hr with ⟨h, x, rfl⟩ | ⟨h, p, r, f, s, rfl⟩
  · refine ⟨_, by simp only [entryLine]; rw [if_pos ((toList_eq _ _).mpr h)]; rfl, line_shows hk f1 f2 f3 f4⟩
  · refine ⟨_, by simp only [entryLine]; rw [if_neg (fun hx => h ((toList_eq _ _).mp hx))]; rfl, line_shows hk f1 f2 f3 f4⟩

theorem entryLine_err {fmt : α → Text} {width : ℕ} {key : Text} {e : Entry α} (hr : ¬ Regular key e) :
    entryLine fmt width key e = .error .typeError := by
  cases e with
  | row p r f s =>
    simp only [entryLine]
    rw [if_pos]
    by_contra h
    exact hr (Or.inr ⟨fun hx => h ((toList_eq _ _).mpr hx), p, r, f, s, rfl⟩)
  | num x =>
    simp only [entryLine]
    rw [if_neg]
    intro h
    exact hr (Or.inl ⟨(toList_eq _ _).mp h, x, rfl⟩)

theorem loop_ok {fmt : α → Text} {width : ℕ} (report : List (Text × Entry α)) :
    (∀ x ∈ report, Regular x.1 x.2 ∧ x.1.length ≤ width ∧ Fits fmt x.2) → ∀ body tail : Text,
    ∃ bs ts, loop fmt width body tail report = .ok (body ++ (bs.map (· ++ ['\n'])).flatten, tail ++ (ts.map (· ++ ['\n'])).flatten) ∧
      List.Forall₂ (fun l x => Shows width l x.1 (cells fmt x.2)) bs (report.filter fun x => ¬ Average x.1) ∧
      List.Forall₂ (fun l x => Shows width l x.1 (cells fmt x.2)) ts (report.filter fun x => Average x.1) := by
  induction report with
  | nil => intro _ body tail; exact ⟨[], [], by simp [loop], by simp, by simp⟩
  | cons x report ih =>
    intro h body tail
    obtain ⟨key, e⟩ := x
    obtain ⟨hr, hk, hf⟩ := h (key, e) (by simp)
    obtain ⟨l, hl, hs⟩ := entryLine_ok hr hk hf
    have ih := ih (fun x hx => h x (by simp [hx]))
    unfold loop
    simp only [hl, bind, Except.bind]
    by_cases ha : atEnd key = true
    · rw [if_pos ha]
      have hav := (atEnd_iff key).mp ha
      obtain ⟨bs, ts, e1, e2, e3⟩ := ih body (tail ++ (l ++ ['\n']))
      refine ⟨bs, l :: ts, by rw [e1]; simp, ?_, ?_⟩
      · rw [List.filter_cons_of_neg (by simpa using hav)]; exact e2
      · rw [List.filter_cons_of_pos (by simpa using hav)]; exact .cons hs e3
    · rw [if_neg ha]
      have hav : ¬ Average key := fun hx => ha ((atEnd_iff key).mpr hx)
      obtain ⟨bs, ts, e1, e2, e3⟩ := ih (body ++ (l ++ ['\n'])) tail
      refine ⟨l :: bs, ts, by rw [e1]; simp, ?_, ?_⟩
      · rw [List.filter_cons_of_pos (by simpa using hav)]; exact .cons hs e2
      · rw [List.filter_cons_of_neg (by simpa using hav)]; exact e3

theorem loop_err {fmt : α → Text} {width : ℕ} (report : List (Text × Entry α)) : (∃ x ∈ report, ¬ Regular x.1 x.2) →
    ∀ body tail : Text, loop fmt width body tail report = .error .typeError := by
  induction report with
  | nil => rintro ⟨x, hx, -⟩; simp at hx
  | cons x report ih =>
    rintro ⟨y, hy, hr⟩ body tail
    obtain ⟨key, e⟩ := x
    unfold loop
    cases hl : entryLine fmt width key e with
    | error er =>
      have : er = .typeError := by
        cases e <;> simp only [entryLine] at hl <;> split at hl <;> cases hl <;> rfl
      subst this
      rfl
    | ok l =>
      simp only [bind, Except.bind]
      rcases List.mem_cons.mp hy with rfl | hy
      · rw [entryLine_err hr] at hl
        cases hl
      · split <;> exact ih ⟨y, hy, hr⟩ _ _

theorem longest_ok {labels : List Text} (h : labels ≠ []) :
    ∃ n, longest labels = .ok n ∧ (∀ l ∈ labels, l.length ≤ n) ∧ ∃ l ∈ labels, l.length = n := by
  induction labels with
  | nil => exact absurd rfl h
  | cons x xs ih =>
    cases xs with
    | nil => exact ⟨x.length, rfl, by simp, by simp⟩
    | cons y ys =>
      obtain ⟨n, h1, h2, l, hl, h3⟩ := ih (by simp)
      refine ⟨max x.length n, by simp [longest, h1, bind, Except.bind], ?_, ?_⟩
      · intro z hz
        rcases List.mem_cons.mp hz with rfl | hz
        · omega
        · have := h2 z hz; omega
      · by_cases hx : n ≤ x.length
        · exact ⟨x, by simp, by omega⟩
        · exact ⟨l, List.mem_cons_of_mem _ hl, by omega⟩

end Verif.F1Text
