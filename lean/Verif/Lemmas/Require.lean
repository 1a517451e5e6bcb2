import Verif.Spec.Require
import Mathlib.Data.List.Basic

/-! # Lemmas about functions that need optional modules -/

namespace Verif.Require

open Verif.Spec.Require

theorem execute_installed (ms : List String) : ∀ s : State, (execute ms s).installed = s.installed := by
  induction ms with
  | nil => intro s; rfl
  | cons m ms ih =>
    intro s
    unfold execute
    split
    · rw [ih]
    · rfl

theorem execute_grows (ms : List String) : ∀ s : State, (∀ x ∈ s.sys, x ∈ (execute ms s).sys) ∧ ∀ x ∈ s.bound, x ∈ (execute ms s).bound := by
  induction ms with
  | nil => intro s; exact ⟨fun _ h => h, fun _ h => h⟩
  | cons m ms ih =>
    intro s
    unfold execute
    split
    · obtain ⟨h1, h2⟩ := ih { s with sys := m :: s.sys, bound := m :: s.bound }
      exact ⟨fun x hx => h1 x (by simp [hx]), fun x hx => h2 x (by simp [hx])⟩
    · exact ⟨fun _ h => h, fun _ h => h⟩

/-- Executing the imports changes nothing about what can be imported. -/
theorem available_execute (ms : List String) : ∀ (s : State) (x : String), Available (execute ms s) x ↔ Available s x := by
  induction ms with
  | nil => intro s x; rfl
  | cons m ms ih =>
    intro s x
    unfold execute
    split
    · rename_i h
      rw [ih]
      unfold Available
      simp only [List.mem_cons]
      constructor
      · rintro ((rfl | hx) | hx)
        · exact h
        · exact Or.inl hx
        · exact Or.inr hx
      · rintro (hx | hx)
        · exact Or.inl (Or.inr hx)
        · exact Or.inr hx
    · rfl

/-- The imports up to the first that fails are done. -/
theorem execute_pre (pre : List String) : ∀ (post : List String) (s : State), (∀ m ∈ pre, Available s m) →
    ∀ m ∈ pre, m ∈ (execute (pre ++ post) s).sys ∧ m ∈ (execute (pre ++ post) s).bound := by
  induction pre with
  | nil => simp
  | cons p pre ih =>
    intro post s h m hm
    rw [List.cons_append]
    unfold execute
    have hp : p ∈ s.sys ∨ p ∈ s.installed := h p (by simp)
    rw [if_pos hp]
    obtain ⟨g1, g2⟩ := execute_grows (pre ++ post) { s with sys := p :: s.sys, bound := p :: s.bound }
    rcases List.mem_cons.mp hm with rfl | hm
    · exact ⟨g1 _ (by simp), g2 _ (by simp)⟩
    · refine ih post _ ?_ m hm
      intro x hx
      rcases h x (by simp [hx]) with h | h
      · exact Or.inl (by simp [h])
      · exact Or.inr h

theorem execute_all {ms : List String} {s : State} (h : ∀ m ∈ ms, Available s m) (m : String) (hm : m ∈ ms) :
    m ∈ (execute ms s).sys ∧ m ∈ (execute ms s).bound := by
  have := execute_pre ms [] s h m hm
  simpa using this

/-- What is bound afterwards was bound before or can be imported. -/
theorem execute_sys (ms : List String) : ∀ (s : State) (x : String), (x ∈ (execute ms s).sys → x ∈ s.sys ∨ (x ∈ ms ∧ x ∈ (execute ms s).bound)) ∧
    (x ∈ (execute ms s).bound → x ∈ s.bound ∨ x ∈ (execute ms s).sys) := by
  induction ms with
  | nil => intro s x; exact ⟨Or.inl, Or.inl⟩
  | cons m ms ih =>
    intro s x
    unfold execute
    split
    · obtain ⟨h1, h2⟩ := ih { s with sys := m :: s.sys, bound := m :: s.bound } x
      obtain ⟨g1, g2⟩ := execute_grows ms { s with sys := m :: s.sys, bound := m :: s.bound }
      refine ⟨fun h => ?_, fun h => ?_⟩
      · rcases h1 h with h | h
        · rcases List.mem_cons.mp h with rfl | h
          · exact Or.inr ⟨by simp, g2 _ (by simp)⟩
          · exact Or.inl h
        · exact Or.inr ⟨by simp [h.1], h.2⟩
      · rcases h2 h with h | h
        · rcases List.mem_cons.mp h with rfl | h
          · exact Or.inr (g1 _ (by simp))
          · exact Or.inl h
        · exact Or.inr h
    · exact ⟨Or.inl, Or.inl⟩

/-- The loop when everything can be imported: no module is missing, and either nothing is done or everything is bound. -/
theorem check_all (guarded : List String) (ns : List String) : ∀ s : State, (∀ m ∈ guarded, Available s m) → (∀ n ∈ ns, n ∈ guarded) →
    (check guarded ns s).2 = none ∧ ((∀ n ∈ ns, n ∈ s.sys) → (check guarded ns s).1 = s) ∧
    ((∃ n ∈ ns, n ∉ s.sys) → ∀ m ∈ guarded, m ∈ (check guarded ns s).1.sys ∧ m ∈ (check guarded ns s).1.bound) := by
  induction ns with
  | nil => intro s _ _; simp [check]
  | cons n ns ih =>
    intro s ha hn
    have hsub := fun x (hx : x ∈ ns) => hn x (by simp [hx])
    unfold check
    by_cases h : n ∈ s.sys
    · rw [if_pos h]
      obtain ⟨h1, h2, h3⟩ := ih s ha hsub
      refine ⟨h1, fun hx => h2 fun x hxm => hx x (by simp [hxm]), ?_⟩
      rintro ⟨x, hx, hxs⟩
      rcases List.mem_cons.mp hx with rfl | hx
      · exact absurd h hxs
      · exact h3 ⟨x, hx, hxs⟩
    · rw [if_neg h]
      have e := execute_all ha
      simp only
      rw [if_pos (e n (hn n (by simp))).1]
      have ha' : ∀ m ∈ guarded, Available (execute guarded s) m := fun m hm => (available_execute guarded s m).mpr (ha m hm)
      obtain ⟨h1, h2, _⟩ := ih (execute guarded s) ha' hsub
      have hs := h2 (fun x hx => (e x (hsub x hx)).1)
      refine ⟨h1, fun hx => absurd (hx n (by simp)) h, fun _ m hm => ?_⟩
      rw [hs]
      exact e m hm

/-- The loop when a module is missing. -/
theorem check_missing (guarded : List String) (n : String) (hall : List String) (post : List String) (hg : guarded = hall ++ n :: post)
    (pre : List String) : ∀ s : State, (∀ m ∈ hall, Available s m) → (∀ m ∈ pre, m ∈ hall) → ¬ Available s n →
    (check guarded (pre ++ n :: post) s).2 = some n := by
  induction pre with
  | nil =>
    intro s ha _ hn
    have hn' : n ∉ s.sys := fun h => hn (Or.inl h)
    have : n ∉ (execute guarded s).sys := fun h => hn ((available_execute guarded s n).mp (Or.inl h))
    simp [check, hn', this]
  | cons p pre ih =>
    intro s ha hp hn
    rw [List.cons_append]
    unfold check
    by_cases h : p ∈ s.sys
    · rw [if_pos h]
      exact ih s ha (fun m hm => hp m (by simp [hm])) hn
    · rw [if_neg h]
      have e := execute_pre hall (n :: post) s ha p (hp p (by simp))
      rw [← hg] at e
      simp only
      rw [if_pos e.1]
      exact ih _ (fun m hm => (available_execute guarded s m).mpr (ha m hm)) (fun m hm => hp m (by simp [hm]))
        (fun hx => hn ((available_execute guarded s n).mp hx))

/-- The loop only executes the imports, perhaps several times. -/
theorem check_inv (P : State → Prop) (guarded : List String) (hP : ∀ s, P s → P (execute guarded s)) (ns : List String) :
    ∀ s, P s → P (check guarded ns s).1 := by
  induction ns with
  | nil => intro s h; exact h
  | cons n ns ih =>
    intro s h
    unfold check
    split
    · exact ih s h
    · simp only
      split
      · exact ih _ (hP s h)
      · exact hP s h

theorem call_inv (P : State → Prop) (guarded : List String) (hP : ∀ s, P s → P (execute guarded s)) (s : State) (h : P s) :
    P (call guarded s).1 := by
  have := check_inv P guarded hP guarded s h
  unfold call
  generalize check guarded guarded s = x at this ⊢
  obtain ⟨s', _ | n⟩ := x <;> exact this

theorem first_or_all (s : State) (ms : List String) : (∀ m ∈ ms, Available s m) ∨ ∃ n, FirstMissing s ms n := by
  induction ms with
  | nil => left; simp
  | cons m ms ih =>
    by_cases h : Available s m
    · rcases ih with ih | ⟨n, pre, post, e, h1, h2⟩
      · left
        intro x hx
        rcases List.mem_cons.mp hx with rfl | hx
        · exact h
        · exact ih x hx
      · right
        refine ⟨n, m :: pre, post, by rw [e]; rfl, ?_, h2⟩
        intro x hx
        rcases List.mem_cons.mp hx with rfl | hx
        · exact h
        · exact h1 x hx
    · exact Or.inr ⟨m, [], ms, rfl, by simp, h⟩

end Verif.Require
