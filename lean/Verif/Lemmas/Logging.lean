import Verif.Spec.Logging
import Mathlib.Data.List.Basic
import Mathlib.Algebra.BigOperators.Group.List.Basic

/-! # Lemmas about the logger -/

namespace Verif.Logging

open Verif.Spec.Logging

theorem split_at {α : Type} {l : List α} {i : ℕ} {t : α} (h : l[i]? = some t) :
    ∃ pre post, l = pre ++ t :: post ∧ ∀ t', l.set i t' = pre ++ t' :: post := by
  obtain ⟨hi, ht⟩ := List.getElem?_eq_some_iff.mp h
  refine ⟨l.take i, l.drop (i + 1), ?_, ?_⟩
  · rw [← ht]; simp
  · intro t'
    rw [List.set_eq_take_append_cons_drop, if_pos hi]

/-- A step of the process: nothing, or a step of one thread. -/
theorem sched_cases (s : State) (i : ℕ) : sched s i = s ∨ ∃ pre t post sh t', s.threads = pre ++ t :: post ∧ s.threads[i]? = some t ∧
    step s.shared t = some (sh, t') ∧ sched s i = ⟨sh, pre ++ t' :: post⟩ := by
  unfold sched
  cases h : s.threads[i]? with
  | none => exact Or.inl rfl
  | some t =>
    cases h' : step s.shared t with
    | none => left; simp [h']
    | some x =>
      obtain ⟨sh, t'⟩ := x
      obtain ⟨pre, post, e, f⟩ := split_at h
      exact Or.inr ⟨pre, t, post, sh, t', e, rfl, h', by simp [h', f]⟩

/-- Induction along schedules. -/
theorem exec_inv (P : State → Prop) (hs : ∀ s i, P s → P (sched s i)) (s : State) (is : List ℕ) (h : P s) : P (exec s is) := by
  induction is generalizing s with
  | nil => exact h
  | cons i is ih => exact ih _ (hs _ _ h)

/-- Whether a thread may still add a handler. -/
def may (isSet : Bool) (t : Thread) : ℕ :=
  match t.pc with
  | .ready => if isSet then 0 else 1
  | .waiting _ | .locked _ | .leveled _ => 1
  | _ => 0

/-- Whether a thread holds the lock. -/
def inside (t : Thread) : ℕ :=
  match t.pc with
  | .locked _ | .leveled _ | .added _ | .assigned _ => 1
  | _ => 0

theorem inside_pos (t : Thread) : inside t = 1 ↔ Holds t := by
  obtain ⟨pc, _⟩ := t
  cases pc <;> simp [inside, Holds]

theorem inside_zero (t : Thread) : inside t = 0 ↔ ¬ Holds t := by
  obtain ⟨pc, _⟩ := t
  cases pc <;> simp [inside, Holds]

theorem le_sum_inside {l : List Thread} {t : Thread} (h : t ∈ l) : inside t ≤ (l.map inside).sum := by
  induction l with
  | nil => simp at h
  | cons u l ih =>
    rcases List.mem_cons.mp h with rfl | h
    · simp
    · have := ih h
      simp
      omega

/-- What holds at every moment. -/
structure Inv (n : ℕ) (s : State) : Prop where
  len : s.threads.length = n
  mutex : (s.threads.map inside).sum = if s.shared.lock then 1 else 0
  after : ∀ t ∈ s.threads, (∃ c, t.pc = .assigned c ∨ t.pc = .got c) → s.shared.isSet = true
  bound : s.shared.handlers + (s.threads.map (may s.shared.isSet)).sum ≤ n
  one : s.shared.isSet = true → 1 ≤ s.shared.handlers
  oneAdded : ∀ t ∈ s.threads, (∃ c, t.pc = .added c) → 1 ≤ s.shared.handlers

theorem inv_start (level : ℕ) (calls : List (List Call)) : Inv calls.length (start level calls) := by
  refine ⟨by simp [start], ?_, ?_, ?_, by simp [start], ?_⟩
  · simp [start, Function.comp_def, inside]
  · intro t ht
    simp only [start, List.mem_map] at ht
    obtain ⟨_, _, rfl⟩ := ht
    simp
  · simp [start, Function.comp_def, may]
  · intro t ht
    simp only [start, List.mem_map] at ht
    obtain ⟨_, _, rfl⟩ := ht
    simp

theorem may_le (t : Thread) (b : Bool) : may true t ≤ may b t := by
  obtain ⟨pc, _⟩ := t
  cases pc <;> cases b <;> simp [may]

theorem sum_may_le (l : List Thread) (b : Bool) : (l.map (may true)).sum ≤ (l.map (may b)).sum := by
  induction l with
  | nil => simp
  | cons t l ih => have := may_le t b; simp; omega

theorem inv_sched {n : ℕ} (s : State) (i : ℕ) (h : Inv n s) : Inv n (sched s i) := by
  rcases sched_cases s i with e | ⟨pre, t, post, sh, t', e, -, hst, er⟩
  · rwa [e]
  rw [er]
  obtain ⟨⟨isSet, lock, level, handlers⟩, threads⟩ := s
  obtain ⟨h1, h2, h3, h4, h5, h6⟩ := h
  simp only at e hst h1 h2 h3 h4 h5 h6
  subst e
  obtain ⟨pc, todo⟩ := t
  have ht3 := h3 ⟨pc, todo⟩ (by simp)
  have ht6 := h6 ⟨pc, todo⟩ (by simp)
  have o3 : ∀ x, x ∈ pre ∨ x ∈ post → (∃ c, x.pc = .assigned c ∨ x.pc = .got c) → isSet = true := fun x hx =>
    h3 x (by rcases hx with hx | hx <;> simp [hx])
  have o6 : ∀ x, x ∈ pre ∨ x ∈ post → (∃ c, x.pc = .added c) → 1 ≤ handlers := fun x hx =>
    h6 x (by rcases hx with hx | hx <;> simp [hx])
  have s1 := sum_may_le pre isSet
  have s2 := sum_may_le post isSet
  simp only [List.map_append, List.map_cons, List.sum_append, List.sum_cons, List.length_append, List.length_cons] at h1 h2 h4
  cases pc with
  | ready =>
    cases todo with
    | nil => simp [step] at hst
    | cons c cs =>
      cases isSet
      all_goals
        simp only [step, Option.some.injEq, Prod.mk.injEq, if_true, Bool.false_eq_true, if_false] at hst
        obtain ⟨rfl, rfl⟩ := hst
        refine ⟨by simpa using h1, ?_, ?_, ?_, h5, ?_⟩
        · simpa [inside] using h2
        · intro x hx hc
          simp only [List.mem_append, List.mem_cons] at hx
          rcases hx with hx | rfl | hx
          · exact o3 x (Or.inl hx) hc
          · first | rfl | simp at hc
          · exact o3 x (Or.inr hx) hc
        · simp [may] at h4 ⊢
          omega
        · intro x hx hc
          simp only [List.mem_append, List.mem_cons] at hx
          rcases hx with hx | rfl | hx
          · exact o6 x (Or.inl hx) hc
          · simp at hc
          · exact o6 x (Or.inr hx) hc
  | waiting c =>
    cases lock with
    | true => simp [step] at hst
    | false =>
      simp only [step, Option.some.injEq, Prod.mk.injEq, Bool.false_eq_true, if_false] at hst
      obtain ⟨rfl, rfl⟩ := hst
      refine ⟨by simpa using h1, ?_, ?_, ?_, h5, ?_⟩
      · simp [inside] at h2 ⊢; omega
      · intro x hx hc
        simp only [List.mem_append, List.mem_cons] at hx
        rcases hx with hx | rfl | hx
        · exact o3 x (Or.inl hx) hc
        · simp at hc
        · exact o3 x (Or.inr hx) hc
      · simp [may] at h4 ⊢
        omega
      · intro x hx hc
        simp only [List.mem_append, List.mem_cons] at hx
        rcases hx with hx | rfl | hx
        · exact o6 x (Or.inl hx) hc
        · simp at hc
        · exact o6 x (Or.inr hx) hc
  | locked c =>
    simp only [step, Option.some.injEq, Prod.mk.injEq] at hst
    obtain ⟨rfl, rfl⟩ := hst
    refine ⟨by simpa using h1, ?_, ?_, ?_, h5, ?_⟩
    · simpa [inside] using h2
    · intro x hx hc
      simp only [List.mem_append, List.mem_cons] at hx
      rcases hx with hx | rfl | hx
      · exact o3 x (Or.inl hx) hc
      · simp at hc
      · exact o3 x (Or.inr hx) hc
    · simpa [may] using h4
    · intro x hx hc
      simp only [List.mem_append, List.mem_cons] at hx
      rcases hx with hx | rfl | hx
      · exact o6 x (Or.inl hx) hc
      · simp at hc
      · exact o6 x (Or.inr hx) hc
  | leveled c =>
    simp only [step, Option.some.injEq, Prod.mk.injEq] at hst
    obtain ⟨rfl, rfl⟩ := hst
    refine ⟨by simpa using h1, ?_, ?_, ?_, fun _ => by simp, fun _ _ _ => by simp⟩
    · simpa [inside] using h2
    · intro x hx hc
      simp only [List.mem_append, List.mem_cons] at hx
      rcases hx with hx | rfl | hx
      · exact o3 x (Or.inl hx) hc
      · simp at hc
      · exact o3 x (Or.inr hx) hc
    · simp [may] at h4 ⊢
      omega
  | added c =>
    simp only [step, Option.some.injEq, Prod.mk.injEq] at hst
    obtain ⟨rfl, rfl⟩ := hst
    have hh := ht6 ⟨c, rfl⟩
    refine ⟨by simpa using h1, ?_, fun _ _ _ => rfl, ?_, fun _ => hh, fun _ _ _ => hh⟩
    · simpa [inside] using h2
    · simp only [List.map_append, List.map_cons, List.sum_append, List.sum_cons]
      simp [may] at h4 ⊢
      omega
  | assigned c =>
    simp only [step, Option.some.injEq, Prod.mk.injEq] at hst
    obtain ⟨rfl, rfl⟩ := hst
    have hh := ht3 ⟨c, Or.inl rfl⟩
    subst hh
    refine ⟨by simpa using h1, ?_, fun _ _ _ => rfl, ?_, h5, fun _ _ _ => h5 rfl⟩
    · simp [inside] at h2 ⊢
      split at h2 <;> omega
    · simpa [may] using h4
  | got c =>
    have hh := ht3 ⟨c, Or.inr rfl⟩
    subst hh
    cases c
    all_goals
      simp only [step, Option.some.injEq, Prod.mk.injEq] at hst
      obtain ⟨rfl, rfl⟩ := hst
      refine ⟨by simpa using h1, ?_, fun _ _ _ => rfl, ?_, h5, fun _ _ _ => h5 rfl⟩
      · simpa [inside] using h2
      · simpa [may] using h4

theorem inv_exec (level : ℕ) (calls : List (List Call)) (is : List ℕ) : Inv calls.length (exec (start level calls) is) :=
  exec_inv _ (fun s i h => inv_sched s i h) _ _ (inv_start level calls)

/-- The steps that a thread has left, at most. -/
def left (t : Thread) : ℕ :=
  7 * t.todo.length + match t.pc with
    | .ready => 0
    | .waiting _ => 6
    | .locked _ => 5
    | .leveled _ => 4
    | .added _ => 3
    | .assigned _ => 2
    | .got _ => 1

theorem left_step {s sh : Shared} {t t' : Thread} (h : step s t = some (sh, t')) : left t' < left t := by
  obtain ⟨pc, todo⟩ := t
  cases pc with
  | ready =>
    cases todo with
    | nil => simp [step] at h
    | cons c cs =>
      simp only [step, Option.some.injEq, Prod.mk.injEq] at h
      obtain ⟨-, rfl⟩ := h
      split <;> simp [left] <;> omega
  | waiting c =>
    simp only [step] at h
    split at h
    · cases h
    · simp only [Option.some.injEq, Prod.mk.injEq] at h
      obtain ⟨-, rfl⟩ := h
      simp [left]
  | got c =>
    cases c <;> simp only [step, Option.some.injEq, Prod.mk.injEq] at h <;> obtain ⟨-, rfl⟩ := h <;> simp [left]
  | _ =>
    simp only [step, Option.some.injEq, Prod.mk.injEq] at h
    obtain ⟨-, rfl⟩ := h
    simp [left]

theorem left_sched (s : State) (i : ℕ) : sched s i = s ∨ ((sched s i).threads.map left).sum < (s.threads.map left).sum := by
  rcases sched_cases s i with e | ⟨pre, t, post, sh, t', e, -, hst, er⟩
  · exact Or.inl e
  · right
    have := left_step hst
    rw [er, e]
    simp
    omega

theorem moves_le (is : List ℕ) : ∀ s : State, moves s is + ((exec s is).threads.map left).sum ≤ (s.threads.map left).sum := by
  induction is with
  | nil => intro s; simp [moves, exec]
  | cons i is ih =>
    intro s
    have := ih (sched s i)
    have e : exec s (i :: is) = exec (sched s i) is := rfl
    rw [e]
    simp only [moves]
    rcases left_sched s i with h | h
    · rw [if_pos h]
      rw [h] at this ⊢
      omega
    · have hne : sched s i ≠ s := by
        intro h'
        rw [h'] at h
        omega
      rw [if_neg hne]
      omega

theorem can_step {n : ℕ} {s : State} (h : Inv n s) (hn : ∃ t ∈ s.threads, ¬ Finished t) : ∃ i < n, sched s i ≠ s := by
  have ready : ∀ t ∈ s.threads, step s.shared t ≠ none → ∃ i < n, sched s i ≠ s := by
    intro t ht hst
    obtain ⟨i, hi, rfl⟩ := List.mem_iff_getElem.mp ht
    refine ⟨i, by rw [← h.len]; exact hi, ?_⟩
    rcases sched_cases s i with e | ⟨pre, t, post, sh, t', e, _, hs, er⟩
    · exfalso
      unfold sched at e
      rw [List.getElem?_eq_getElem hi] at e
      simp only at e
      cases hx : step s.shared s.threads[i] with
      | none => exact hst hx
      | some x =>
        obtain ⟨sh, t'⟩ := x
        rw [hx] at e
        have hl := left_step hx
        have ht' : t' = s.threads[i] := by
          have e' := congrArg (fun q => q.threads[i]?) e
          simpa [List.getElem?_set_self hi, hi] using e'
        rw [ht'] at hl
        omega
    · intro hc
      have hl := left_step hs
      have hl' := congrArg (fun q => (q.threads.map left).sum) (er.symm.trans hc)
      rw [e] at hl'
      simp at hl'
      omega
  obtain ⟨t, ht, hf⟩ := hn
  by_cases hst : step s.shared t = none
  · obtain ⟨pc, todo⟩ := t
    cases pc with
    | ready =>
      cases todo with
      | nil => exact absurd ⟨rfl, rfl⟩ hf
      | cons c cs => simp [step] at hst
    | waiting c =>
      have hl : s.shared.lock = true := by
        by_contra hc
        simp [step, hc] at hst
      have hm := h.mutex
      rw [hl] at hm
      simp only [if_true] at hm
      have : ∃ u ∈ s.threads, Holds u := by
        by_contra hno
        push Not at hno
        have : (s.threads.map inside).sum = 0 := by
          apply List.sum_eq_zero
          intro x hx
          obtain ⟨u, hu, rfl⟩ := List.mem_map.mp hx
          exact (inside_zero u).mpr (hno u hu)
        omega
      obtain ⟨u, hu, c', hc⟩ := this
      refine ready u hu ?_
      obtain ⟨pc, _⟩ := u
      simp only at hc
      rcases hc with rfl | rfl | rfl | rfl <;> simp [step]
    | got c => cases c <;> simp [step] at hst
    | _ => simp [step] at hst
  · exact ready t ht hst

end Verif.Logging
