import Verif.Lemmas.Logging

/-!
# C112: messages are printed once and according to the level that was set

For any number of threads, any calls and all interleavings of their steps.
-/

namespace Verif.Props.Logging

open Verif.Logging Verif.Spec.Logging

/-- Once the logger exists and no thread is in a call, whatever threads do afterwards: no further handler is added and the level is the
one set last. Missing: calls that begin before the first call has ended. -/
theorem C112_once_partial (s : State) (hset : s.shared.isSet = true) (ho : ∀ t ∈ s.threads, Outside t) (is : List ℕ) :
    (exec s is).shared.handlers = s.shared.handlers ∧ (exec s is).shared.level = (told s is).getLast?.getD s.shared.level ∧
    (exec s is).shared.lock = s.shared.lock := by
  have main : ∀ (is : List ℕ) (s : State), s.shared.isSet = true → (∀ t ∈ s.threads, t.pc = .ready ∨ ∃ c, t.pc = .got c) →
      (exec s is).shared.handlers = s.shared.handlers ∧ (exec s is).shared.level = (told s is).getLast?.getD s.shared.level ∧
      (exec s is).shared.lock = s.shared.lock := by
    intro is
    induction is with
    | nil => intro s _ _; simp [exec, told]
    | cons i is ih =>
      intro s hset ho
      have e : exec s (i :: is) = exec (sched s i) is := rfl
      rw [e]
      rcases sched_cases s i with h | ⟨pre, t, post, sh, t', ht, hi, hst, er⟩
      · have hn : setting s.threads[i]? = [] := by
          unfold setting
          split
          · rename_i l td hi
            exfalso
            unfold sched at h
            rw [hi] at h
            simp only [step] at h
            have h' := congrArg (fun q => q.threads[i]?) h
            obtain ⟨hlt, _⟩ := List.getElem?_eq_some_iff.mp hi
            rw [hi] at h'
            simp [List.getElem?_set_self hlt] at h'
          · rfl
        simp only [told, hn, List.nil_append]
        rw [h]
        exact ih s hset ho
      · rw [er]
        have hm : t ∈ s.threads := by rw [ht]; simp
        have others : ∀ x, x ∈ pre ∨ x ∈ post → x.pc = .ready ∨ ∃ c, x.pc = .got c := by
          intro x hx
          refine ho x ?_
          rw [ht]
          rcases hx with hx | hx <;> simp [hx]
        obtain ⟨pc, todo⟩ := t
        have key : sh.isSet = true ∧ (t'.pc = .ready ∨ ∃ c, t'.pc = .got c) ∧ sh.handlers = s.shared.handlers ∧ sh.lock = s.shared.lock ∧
            sh.level = (setting s.threads[i]?).getLast?.getD s.shared.level := by
          rw [hi]
          rcases ho _ hm with h | ⟨c, h⟩
          · simp only at h
            subst h
            cases todo with
            | nil => simp [step] at hst
            | cons c cs =>
              simp only [step, hset, if_true, Option.some.injEq, Prod.mk.injEq] at hst
              obtain ⟨rfl, rfl⟩ := hst
              simp [hset, setting]
          · simp only at h
            subst h
            cases c with
            | get =>
              simp only [step, Option.some.injEq, Prod.mk.injEq] at hst
              obtain ⟨rfl, rfl⟩ := hst
              simp [hset, setting]
            | verbosity l =>
              simp only [step, Option.some.injEq, Prod.mk.injEq] at hst
              obtain ⟨rfl, rfl⟩ := hst
              simp [hset, setting]
        obtain ⟨k1, k2, k3, k4, k5⟩ := key
        obtain ⟨r1, r2, r3⟩ := ih ⟨sh, pre ++ t' :: post⟩ k1 (by
          intro x hx
          simp only [List.mem_append, List.mem_cons] at hx
          rcases hx with hx | rfl | hx
          · exact others x (Or.inl hx)
          · exact k2
          · exact others x (Or.inr hx))
        refine ⟨r1.trans k3, ?_, r3.trans k4⟩
        rw [r2]
        simp only [told]
        rw [er]
        simp only [List.getLast?_append]
        generalize (told ⟨sh, pre ++ t' :: post⟩ is).getLast? = x
        cases x with
        | none => simpa using k5
        | some l => simp
  exact main is s hset (fun t ht => Or.inl (ho t ht))

/-- The first call, made alone (as the import of the package does): the logger has one handler more and the level INFO or the one asked
for, whatever was set before. -/
theorem C112_first (level handlers : ℕ) (c : Call) :
    alone ⟨false, false, level, handlers⟩ c = ⟨true, false, (lastLevel [c]).getD 20, handlers + 1⟩ := by
  cases c <;> rfl

/-- Calls one after the other: one handler, and the level asked for last. -/
theorem C112_sequential (level : ℕ) (c : Call) (cs : List Call) :
    (c :: cs).foldl alone ⟨false, false, level, 0⟩ = ⟨true, false, (lastLevel (c :: cs)).getD 20, 1⟩ := by
  have later : ∀ (cs : List Call) (l h : ℕ), cs.foldl alone ⟨true, false, l, h⟩ = ⟨true, false, (lastLevel cs).getD l, h⟩ := by
    intro cs
    induction cs with
    | nil => intro l h; rfl
    | cons d ds ih =>
      intro l h
      cases d with
      | get =>
        have : alone ⟨true, false, l, h⟩ .get = ⟨true, false, l, h⟩ := rfl
        rw [List.foldl_cons, this, ih]
        simp [lastLevel]
      | verbosity m =>
        have : alone ⟨true, false, l, h⟩ (.verbosity m) = ⟨true, false, m, h⟩ := rfl
        rw [List.foldl_cons, this, ih]
        simp only [lastLevel, List.filterMap_cons, List.getLast?_cons]
        simp
  rw [List.foldl_cons, C112_first, later]
  cases c with
  | get => simp [lastLevel]
  | verbosity m =>
    simp only [lastLevel, List.filterMap_cons, List.getLast?_cons]
    simp

/-- At every moment there are at most as many handlers as threads, and at least one as soon as a call has the logger. -/
theorem C112_handlers (level : ℕ) (calls : List (List Call)) (is : List ℕ) :
    let s := exec (start level calls) is
    s.shared.handlers ≤ calls.length ∧ (s.shared.isSet = true → 1 ≤ s.shared.handlers) ∧
    ∀ t ∈ s.threads, (∃ c, t.pc = .got c) → s.shared.isSet = true := by
  intro s
  have h : Inv calls.length s := inv_exec level calls is
  exact ⟨by have := h.bound; omega, h.one, fun t ht ⟨c, hc⟩ => h.after t ht ⟨c, Or.inr hc⟩⟩

/-- No two threads are inside the lock. -/
theorem C112_mutex (level : ℕ) (calls : List (List Call)) (is : List ℕ) (i j : ℕ) (hij : i < j) (t u : Thread)
    (ht : (exec (start level calls) is).threads[i]? = some t) (hu : (exec (start level calls) is).threads[j]? = some u) :
    ¬ (Holds t ∧ Holds u) := by
  rintro ⟨h1, h2⟩
  have h := (inv_exec level calls is).mutex
  obtain ⟨hi, rfl⟩ := List.getElem?_eq_some_iff.mp ht
  generalize exec (start level calls) is = s at *
  have e : s.threads = s.threads.take (i + 1) ++ s.threads.drop (i + 1) := by simp
  rw [e, List.map_append, List.sum_append] at h
  have a : 1 ≤ ((s.threads.take (i + 1)).map inside).sum := by
    have : s.threads[i] ∈ s.threads.take (i + 1) := by
      rw [List.mem_iff_getElem]
      exact ⟨i, by simp; omega, by simp⟩
    have := le_sum_inside this
    rw [(inside_pos _).mpr h1] at this
    exact this
  have b : 1 ≤ ((s.threads.drop (i + 1)).map inside).sum := by
    have : u ∈ s.threads.drop (i + 1) := by
      rw [List.mem_iff_getElem?]
      exact ⟨j - (i + 1), by rw [List.getElem?_drop, ← hu]; congr 1; omega⟩
    have := le_sum_inside this
    rw [(inside_pos _).mpr h2] at this
    exact this
  split at h <;> omega

/-- No deadlock: as long as a thread has not finished, some thread can go on. -/
theorem C112_progress (level : ℕ) (calls : List (List Call)) (is : List ℕ)
    (h : ∃ t ∈ (exec (start level calls) is).threads, ¬ Finished t) :
    ∃ i < calls.length, sched (exec (start level calls) is) i ≠ exec (start level calls) is :=
  can_step (inv_exec level calls is) h

/-- Every call ends: no schedule has more than seven steps per call. -/
theorem C112_ends (level : ℕ) (calls : List (List Call)) (is : List ℕ) :
    moves (start level calls) is ≤ 7 * (calls.map List.length).sum := by
  have h := moves_le is (start level calls)
  have e : ((start level calls).threads.map left).sum = 7 * (calls.map List.length).sum := by
    simp only [start, List.map_map]
    induction calls with
    | nil => rfl
    | cons c cs ih =>
      have ih := ih (by
        have := moves_le is (start level cs)
        exact this)
      simp only [List.map_cons, List.sum_cons, Function.comp_apply] at ih ⊢
      rw [ih]
      simp [left]
      omega
  omega

/-- When all threads have finished the lock is free. -/
theorem C112_released (level : ℕ) (calls : List (List Call)) (is : List ℕ)
    (h : ∀ t ∈ (exec (start level calls) is).threads, Finished t) : (exec (start level calls) is).shared.lock = false := by
  have hm := (inv_exec level calls is).mutex
  have : ((exec (start level calls) is).threads.map inside).sum = 0 := by
    apply List.sum_eq_zero
    intro x hx
    obtain ⟨u, hu, rfl⟩ := List.mem_map.mp hx
    obtain ⟨hp, _⟩ := h u hu
    rw [inside_zero]
    rintro ⟨c, hc⟩
    rw [hp] at hc
    simp at hc
  rw [this] at hm
  by_contra hc
  simp [hc] at hm

/-- After calls one after the other the last of which set a level other than NOTSET, a message of any module of the package is printed
once if its level is reached, and not at all otherwise. -/
theorem C112_printed (level : ℕ) (cs : List Call) (l : ℕ) (hl : l ≠ 0) (below : List ℕ) (hb : ∀ x ∈ below, x = 0) (root msg : ℕ) :
    printed ((cs ++ [Call.verbosity l]).foldl alone ⟨false, false, level, 0⟩) below root msg = if l ≤ msg then 1 else 0 := by
  have e : (cs ++ [Call.verbosity l]).foldl alone ⟨false, false, level, 0⟩ = ⟨true, false, l, 1⟩ := by
    cases cs with
    | nil => exact C112_first level 0 (.verbosity l)
    | cons c cs =>
      rw [List.cons_append, C112_sequential]
      have : lastLevel (c :: (cs ++ [.verbosity l])) = some l := by
        rw [← List.cons_append, lastLevel, List.filterMap_append]
        simp
      rw [this]
      rfl
  rw [e]
  have : effective (below ++ [l, root]) = l := by
    induction below with
    | nil => simp [effective, hl]
    | cons b bs ih =>
      have hb0 := hb b (by simp)
      subst hb0
      simpa [effective] using ih (fun x hx => hb x (by simp [hx]))
  simp [printed, this]

/-- NOTSET does not mean that everything is printed: the level of the root logger decides. -/
theorem C112_notset (s : Shared) (h : s.level = 0) (below : List ℕ) (hb : ∀ x ∈ below, x = 0) (root msg : ℕ) :
    printed s below root msg = if root ≤ msg then s.handlers else 0 := by
  have : effective (below ++ [0, root]) = root := by
    induction below with
    | nil =>
      by_cases hr : root = 0 <;> simp [effective, hr]
    | cons b bs ih =>
      have hb0 := hb b (by simp)
      subst hb0
      simpa [effective] using ih (fun x hx => hb x (by simp [hx]))
  simp [printed, h, this]

/-- With the usual level WARNING of the root logger, messages of level INFO are printed before `set_verbosity(NOTSET)` and not after. -/
theorem C112_notset_fails :
    printed (alone ⟨false, false, 0, 0⟩ .get) [0] 30 20 = 1 ∧
    printed ([Call.get, .verbosity 0].foldl alone ⟨false, false, 0, 0⟩) [0] 30 20 = 0 := by decide

/-- A thread that found no logger and waits goes through when it is its turn. -/
theorem through (sh : Shared) (hl : sh.lock = false) (pre post : List Thread) :
    exec ⟨sh, pre ++ ⟨.waiting .get, []⟩ :: post⟩ (List.replicate 6 pre.length) =
      ⟨⟨true, false, 20, sh.handlers + 1⟩, pre ++ ⟨.ready, []⟩ :: post⟩ := by
  obtain ⟨a, b, c, d⟩ := sh
  simp only at hl
  subst hl
  simp [exec, sched, step, info, List.replicate]

/-- For any number of threads there is an interleaving in which each of them adds a handler, so that every message is printed that often:
`_dp_logger` is looked at before the lock is taken and not again. -/
theorem C112_fails (n level : ℕ) : ∃ is, (∀ t ∈ (exec (start level (List.replicate n [.get])) is).threads, Finished t) ∧
    (exec (start level (List.replicate n [.get])) is).shared.handlers = n := by
  have look : ∀ (k : ℕ) (pre : List Thread), exec ⟨⟨false, false, level, 0⟩, pre ++ List.replicate k ⟨.ready, [.get]⟩⟩
      (List.range' pre.length k) = ⟨⟨false, false, level, 0⟩, pre ++ List.replicate k ⟨.waiting .get, []⟩⟩ := by
    intro k
    induction k with
    | zero => intro pre; simp [exec]
    | succ k ih =>
      intro pre
      have := ih (pre ++ [⟨.waiting .get, []⟩])
      simp only [List.append_assoc, List.length_append, List.length_singleton, List.singleton_append] at this
      rw [List.range'_succ, List.replicate_succ, List.replicate_succ, ← this]
      simp [exec, sched, step]
  have go : ∀ (k : ℕ) (sh : Shared) (pre : List Thread), sh.lock = false → (∀ t ∈ pre, Finished t) →
      ∃ is, (∀ t ∈ (exec ⟨sh, pre ++ List.replicate k ⟨.waiting .get, []⟩⟩ is).threads, Finished t) ∧
        (exec ⟨sh, pre ++ List.replicate k ⟨.waiting .get, []⟩⟩ is).shared.handlers = sh.handlers + k := by
    intro k
    induction k with
    | zero => intro sh pre _ hp; exact ⟨[], by simpa [exec] using hp, by simp [exec]⟩
    | succ k ih =>
      intro sh pre hl hp
      obtain ⟨is, h1, h2⟩ := ih ⟨true, false, 20, sh.handlers + 1⟩ (pre ++ [⟨.ready, []⟩]) rfl (by
        intro t ht
        simp only [List.mem_append, List.mem_singleton] at ht
        rcases ht with ht | rfl
        · exact hp t ht
        · exact ⟨rfl, rfl⟩)
      have e : exec ⟨sh, pre ++ List.replicate (k + 1) ⟨.waiting .get, []⟩⟩ (List.replicate 6 pre.length ++ is) =
          exec ⟨⟨true, false, 20, sh.handlers + 1⟩, pre ++ [⟨.ready, []⟩] ++ List.replicate k ⟨.waiting .get, []⟩⟩ is := by
        have := through sh hl pre (List.replicate k ⟨.waiting .get, []⟩)
        unfold exec at this ⊢
        rw [List.foldl_append, List.replicate_succ, this]
        simp
      refine ⟨List.replicate 6 pre.length ++ is, ?_, ?_⟩
      · rw [e]; exact h1
      · rw [e, h2]; simp; omega
  obtain ⟨is, h1, h2⟩ := go n ⟨false, false, level, 0⟩ [] rfl (by simp)
  have hl := look n []
  refine ⟨List.range' 0 n ++ is, ?_⟩
  have e : exec (start level (List.replicate n [.get])) (List.range' 0 n ++ is) =
      exec ⟨⟨false, false, level, 0⟩, [] ++ List.replicate n ⟨.waiting .get, []⟩⟩ is := by
    rw [← hl]
    simp [exec, start]
  rw [e]
  exact ⟨h1, by simpa using h2⟩

/-- A level that a call has set and nobody has changed is lost: another thread, which had found no logger, sets INFO. -/
theorem C112_level_fails : ∃ is, (∀ t ∈ (exec (start 0 [[.verbosity 40], [.get]]) is).threads, Finished t) ∧
    told (start 0 [[.verbosity 40], [.get]]) is = [40] ∧ (exec (start 0 [[.verbosity 40], [.get]]) is).shared.level = 20 := by
  refine ⟨[1, 0, 0, 0, 0, 0, 0, 0, 1, 1, 1, 1, 1, 1], ?_, by decide, by decide⟩
  unfold Finished
  decide

/-- A process after the import, with two threads. -/
def imported : State := ⟨alone ⟨false, false, 0, 0⟩ .get, [⟨.ready, [.verbosity 30, .get]⟩, ⟨.ready, [.verbosity 40]⟩]⟩

example : imported.shared = ⟨true, false, 20, 1⟩ ∧ told imported [0, 1, 1, 0, 0, 0] = [40, 30] ∧
    (exec imported [0, 1, 1, 0, 0, 0]).shared = ⟨true, false, 30, 1⟩ := by decide

/-- Two threads that both find no logger; the first has the lock. -/
example : (exec (start 0 [[.get], [.get]]) [0, 1, 0, 0]).threads = [⟨.leveled .get, []⟩, ⟨.waiting .get, []⟩] ∧
    sched (exec (start 0 [[.get], [.get]]) [0, 1, 0, 0]) 1 = exec (start 0 [[.get], [.get]]) [0, 1, 0, 0] ∧
    moves (start 0 [[.get], [.get]]) [0, 1, 0, 0, 1, 0] = 5 := by decide

example : printed ([Call.get, .verbosity 30].foldl alone ⟨false, false, 0, 0⟩) [0, 0] 30 20 = 0 ∧
    printed ([Call.get, .verbosity 10].foldl alone ⟨false, false, 0, 0⟩) [0, 0] 30 20 = 1 := by decide

end Verif.Props.Logging
