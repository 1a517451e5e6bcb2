import Verif.Model.Logging

/-! # Specification of the logger -/

namespace Verif.Spec.Logging

open Verif.Logging

/-- A thread that has made all its calls. -/
def Finished (t : Thread) : Prop := t.pc = .ready ∧ t.todo = []

/-- A thread between calls. -/
def Outside (t : Thread) : Prop := t.pc = .ready

/-- A thread that holds the lock. -/
def Holds (t : Thread) : Prop := ∃ c, t.pc = .locked c ∨ t.pc = .leveled c ∨ t.pc = .added c ∨ t.pc = .assigned c

/-- The level that a thread is about to set. -/
def setting : Option Thread → List ℕ
  | some ⟨.got (.verbosity l), _⟩ => [l]
  | _ => []

/-- The levels that calls have set, in the order in which they were set. -/
def told (s : State) : List ℕ → List ℕ
  | [] => []
  | i :: is => setting s.threads[i]? ++ told (sched s i) is

/-- The steps of a schedule that were possible. -/
def moves (s : State) : List ℕ → ℕ
  | [] => 0
  | i :: is => (if sched s i = s then 0 else 1) + moves (sched s i) is

/-- The last level asked for, if any. -/
def lastLevel (cs : List Call) : Option ℕ :=
  (cs.filterMap fun c => match c with
    | .get => none
    | .verbosity l => some l).getLast?

/-- A call made while no other thread does anything. -/
def alone (s : Shared) (c : Call) : Shared := (exec ⟨s, [⟨.ready, [c]⟩]⟩ (List.replicate 7 0)).shared

end Verif.Spec.Logging
