import Verif.Model.Basic
import Mathlib.Data.Nat.Notation

/-!
# The logger of the package

Models `dataprofiler/dp_logging.py`: `get_logger` (11-38), `set_verbosity` (41-52) and `get_child_logger` (55-63), called by any number of
threads whose steps interleave in any way.

Simplifications
* a step is one statement that reads or writes `_dp_logger`, the lock or the logger; Python's interpreter lock makes these atomic;
* levels are numbers; of `logging` the effective level and the handlers of the logger `DataProfiler` are modelled, not formats, filters or
  `logging.disable`;
* creating the handler and `logging.getLogger` change nothing that is observed and are no steps of their own.
-/

namespace Verif.Logging

/-- A call: for the logger (`get_logger`, `get_child_logger`) or `set_verbosity(level)`. -/
inductive Call where
  | get
  | verbosity (level : ℕ)
  deriving DecidableEq

/-- Where a thread is. -/
inductive Pc where
  /-- before the next call -/
  | ready
  /-- `_dp_logger` was not set (16); before the lock (20) -/
  | waiting (c : Call)
  /-- with the lock, before `setLevel` (25) -/
  | locked (c : Call)
  /-- before `addHandler` (32) -/
  | leveled (c : Call)
  /-- before the assignment (34) -/
  | added (c : Call)
  /-- before the release (38) -/
  | assigned (c : Call)
  /-- `get_logger` has returned -/
  | got (c : Call)
  deriving DecidableEq

/-- What threads share: whether `_dp_logger` is set, whether the lock is taken, the level of the logger and the number of its handlers. -/
structure Shared where
  isSet : Bool
  lock : Bool
  level : ℕ
  handlers : ℕ
  deriving DecidableEq

/-- A thread: where it is and the calls it has still to begin. -/
structure Thread where
  pc : Pc
  todo : List Call
  deriving DecidableEq

/-- `logging.INFO`. -/
def info : ℕ := 20

/-- A step of a thread; none if it has finished or has to wait for the lock. -/
def step (s : Shared) (t : Thread) : Option (Shared × Thread) :=
  match t.pc with
  | .ready =>
    match t.todo with
    | [] => none
    | c :: cs => some (s, if s.isSet then ⟨.got c, cs⟩ else ⟨.waiting c, cs⟩)
  | .waiting c => if s.lock then none else some ({ s with lock := true }, { t with pc := .locked c })
  | .locked c => some ({ s with level := info }, { t with pc := .leveled c })
  | .leveled c => some ({ s with handlers := s.handlers + 1 }, { t with pc := .added c })
  | .added c => some ({ s with isSet := true }, { t with pc := .assigned c })
  | .assigned c => some ({ s with lock := false }, { t with pc := .got c })
  | .got .get => some (s, { t with pc := .ready })
  | .got (.verbosity l) => some ({ s with level := l }, { t with pc := .ready })

/-- A process. -/
structure State where
  shared : Shared
  threads : List Thread
  deriving DecidableEq

/-- The thread number `i` makes a step if it can. -/
def sched (s : State) (i : ℕ) : State :=
  match s.threads[i]? with
  | none => s
  | some t =>
    match step s.shared t with
    | none => s
    | some (sh, t') => ⟨sh, s.threads.set i t'⟩

/-- Threads make steps in the order of a schedule. -/
def exec (s : State) (is : List ℕ) : State := is.foldl sched s

/-- A process before the first call; `level` is what somebody else has set the logger to. -/
def start (level : ℕ) (calls : List (List Call)) : State := ⟨⟨false, false, level, 0⟩, calls.map fun cs => ⟨.ready, cs⟩⟩

/-- `Logger.getEffectiveLevel`: the first level that is set, from a logger up to the root. -/
def effective : List ℕ → ℕ
  | [] => 0
  | l :: ls => if l ≠ 0 then l else effective ls

/-- How often a message of a logger `below` the logger of the package (the levels of the loggers in between and its own) is printed by
the handlers of the package; `root` is the level of the root logger. -/
def printed (s : Shared) (below : List ℕ) (root msg : ℕ) : ℕ :=
  if effective (below ++ [s.level, root]) ≤ msg then s.handlers else 0

end Verif.Logging
