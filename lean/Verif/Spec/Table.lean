import Verif.Model.Table

/-!
# Specification vocabulary for table profiles: forgetting the scheduling flags
-/

namespace Verif.Table

variable {σ η : Type}

/-- A column profile with its scheduling flag forgotten. -/
def Prof.norm (p : Prof σ) : Prof σ := ⟨p.state, true⟩

/-- A compiler with all scheduling flags forgotten. -/
def Compiler.norm (c : Compiler σ) : Compiler σ := { c with profs := c.profs.map fun tp => (tp.1, tp.2.norm) }

/-- A column with all scheduling flags forgotten. -/
def Col.norm (c : Col σ) : Col σ := { c with compilers := c.compilers.map fun kc => (kc.1, kc.2.norm) }

/-- A table profile with all scheduling flags forgotten. -/
def TableProf.norm (t : TableProf σ η) : TableProf σ η := { t with cols := t.cols.map Col.norm }

/-- A sensible scheduler: every submitted task is eventually finished, once. -/
def Sched.Fair {α : Type} (s : Sched α) : Prop := ∀ l, (s.order l).Perm l

/-- A sensible table scheduler; the set of failed columns is iterated in some order. -/
structure TableSched.Fair (s : TableSched) : Prop where
  clean : s.clean.Fair
  retry : ∀ l, (s.retry l).Perm l
  profs : s.profs.Fair

end Verif.Table

namespace Verif.Table

variable {σ η : Type}

/-- Everything that can happen to a table profile. -/
inductive Hist where
  | new (o : RowOpts)
  | update (h : Hist) (pool : Option TableSched) (u : Upd)
  | merge (h1 h2 : Hist)

/-- The resulting profile. -/
def run (env : Env σ η) : Hist → Except Err (TableProf σ η)
  | .new o => .ok (.new env.hll o)
  | .update h pool u => match run env h with
    | .error e => .error e
    | .ok t => updateTable env pool u t
  | .merge h1 h2 => match run env h1, run env h2 with
    | .ok a, .ok b => (mergeTable env a b).1
    | .error e, _ => .error e
    | _, .error e => .error e

/-- The same history without any worker pool. -/
def Hist.serial : Hist → Hist
  | .new o => .new o
  | .update h _ u => .update h.serial none u
  | .merge h1 h2 => .merge h1.serial h2.serial

/-- All pools of the history are sensible. -/
def Hist.Fair : Hist → Prop
  | .new _ => True
  | .update h pool _ => h.Fair ∧ ∀ s ∈ pool, s.Fair
  | .merge h1 h2 => h1.Fair ∧ h2.Fair

end Verif.Table
