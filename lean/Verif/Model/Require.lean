import Verif.Model.Basic
import Mathlib.Data.Nat.Notation

/-!
# Functions that need optional modules

Models `require_module` (dataprofiler/reports/utils.py:28-55, dataprofiler/labelers/utils.py:25-52), the guarded imports of
dataprofiler/reports/graphs.py:14-22 and dataprofiler/labelers/column_name_model.py:12-18, and what `ColumnNameModel.predict` (210-275) does
before the check.

Simplifications
* modules are names; importing a module that is installed succeeds, and one that is not raises ImportError; submodules are part of their
  module; modules are not removed from `sys.modules`;
* a function that is run uses all the modules it requires, and otherwise works;
* the other effects of executing a module again are left out (for the registered classes see C110).
-/

namespace Verif.Require

/-- A process: what is installed, `sys.modules`, and which modules are bound to names in the module of the functions. -/
structure State where
  installed : List String
  sys : List String
  bound : List String
  deriving DecidableEq

/-- The `try` block with the guarded imports, in order; the first that fails ends it. Executed when the package is imported and again by
`importlib.reload`, which keeps old names. -/
def execute : List String → State → State
  | [], s => s
  | m :: ms, s =>
    if m ∈ s.sys ∨ m ∈ s.installed then execute ms { s with sys := m :: s.sys, bound := m :: s.bound } else s

/-- The loop of the wrapper: the first module that is missing even after executing the module again. -/
def check (guarded : List String) : List String → State → State × Option String
  | [], s => (s, none)
  | n :: ns, s =>
    if n ∈ s.sys then check guarded ns s
    else
      let s' := execute guarded s
      if n ∈ s'.sys then check guarded ns s' else (s', some n)

/-- How a call ends: the function is run; a warning about a module, and None; NameError. -/
inductive Result where
  | ran
  | warned (m : String)
  | nameError
  deriving DecidableEq

/-- A call of a function that requires the modules `guarded` of the guarded imports. -/
def call (guarded : List String) (s : State) : State × Result :=
  match check guarded guarded s with
  | (s', some n) => (s', .warned n)
  | (s', none) => (s', if ∀ m ∈ guarded, m ∈ s'.bound then .ran else .nameError)

/-- `ColumnNameModel.predict`: the argument `rapidfuzz.fuzz.token_sort_ratio` is evaluated (248; 161 in `_compare_negative`) before `_model`
with its check is called. -/
def predict (s : State) : State × Result :=
  if "rapidfuzz" ∈ s.bound then call ["rapidfuzz"] s else (s, .nameError)

/-- What happens in a process. -/
inductive Event where
  /-- a module is installed -/
  | install (m : String)
  /-- somebody else imports a module -/
  | importOther (m : String)
  /-- the function is called -/
  | call

/-- One event, with `f` as what a call does. -/
def event (f : State → State × Result) (s : State) : Event → State
  | .install m => { s with installed := m :: s.installed }
  | .importOther m => if m ∈ s.installed then { s with sys := m :: s.sys } else s
  | .call => (f s).1

/-- A history of a process. -/
def run (f : State → State × Result) (s : State) (es : List Event) : State := es.foldl (event f) s

/-- The process after the import of the package, when `sys` was imported before. -/
def start (guarded installed sys : List String) : State := execute guarded ⟨installed, sys, []⟩

end Verif.Require
