import Verif.Model.ColumnSteps
import Verif.Spec.ColumnJson

/-! # Histories of a column profile that it is to survive -/

namespace Verif.Spec.ColumnJson

open Verif
open Verif.ColumnJson (Lib Cls Step Event)

variable {F T L : Type}

/-- The class makes the step, and a date is one the library reads as it was written. -/
def StepOk (lib : Lib F T L) (c : Cls) (s : Step F T) : Prop :=
  s.of c = true ∧ ∀ b n t m, s = .date b n t m → lib.timestamp (lib.iso m) = .ok m

/-- Every step of a history is such a step. -/
def HistoryOk (lib : Lib F T L) (c : Cls) (h : List (Event F T)) : Prop := ∀ s, .step s ∈ h → StepOk lib c s

/-- The history without saving and loading. -/
def unsaved : List (Event F T) → List (Event F T)
  | [] => []
  | .step s :: t => .step s :: unsaved t
  | .reload :: t => unsaved t

/-- How many values a history is about. -/
def seenIn : List (Event F T) → ℤ
  | [] => 0
  | .step (.size n _) :: t => n + seenIn t
  | .step (.order _ _ _ n _) :: t => n + seenIn t
  | _ :: t => seenIn t

end Verif.Spec.ColumnJson
