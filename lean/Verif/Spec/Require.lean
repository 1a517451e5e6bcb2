import Verif.Model.Require

/-! # Specification of functions that need optional modules -/

namespace Verif.Spec.Require

open Verif.Require

/-- A module can be imported. -/
def Available (s : State) (m : String) : Prop := m ∈ s.sys ∨ m ∈ s.installed

/-- The first module of the list that cannot be imported. -/
def FirstMissing (s : State) (ms : List String) (n : String) : Prop :=
  ∃ pre post, ms = pre ++ n :: post ∧ (∀ m ∈ pre, Available s m) ∧ ¬ Available s n

/-- Nobody else imports one of these modules. -/
def LeftAlone (ms : List String) (es : List Event) : Prop := ∀ m ∈ ms, ∀ e ∈ es, e ≠ .importOther m

/-- Modules that were installed during a history. -/
def Installs (es : List Event) (m : String) : Prop := Event.install m ∈ es

end Verif.Spec.Require
