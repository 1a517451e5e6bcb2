import Verif.Model.Persist

/-!
# What saving and loading should preserve
-/

namespace Verif.Spec.Persist

open Verif Verif.Persist
open Verif.Schema (Key)

variable {L A : Type}

/-- The labelers of options and profiles agree: one labeler everywhere when data labeling is enabled,
none anywhere when it is disabled. -/
def Agree (l : L) (o : Opts L A) (ss : List (Slot L)) : Prop :=
  if o.enabled then o.object = some l ∧ ∀ s ∈ ss, s = .labelled (some l)
  else ∀ s ∈ ss, s ≠ .labelled none ∧ ∀ l', s ≠ .labelled (some l')

/-- Everything but the labelers is the same in two profilers. -/
def SameButLabelers (p q : Prof L A) : Prop :=
  { p with options := q.options, columns := q.columns } = q ∧
    { p.options with enabled := q.options.enabled, object := q.options.object } = q.options ∧
    p.columns.map (·.rest) = q.columns.map (·.rest)

/-- A dictionary with distinct integer keys. -/
def IntKeyed {B : Type} (d : List (Key × B)) : Prop := ∃ l : List (ℤ × B), (l.map (·.1)).Nodup ∧ d = l.map fun x => (Key.int x.1, x.2)

/-- A dictionary with distinct string keys. -/
def StrKeyed {B : Type} (d : List (Key × B)) : Prop := ∃ l : List (String × B), (l.map (·.1)).Nodup ∧ d = l.map fun x => (Key.str x.1, x.2)

end Verif.Spec.Persist
