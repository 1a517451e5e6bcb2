import Verif.Model.Nested

/-!
# Reading nested dictionaries by path

The specification vocabulary for nested dictionaries: what is stored at a path of keys.
-/

namespace Verif.Nested

open Verif

variable {A : Type}

/-- The value reached by following a path of keys. -/
def NV.at? : NV A → List String → Option (NV A)
  | v, [] => some v
  | .leaf _, _ :: _ => none
  | .dict d, k :: p => (PyDict.get? d k).bind fun v => v.at? p

/-- The leaf stored at a path, if any. -/
def NV.leafAt (v : NV A) (p : List String) : Option A :=
  match v.at? p with
  | some (.leaf a) => some a
  | _ => none

/-- There is a dictionary at the path. -/
def NV.DictAt (v : NV A) (p : List String) : Prop := ∃ d, v.at? p = some (.dict d)

/-- No dictionary inside the value has a repeated key (true of every Python value). -/
def NV.WF (v : NV A) : Prop := ∀ p d, v.at? p = some (.dict d) → PyDict.WF d

/-- The two values never disagree about whether a path is a leaf or a dictionary. -/
def Compatible (v w : NV A) : Prop :=
  ∀ p, ¬ ((v.leafAt p).isSome ∧ w.DictAt p) ∧ ¬ (v.DictAt p ∧ (w.leafAt p).isSome)

/-- Sum of two optional numbers, where absence is neutral. -/
def addOpt [Add A] : Option A → Option A → Option A
  | some a, some b => some (a + b)
  | some a, none => some a
  | none, some b => some b
  | none, none => none

end Verif.Nested
