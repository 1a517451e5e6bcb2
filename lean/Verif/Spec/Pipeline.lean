import Verif.Model.PyDict

/-!
# Agreement of parameters
-/

namespace Verif.Spec.Pipeline

variable {V : Type}

/-- Parameters of the same name have the same value. -/
def Agree (d e : PyDict String V) : Prop := ∀ k v w, (k, v) ∈ d → (k, w) ∈ e → v = w

/-- `e` is `d` with the parameters of `kw` given their values. -/
def Updated (d kw e : PyDict String V) : Prop :=
  ∀ k v, (k, v) ∈ e ↔ (k, v) ∈ kw ∨ ((∀ w, (k, w) ∉ kw) ∧ (k, v) ∈ d)

end Verif.Spec.Pipeline
