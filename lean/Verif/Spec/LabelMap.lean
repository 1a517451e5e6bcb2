import Mathlib.Data.Nat.Notation

/-!
# The labels of a data labeler
-/

namespace Verif.Spec.LabelMap

/-- One name for every number in use, by rising numbers. -/
def IsLabels {K : Type} (mapping : List (K × ℕ)) (names : List K) : Prop :=
  ∃ ids : List ℕ, ids.Pairwise (· < ·) ∧ ids.length = names.length ∧
    (∀ (i id : ℕ) (k : K), ids[i]? = some id → names[i]? = some k → (k, id) ∈ mapping) ∧
    ∀ id, id ∈ ids ↔ ∃ k, (k, id) ∈ mapping

end Verif.Spec.LabelMap
