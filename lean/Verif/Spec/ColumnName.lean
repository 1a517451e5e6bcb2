import Mathlib.Data.Rat.Defs

/-!
# Labels of column names
-/

namespace Verif.Spec.ColumnName

/-- The entry at `i` is the first most similar of a list of similarities. -/
def IsBest (sims : List ℚ) (i : ℕ) (s : ℚ) : Prop :=
  sims[i]? = some s ∧ (∀ (j : ℕ) t, sims[j]? = some t → t ≤ s) ∧ ∀ (j : ℕ) t, j < i → sims[j]? = some t → t < s

end Verif.Spec.ColumnName
