import Verif.Spec.Postprocess

/-!
# Tables row by row, and what may be said of texts
-/

namespace Verif.Spec.Predict

variable {A : Type}

/-- A table with rows of a given width written down row by row. -/
def RowMajor (w : ℕ) (rows : List (List A)) (flat : List A) : Prop :=
  flat.length = rows.length * w ∧ ∀ r row, rows[r]? = some row → ∀ c, c < w → flat[r * w + c]? = row[c]?

/-- Entities lie in a text of length `n`, one after the other. -/
def Inside {K : Type} (n : ℕ) (ents : List (ℕ × ℕ × K)) : Prop :=
  (∀ e ∈ ents, e.1 < e.2.1 ∧ e.2.1 ≤ n) ∧ ents.Pairwise fun a b => a.2.1 ≤ b.1

/-- A text that does not end with a zero. -/
def Clean (s : List Char) : Prop := s.getLast? ≠ some (Char.ofNat 0)

end Verif.Spec.Predict
