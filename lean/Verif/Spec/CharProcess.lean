import Mathlib.Data.Nat.Notation

/-!
# Texts in a row, and what is read back from them
-/

namespace Verif.Spec.CharProcess

variable {α P : Type}

/-- Texts put in a row, some of them preceded by the separator. -/
def weave (sep : List α) : List (List α) → List Bool → List α
  | d :: ds, g :: gs => (if g then sep else []) ++ d ++ weave sep ds gs
  | _, _ => []

/-- Reading texts of given lengths back from such a row, skipping the separators. -/
def pick (s : ℕ) : List ℕ → List Bool → List P → List (List P)
  | l :: ls, g :: gs, row => ((row.drop (if g then s else 0)).take l) :: pick s ls gs (row.drop ((if g then s else 0) + l))
  | _, _, _ => []

/-- Batches of the given size, except for a shorter last one. -/
def Full {B : Type} (size : ℕ) : List (List B) → Prop
  | [] => True
  | [b] => 0 < b.length ∧ b.length ≤ size
  | b :: bs => b.length = size ∧ Full size bs

end Verif.Spec.CharProcess
