import Mathlib.Data.Rat.Defs

/-!
# Scores of predictions
-/

namespace Verif.Spec.ClassReport

/-- Positions with true label `i` and predicted label `j`. -/
def hits : List ℕ → List ℕ → ℕ → ℕ → ℕ
  | t :: ts, p :: ps, i, j => (if t = i ∧ p = j then 1 else 0) + hits ts ps i j
  | _, _, _, _ => 0

/-- Positions where the prediction is right. -/
def right : List ℕ → List ℕ → ℕ
  | t :: ts, p :: ps => (if t = p then 1 else 0) + right ts ps
  | _, _ => 0

/-- Occurrences of a label. -/
def occ (i : ℕ) : List ℕ → ℕ
  | [] => 0
  | t :: ts => (if t = i then 1 else 0) + occ i ts

/-- A share of a whole, zero of nothing. -/
def share (a b : ℕ) : ℚ := if b = 0 then 0 else (a : ℚ) / (b : ℚ)

/-- Precision and recall of a label. -/
def precision (ts ps : List ℕ) (i : ℕ) : ℚ := share (hits ts ps i i) (occ i ps)
def recall (ts ps : List ℕ) (i : ℕ) : ℚ := share (hits ts ps i i) (occ i ts)

/-- The harmonic mean, zero if both numbers are. -/
def harm (p r : ℚ) : ℚ := if p + r = 0 then 0 else 2 * p * r / (p + r)

/-- The F-score of a label. -/
def f1 (ts ps : List ℕ) (i : ℕ) : ℚ := harm (precision ts ps i) (recall ts ps i)

/-- The mean of a non-empty list. -/
def meanOf (l : List ℚ) : ℚ := l.sum / (l.length : ℚ)

/-- Rows with zeros up to a width. -/
def pad (w : ℕ) (row : List ℕ) : List ℕ := row ++ List.replicate (w - row.length) 0

end Verif.Spec.ClassReport
