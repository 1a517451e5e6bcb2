import Verif.Model.Correlation

/-!
# Specification vocabulary for correlations
-/

namespace Verif.CorrelationSpec

open Verif.Correlation

noncomputable section

/-- The mean of a list. -/
def average (xs : List ℝ) : ℝ := xs.sum / xs.length

/-- Sum of the products of the deviations from the means. -/
def comoment (ps : List (ℝ × ℝ)) : ℝ :=
  (ps.map fun p => (p.1 - average (ps.map Prod.fst)) * (p.2 - average (ps.map Prod.snd))).sum

/-- Pearson's correlation coefficient. -/
def pearson (ps : List (ℝ × ℝ)) : ℝ :=
  comoment ps / (Real.sqrt (comoment (ps.map fun p => (p.1, p.1))) * Real.sqrt (comoment (ps.map fun p => (p.2, p.2))))

/-- The pairs of values in columns `i` and `j`. -/
def pairs (rows : List (List (Option ℝ))) (i j : ℕ) : List (ℝ × ℝ) :=
  rows.map fun r => ((r.getD i none).getD 0, (r.getD j none).getD 0)

/-- The numbers present in column `i`. -/
def present (rows : List (List (Option ℝ))) (i : ℕ) : List ℝ := rows.filterMap fun r => r.getD i none

/-- The pairs of values in columns `i` and `j`, missing ones replaced by the mean of those present. -/
def imputed (rows : List (List (Option ℝ))) (i j : ℕ) : List (ℝ × ℝ) :=
  rows.map fun r => ((r.getD i none).getD (average (present rows i)), (r.getD j none).getD (average (present rows j)))

/-- All rows of a history. -/
def rows : Hist → List (List (Option ℝ))
  | .new => []
  | .update h b => rows h ++ b.rows
  | .merge h1 h2 => rows h1 ++ rows h2

/-- Some rows were seen. -/
def Fed : Hist → Prop
  | .new => False
  | .update _ _ => True
  | .merge h1 h2 => Fed h1 ∧ Fed h2

/-- A batch of `k` columns without nulls, in which the numeric columns vary. -/
structure Complete (numeric : List Bool) (b : Batch) : Prop where
  types : b.numeric = numeric
  nonempty : b.rows ≠ []
  widths : ∀ r ∈ b.rows, r.length = numeric.length
  full : ∀ r ∈ b.rows, ∀ c ∈ r, c ≠ none
  varied : ∀ i : ℕ, numeric[i]? = some true → ∃ r ∈ b.rows, ∃ s ∈ b.rows, r[i]? ≠ s[i]?

/-- Complete batches throughout; merges only of profiles that have seen rows and whose columns are all numeric. -/
def Good (numeric : List Bool) : Hist → Prop
  | .new => True
  | .update h b => Good numeric h ∧ Complete numeric b
  | .merge h1 h2 => Good numeric h1 ∧ Good numeric h2 ∧ Fed h1 ∧ Fed h2 ∧ 2 ≤ numeric.length ∧ ∀ f ∈ numeric, f = true

end

end Verif.CorrelationSpec
