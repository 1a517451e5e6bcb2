import Mathlib.Algebra.BigOperators.Fin
import Mathlib.Algebra.Order.Field.Rat
import Mathlib.Algebra.Order.AbsoluteValue.Basic
import Verif.Model.FScore

/-!
# What the metric of training is to be

Weights of samples are counted by what is predicted and what is true; the score of a class is the weighted harmonic mean of precision and
recall.
-/

namespace Verif.Spec.FScore

open Verif.FScore (Sample)

/-- Whether a class is predicted: it is above the threshold, or it is the largest one and not zero. -/
def Predicted {n : ℕ} (threshold : Option ℚ) (p : Fin n → ℚ) (i : Fin n) : Prop :=
  match threshold with
  | none => (∀ j, p j ≤ p i) ∧ 1 / 10 ^ 12 < |p i|
  | some t => t < p i

/-- Labels are zero or one. -/
def Labelled {n : ℕ} (s : Sample n) : Prop := ∀ i, s.truth i = 0 ∨ s.truth i = 1

/-- The weight of the samples with a property. -/
noncomputable def weight {n : ℕ} (l : List (ℚ × Sample n)) (P : Sample n → Prop) : ℚ :=
  open Classical in ((l.filter fun x => P x.2).map Prod.fst).sum

/-- Weight of the samples where a class is predicted rightly. -/
noncomputable def hits {n : ℕ} (t : Option ℚ) (l : List (ℚ × Sample n)) (i : Fin n) : ℚ :=
  weight l fun s => Predicted t s.pred i ∧ s.truth i = 1

/-- Weight of the samples where it is predicted wrongly. -/
noncomputable def wrong {n : ℕ} (t : Option ℚ) (l : List (ℚ × Sample n)) (i : Fin n) : ℚ :=
  weight l fun s => Predicted t s.pred i ∧ s.truth i = 0

/-- Weight of the samples where it is missed. -/
noncomputable def missed {n : ℕ} (t : Option ℚ) (l : List (ℚ × Sample n)) (i : Fin n) : ℚ :=
  weight l fun s => ¬ Predicted t s.pred i ∧ s.truth i = 1

/-- Weight of the samples of a class. -/
noncomputable def size {n : ℕ} (l : List (ℚ × Sample n)) (i : Fin n) : ℚ := weight l fun s => s.truth i = 1

/-- The F-score by the three weights. -/
def F (beta tp fp fn : ℚ) : ℚ := (1 + beta ^ 2) * tp / ((1 + beta ^ 2) * tp + beta ^ 2 * fn + fp)

/-- The score of one class. -/
noncomputable def classScore {n : ℕ} (beta : ℚ) (t : Option ℚ) (l : List (ℚ × Sample n)) (i : Fin n) : ℚ :=
  F beta (hits t l i) (wrong t l i) (missed t l i)

/-- The samples of a batch with their weights: one if no weights are given. -/
def Weighted {n : ℕ} (samples : List (Sample n)) (weights : Option (List ℚ)) (l : List (ℚ × Sample n)) : Prop :=
  match weights with
  | none => l = samples.map fun s => (1, s)
  | some ws => ws.length = samples.length ∧ l = ws.zip samples

/-- The samples of all batches with their weights. -/
def Given {n : ℕ} (batches : List (List (Sample n) × Option (List ℚ))) (l : List (ℚ × Sample n)) : Prop :=
  ∃ xs, List.Forall₂ (fun b x => Weighted b.1 b.2 x) batches xs ∧ l = xs.flatten

end Verif.Spec.FScore
