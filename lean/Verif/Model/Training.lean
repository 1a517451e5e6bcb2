import Verif.Model.Basic
import Mathlib.Data.Nat.Notation

/-!
# Samples for training

`TrainableDataLabeler.fit` (labelers/base_data_labeler.py:761-876) up to the data handed to the preprocessor for every epoch, and the
samples of `train_structured_labeler` (labelers/data_labelers.py:53-72). Random permutations are parameters, as is
`int(num_samples * (1 - validation_split))`, which is at most the number of samples; setting labels, resetting weights and the model
are left out.
-/

namespace Verif.Training

open Verif

variable {X Y : Type}

/-- What `validation_split` is (base_data_labeler.py:806-807, 832): out of range, zero, or between. -/
inductive Split where
  | bad
  | zero
  | positive
  deriving DecidableEq

/-- `a[inds]`. -/
def take (a : List X) (inds : List ℕ) : List X := inds.filterMap fun i => a[i]?

/-- Data for one epoch: samples and labels to train with, and for validation. -/
abbrev Epoch (X Y : Type) := (List X × List Y) × Option (List X × List Y)

/-- The index of the split (base_data_labeler.py:824). -/
def splitIndex (keep : ℕ) : ℕ := max 1 keep

/-- Validation data (base_data_labeler.py:831-840). -/
def validation (split : Split) (c : ℕ) (x : List X) (y : List Y) : Option (List X × List Y) :=
  if split = .zero ∨ c < 2 then none else some (x.drop c, y.drop c)

/-- The epochs (base_data_labeler.py:824-875), of shuffled data. -/
def epochs (split : Split) (c : ℕ) (x : List X) (y : List Y) (perms : List (List ℕ)) : List (Epoch X Y) :=
  ((x.take c, y.take c), validation split c x y) :: perms.map fun p => ((take x p, take y p), validation split c x y)

/-- `fit`: a first permutation of all, and one of the training samples for every further epoch; `perms = none` for no epoch. -/
def fit (x : List X) (y : List Y) (split : Split) (keep : ℕ) (first : List ℕ) (perms : Option (List (List ℕ))) :
    Except Err (List (Epoch X Y)) :=
  if x.length = 0 ∨ y.length = 0 then .error .valueError
  else if x.length ≠ y.length then .error .valueError
  else if split = .bad then .error .valueError
  else
    match perms with
    | none => .ok []
    | some ps => .ok (epochs split (splitIndex keep) (take x first) (take y first) ps)

/-- `melt` (data_labelers.py:54-56): all cells, column by column, with the name of their column. -/
def melt {N C : Type} (columns : List (N × List C)) : List (C × N) :=
  columns.flatMap fun col => col.2.map fun cell => (cell, col.1)

end Verif.Training
