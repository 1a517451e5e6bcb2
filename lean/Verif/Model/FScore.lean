import Mathlib.Data.Rat.Defs
import Mathlib.Data.List.FinRange
import Mathlib.Algebra.Order.Field.Rat
import Mathlib.Algebra.Order.AbsoluteValue.Basic
import Verif.Model.Basic

/-!
# The metric of training

`FBetaScore` and `F1Score` (dataprofiler/labelers/labeler_utils.py:271-435, 438-497), the Keras metric by which labelers of text are
trained.

Simplifications
* numbers are rationals, not 32-bit floats;
* labels and predictions are given as samples with one number for each class, so tensors that do not fit together are left out; for
  tensors with more axes and `micro`, a sample is a vector along the last axis;
* the name of the metric, the type of its numbers and Keras' own bookkeeping are left out.
-/

namespace Verif.FScore

open Verif

/-- Ways of averaging. -/
inductive Average where
  | micro
  | macro
  | weighted
  deriving DecidableEq

/-- A number given as an argument: Python distinguishes integers from floats. -/
inductive Num where
  | int (z : ℤ)
  | float (q : ℚ)
  deriving DecidableEq

/-- The attributes of a metric. -/
structure Metric where
  classes : ℕ
  average : Option Average
  beta : ℚ
  threshold : Option ℚ
  deriving DecidableEq

/-- The check of `average` (labeler_utils.py:330-334). -/
def averageOf : Option String → Except Err (Option Average)
  | none => .ok none
  | some s =>
    if s = "micro" then .ok (some .micro)
    else if s = "macro" then .ok (some .macro)
    else if s = "weighted" then .ok (some .weighted)
    else .error .valueError

/-- The check of `beta` (labeler_utils.py:336-340). -/
def betaOf : Num → Except Err ℚ
  | .int _ => .error .typeError
  | .float q => if q ≤ 0 then .error .valueError else .ok q

/-- The check of `threshold` (labeler_utils.py:342-346). -/
def thresholdOf : Option Num → Except Err (Option ℚ)
  | none => .ok none
  | some (.int _) => .error .typeError
  | some (.float q) => if 1 < q ∨ q ≤ 0 then .error .valueError else .ok (some q)

/-- `FBetaScore.__init__` (labeler_utils.py:317-352). -/
def make (n : ℕ) (average : Option String) (beta : Num) (threshold : Option Num) : Except Err Metric :=
  match averageOf average with
  | .error e => .error e
  | .ok a =>
    match betaOf beta with
    | .error e => .error e
    | .ok b =>
      match thresholdOf threshold with
      | .error e => .error e
      | .ok t => .ok ⟨n, a, b, t⟩

/-- `F1Score.__init__` (labeler_utils.py:480-490). -/
def makeF1 (n : ℕ) (average : Option String) (threshold : Option Num) : Except Err Metric := make n average (.float 1) threshold

/-- Labels and predictions of one sample. -/
structure Sample (n : ℕ) where
  truth : Fin n → ℚ
  pred : Fin n → ℚ

/-- The counts of a metric (labeler_utils.py:364-367): one number for each class, or one number. -/
structure State where
  tp : List ℚ
  fp : List ℚ
  fn : List ℚ
  support : List ℚ
  deriving DecidableEq

/-- Numbers for each class, summed up for `micro` (labeler_utils.py:351-356, 388-391). -/
def reduced (m : Metric) (f : Fin m.classes → ℚ) : List ℚ :=
  if m.average = some .micro then [((List.finRange m.classes).map f).sum] else (List.finRange m.classes).map f

/-- A new metric (labeler_utils.py:358-367). -/
def start (m : Metric) : State := ⟨reduced m 0, reduced m 0, reduced m 0, reduced m 0⟩

/-- The largest prediction of a sample, `tf.reduce_max`. -/
def largest {n : ℕ} (p : Fin n → ℚ) : ℚ :=
  match (List.finRange n).map p with
  | [] => 0
  | a :: t => t.foldl max a

/-- The classes predicted (labeler_utils.py:377-383, 386). -/
def predicted {n : ℕ} (threshold : Option ℚ) (p : Fin n → ℚ) (i : Fin n) : ℚ :=
  match threshold with
  | none => if p i ≥ largest p ∧ |p i| > 1 / 1000000000000 then 1 else 0
  | some t => if p i > t then 1 else 0

/-- Samples with their weights: `tf.math.multiply` spreads a single weight and a single sample (labeler_utils.py:388-390). -/
def weigh {n : ℕ} (samples : List (Sample n)) : Option (List ℚ) → Except Err (List (ℚ × Sample n))
  | none => .ok (samples.map fun s => (1, s))
  | some ws =>
    if ws.length = samples.length then .ok (ws.zip samples)
    else
      match ws, samples with
      | [w], samples => .ok (samples.map fun s => (w, s))
      | ws, [s] => .ok (ws.map fun w => (w, s))
      | _, _ => .error .valueError

/-- `_weighted_sum` (labeler_utils.py:388-391). -/
def weightedSum (m : Metric) (l : List (ℚ × Sample m.classes)) (val : Sample m.classes → Fin m.classes → ℚ) : List ℚ :=
  reduced m fun i => (l.map fun x => val x.2 i * x.1).sum

/-- `assign_add`. -/
def added (a b : List ℚ) : List ℚ := List.zipWith (· + ·) a b

/-- `update_state` (labeler_utils.py:369-399). -/
def update (m : Metric) (samples : List (Sample m.classes)) (weights : Option (List ℚ)) (s : State) : Except Err State :=
  match weigh samples weights with
  | .error e => .error e
  | .ok l => .ok
    ⟨added s.tp (weightedSum m l fun x i => predicted m.threshold x.pred i * x.truth i),
      added s.fp (weightedSum m l fun x i => predicted m.threshold x.pred i * (1 - x.truth i)),
      added s.fn (weightedSum m l fun x i => (1 - predicted m.threshold x.pred i) * x.truth i),
      added s.support (weightedSum m l fun x i => x.truth i)⟩

/-- Several batches, one after the other. -/
def updates (m : Metric) : List (List (Sample m.classes) × Option (List ℚ)) → State → Except Err State
  | [], s => .ok s
  | (samples, weights) :: t, s =>
    match update m samples weights s with
    | .error e => .error e
    | .ok s' => updates m t s'

/-- `tf.math.divide_no_nan`. -/
def divNoNan (x y : ℚ) : ℚ := if y = 0 then 0 else x / y

/-- The score of one entry (labeler_utils.py:403-413). -/
def score (beta tp fp fn : ℚ) : ℚ :=
  let precision := divNoNan tp (tp + fp)
  let recall := divNoNan tp (tp + fn)
  divNoNan (precision * recall) (beta ^ 2 * precision + recall) * (1 + beta ^ 2)

/-- The scores of all entries. -/
def scores (beta : ℚ) : List ℚ → List ℚ → List ℚ → List ℚ
  | a :: s, b :: t, c :: u => score beta a b c :: scores beta s t u
  | _, _, _ => []

/-- What is returned: a vector or a number. -/
inductive Result where
  | vector (l : List ℚ)
  | number (q : ℚ)
  deriving DecidableEq

/-- `result` (labeler_utils.py:401-424). -/
def result (m : Metric) (s : State) : Result :=
  let f := scores m.beta s.tp s.fp s.fn
  match m.average with
  | some .weighted => .number (List.zipWith (· * ·) f (s.support.map fun w => divNoNan w s.support.sum)).sum
  | some _ => .number (f.sum / f.length)
  | none => .vector f

/-- `get_config` (labeler_utils.py:426-435): what a metric can be made from again. -/
def config (m : Metric) : ℕ × Option String × Num × Option Num :=
  (m.classes, m.average.map fun
    | .micro => "micro"
    | .macro => "macro"
    | .weighted => "weighted", .float m.beta, m.threshold.map .float)

/-- `F1Score.get_config` (labeler_utils.py:492-497). -/
def configF1 (m : Metric) : ℕ × Option String × Option Num := ((config m).1, (config m).2.1, (config m).2.2.2)

end Verif.FScore
