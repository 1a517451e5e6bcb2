import Mathlib.Analysis.SpecialFunctions.Log.Basic
import Verif.Model.Basic
import Verif.Model.PyDict

/-!
# Population stability index of two categorical columns

Models the `psi` entry of `CategoricalColumn.diff` (`dataprofiler/profilers/categorical_column_profile.py`
lines 285-326 and 439-456). Floats are real numbers, `math.log` is the real logarithm. The order in which Python
iterates over the set of all categories is an argument. Sorting the two dictionaries first (lines 285-292) only
changes the order of summation and is left out.
-/

namespace Verif.Psi

open Verif

variable {K : Type} [DecidableEq K]

/-- One dictionary after `_preprocess_for_categorical_psi_calculation`
(categorical_column_profile.py:449-455): missing categories get count 0. -/
def pad (order : List K) (d : PyDict K ℕ) : PyDict K ℕ :=
  order.foldl (fun d k => if PyDict.has d k then d else PyDict.set d k 0) d

/-- One summand (categorical_column_profile.py:317-320). -/
noncomputable def term (p q : ℝ) : ℝ := if q ≠ 0 ∧ p ≠ 0 then (q - p) * Real.log (q / p) else 0

/-- The loop (categorical_column_profile.py:313-321) over the keys of the first dictionary, with its running
total. Dividing by an empty sample size raises. -/
noncomputable def loop (d2 : PyDict K ℕ) (n1 n2 : ℕ) : PyDict K ℕ → ℝ → Except Err ℝ
  | [], t => .ok t
  | (k, c) :: rest, t =>
    if n1 = 0 then .error .zeroDivision
    else match PyDict.get? d2 k with
      | none => .error .keyError
      | some c2 => if n2 = 0 then .error .zeroDivision else loop d2 n1 n2 rest (t + term ((c : ℝ) / n1) ((c2 : ℝ) / n2))

/-- The `psi` entry (categorical_column_profile.py:300-321), `none` when the loop never runs (the entry is only
written inside it). -/
noncomputable def psi (order : List K) (d1 : PyDict K ℕ) (n1 : ℕ) (d2 : PyDict K ℕ) (n2 : ℕ) : Except Err (Option ℝ) := do
  let a := pad order d1
  let b := pad order d2
  let t ← loop b n1 n2 a 0
  .ok (if a = [] then none else some t)

end Verif.Psi
