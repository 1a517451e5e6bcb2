import Verif.Model.Histogram
import Mathlib.Analysis.SpecialFunctions.Log.Basic
import Mathlib.Analysis.Real.Sqrt

/-!
# The t-test and the stability index of a difference of numeric columns

Models `NumericStatsMixin._perform_t_test`, `_preprocess_for_calculate_psi` and `_calculate_psi`
(`dataprofiler/profilers/numerical_column_stats.py:604-816`), which `diff` reports (numerical_column_stats.py:519-534), and `TextColumn.diff`
(`dataprofiler/profilers/text_column_profile.py:101-117`).

Means, variances and logarithms are real numbers, NaN is `none`; edges and counts are rationals. Warnings are not modelled. scipy's distribution
function of Student's t is the parameter `cdf`.
-/

namespace Verif.NumDiff

open Verif Verif.Histogram

/-- The dictionary with the results of the test; `None` is `none` (numerical_column_stats.py:613-617). -/
structure TTest where
  t : Option ℝ
  conservativeDf : Option ℝ
  conservativeP : Option ℝ
  welchDf : Option ℝ
  welchP : Option ℝ

/-- `(1 - t.cdf(abs(t))) * 2` (numerical_column_stats.py:658-661). -/
noncomputable def pValue (cdf : ℝ → ℝ → ℝ) (df t : ℝ) : ℝ := (1 - cdf df |t|) * 2

open Classical in
/-- `_perform_t_test` (numerical_column_stats.py:604-665); infinite means and variances are left out. -/
noncomputable def tTest (cdf : ℝ → ℝ → ℝ) (mean1 var1 : Option ℝ) (n1 : ℕ) (mean2 var2 : Option ℝ) (n2 : ℕ) : TTest :=
  match mean1, var1, mean2, var2 with
  | some m1, some v1, some m2, some v2 =>
    if n1 ≤ 1 ∨ n2 ≤ 1 ∨ (v1 = 0 ∧ v2 = 0) then ⟨none, none, none, none, none⟩
    else
      let sDelta := v1 / n1 + v2 / n2
      let t := (m1 - m2) / Real.sqrt sDelta
      let df : ℝ := ((min n1 n2 - 1 : ℕ) : ℝ)
      let welch := sDelta ^ 2 / ((v1 / n1) ^ 2 / ((n1 : ℝ) - 1) + (v2 / n2) ^ 2 / ((n2 : ℝ) - 1))
      ⟨some t, some df, some (pValue cdf df t), some welch, some (pValue cdf welch t)⟩
  | _, _, _, _ => ⟨none, none, none, none, none⟩

/-- The outcomes of `_preprocess_for_calculate_psi`: `(0, 0)`, histograms without edges, or two lists of counts. -/
inductive Prepared where
  | constant
  | missing
  | counts (c1 c2 : List ℚ)

/-- The histogram of the profile itself, re-binned unless it has ten bins (numerical_column_stats.py:704-720). -/
def selfCounts (isFloat : Bool) (h1 : Hist) (lo hi : ℚ) : Except Err (List ℚ) :=
  if h1.counts.length ≠ 10 then (regenerate h1.counts h1.edges 10 isFloat (some (lo, hi))).map fun r => r.1.counts else .ok h1.counts

/-- The histogram of the other profile, re-binned unless its edges are those of the profile (numerical_column_stats.py:722-747). -/
def otherCounts (isFloat : Bool) (h1 h2 : Hist) (lo hi : ℚ) : Except Err (List ℚ) :=
  if h2.edges ≠ h1.edges then (regenerate h2.counts h2.edges 10 isFloat (some (lo, hi))).map fun r => r.1.counts else .ok h2.counts

/-- `_preprocess_for_calculate_psi` (numerical_column_stats.py:667-749); a histogram whose arrays are `None` is `none`. -/
def prepare (isFloat : Bool) (h1 h2 : Option Hist) : Except Err Prepared :=
  match h1, h2 with
  | some h1, some h2 => do
    let e1 ← firstLast h1.edges
    let e2 ← firstLast h2.edges
    let lo := min e1.1 e2.1
    let hi := max e1.2 e2.2
    if lo = hi then .ok .constant
    else do
      let c1 ← selfCounts isFloat h1 lo hi
      let c2 ← otherCounts isFloat h1 h2 lo hi
      .ok (.counts c1 c2)
  | _, _ => .ok .missing

open Classical in
/-- One step of the loop (numerical_column_stats.py:803-814): what is added; a term is `+inf` (and skipped) if exactly one share is zero. -/
noncomputable def term (s o : ℝ) : ℝ := if s = 0 ∨ o = 0 then 0 else (o - s) * Real.log (o / s)

/-- The loop (numerical_column_stats.py:801-816). The match counts are taken to be positive: a column with a histogram has values. -/
noncomputable def psiLoop (n1 n2 : ℕ) (c2 : List ℚ) : ℕ → List ℚ → ℝ → Except Err ℝ
  | _, [], acc => .ok acc
  | i, c :: cs, acc => do
    let d ← idx c2 i
    psiLoop n1 n2 c2 (i + 1) cs (acc + term ((c : ℝ) / n1) ((d : ℝ) / n2))

/-- What the prepared histograms give (numerical_column_stats.py:787-816). -/
noncomputable def psiOf (n1 n2 : ℕ) : Prepared → Except Err (Option ℝ)
  | .constant => .ok (some 0)
  | .missing => .ok none
  | .counts c1 c2 => (psiLoop n1 n2 c2 0 c1 0).map some

/-- `_calculate_psi` (numerical_column_stats.py:751-816). -/
noncomputable def psi (isFloat : Bool) (n1 : ℕ) (h1 : Option Hist) (n2 : ℕ) (h2 : Option Hist) : Except Err (Option ℝ) := do
  let p ← prepare isFloat h1 h2
  psiOf n1 n2 p

/-- `TextColumn.diff` (text_column_profile.py:101-117): the index is computed with the rest and then deleted. -/
noncomputable def textDiff {α : Type} (rest : α) (n1 : ℕ) (h1 : Option Hist) (n2 : ℕ) (h2 : Option Hist) : Except Err α := do
  let _ ← psi false n1 h1 n2 h2
  .ok rest

end Verif.NumDiff
