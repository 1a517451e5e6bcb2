import Mathlib.Data.Real.Basic
import Verif.Model.Basic
import Verif.Model.PyDict

/-!
# Chi-squared test for homogeneity

Models `perform_chi_squared_test_for_homogeneity` (dataprofiler/profilers/profiler_utils.py:723-787)
and `StructuredProfiler._update_chi2` (dataprofiler/profilers/profile_builder.py:2552-2587).
Simplification: floats are exact reals; the distribution function of scipy is a parameter.
-/

namespace Verif.ChiSquared

open Verif

variable {K : Type} [DecidableEq K]

/-- `add_nested_dictionaries` on two flat count dictionaries (profiler_utils.py:291-320). -/
def addCounts (c1 c2 : PyDict K ℕ) : PyDict K ℕ :=
  (c1.map fun kv => match PyDict.get? c2 kv.1 with
    | some w => (kv.1, kv.2 + w)
    | none => kv) ++ c2.filter fun kv => !PyDict.has c1 kv.1

/-- A float that may be infinite. -/
inductive Stat where
  | fin (x : ℝ)
  | inf

/-- The result dictionary (profiler_utils.py:738-742); `none` is `None`. -/
structure Result where
  stat : Option Stat
  df : Option ℕ
  pval : Option ℝ

/-- One iteration of the statistic loop (profiler_utils.py:773-778). -/
noncomputable def term (c1 : PyDict K ℕ) (n1 : ℕ) (c2 : PyDict K ℕ) (n2 : ℕ) (cat : K) (count : ℕ) : ℝ :=
  let total : ℝ := ((n1 + n2 : ℕ) : ℝ)
  let expected1 : ℝ := n1 * count / total
  let expected2 : ℝ := n2 * count / total
  ((PyDict.getD c1 cat 0 : ℕ) - expected1) ^ 2 / expected1 +
    ((PyDict.getD c2 cat 0 : ℕ) - expected2) ^ 2 / expected2

/-- `perform_chi_squared_test_for_homogeneity` (profiler_utils.py:723-787); `cdf df x` is
`scipy.stats.chi2(df).cdf(x)`. -/
noncomputable def chi2Test (cdf : ℕ → ℝ → ℝ) (c1 : PyDict K ℕ) (n1 : ℕ) (c2 : PyDict K ℕ) (n2 : ℕ) :
    Result :=
  let cat := addCounts c1 c2
  if cat.length ≤ 1 then ⟨none, none, none⟩
  else
    let df := cat.length - 1
    if (n1 = 0 ∨ n2 = 0) ∨ 0 ∈ PyDict.values cat then ⟨some .inf, some df, some 0⟩
    else
      let stat := (cat.map fun kv => term c1 n1 c2 n2 kv.1 kv.2).sum
      ⟨some (.fin stat), some df, some (1 - cdf df stat)⟩

/-- What `_update_chi2` reads of a column (profile_builder.py:2567-2585): is it categorical, its
counts and its sample size. -/
structure Col (K : Type) where
  isMatch : Bool
  counts : PyDict K ℕ
  size : ℕ

/-- A matrix of floats, `none` = NaN. -/
abbrev Mat := ℕ → ℕ → Option ℝ

/-- `m[i][j] = x`. -/
def Mat.put (m : Mat) (i j : ℕ) (x : Option ℝ) : Mat :=
  fun a b => if a = i ∧ b = j then x else m a b

/-- Body of the inner loop (profile_builder.py:2571-2585). -/
noncomputable def innerStep (cdf : ℕ → ℝ → ℝ) (cols : List (Col K)) (c1 : Col K) (i : ℕ) (m : Mat) (j : ℕ) :
    Mat :=
  if i = j then m.put i j (some 1)
  else match cols[j]? with
    | none => m
    | some c2 =>
      if c2.isMatch then
        let p := (chi2Test cdf c1.counts c1.size c2.counts c2.size).pval
        (m.put i j p).put j i p
      else m

/-- Body of the outer loop (profile_builder.py:2565-2585). -/
noncomputable def outerStep (cdf : ℕ → ℝ → ℝ) (cols : List (Col K)) (m : Mat) (i : ℕ) : Mat :=
  match cols[i]? with
  | none => m
  | some c1 =>
    if c1.isMatch then (List.range' i (cols.length - i)).foldl (innerStep cdf cols c1 i) m
    else m

/-- `_update_chi2` (profile_builder.py:2552-2587): a NaN matrix, filled in. Assigning `None` to a
numpy float entry stores NaN. -/
noncomputable def chi2Matrix (cdf : ℕ → ℝ → ℝ) (cols : List (Col K)) : Mat :=
  (List.range cols.length).foldl (outerStep cdf cols) (fun _ _ => none)

end Verif.ChiSquared
