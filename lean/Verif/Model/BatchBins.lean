import Verif.Model.Basic
import Mathlib.Analysis.SpecialFunctions.Pow.Real
import Mathlib.Analysis.SpecialFunctions.Log.Base
import Mathlib.Analysis.Real.Sqrt
import Mathlib.Algebra.Order.Floor.Ring
import Mathlib.Data.List.Sort

/-!
# How many bins are suggested for a batch of values

Models `_get_bin_edges` (dataprofiler/profilers/histogram_utils.py:239-313) as the histogram of a column calls it: a name of a rule, no range, no
weights (numerical_column_stats.py:1305-1307). The widths are those of numpy's selectors, which the function imports (histogram_utils.py:13-18);
they are written here as numpy 1.x has them.

The values are real numbers: infinities are dropped before (numerical_column_stats.py:1349), rounding is left out. The rule `stone`, which numpy has
but the options refuse (profiler_options.py:252), is left out.
-/

namespace Verif.BatchBins

open Verif

/-- `x.min()`. -/
noncomputable def least (vs : List ℝ) : ℝ := vs.foldl min (vs.headD 0)

/-- `x.max()`. -/
noncomputable def greatest (vs : List ℝ) : ℝ := vs.foldl max (vs.headD 0)

/-- `_ptp(x)` of numpy, the difference of the extremes. -/
noncomputable def spread (vs : List ℝ) : ℝ := greatest vs - least vs

/-- `np.mean(x)`. -/
noncomputable def average (vs : List ℝ) : ℝ := vs.sum / vs.length

/-- `np.std(x)`. -/
noncomputable def sigma (vs : List ℝ) : ℝ := Real.sqrt (average (vs.map fun x => (x - average vs) * (x - average vs)))

open Classical in
/-- `np.percentile(x, q)`: linear interpolation between the sorted values. -/
noncomputable def percentile (q : ℝ) (vs : List ℝ) : ℝ :=
  let s := vs.mergeSort (fun x y => decide (x ≤ y))
  let pos := q / 100 * ((vs.length : ℝ) - 1)
  let i := ⌊pos⌋₊
  s.getD i 0 + (s.getD (min (i + 1) (vs.length - 1)) 0 - s.getD i 0) * (pos - i)

/-- `_hist_bin_sqrt`. -/
noncomputable def wSqrt (vs : List ℝ) : ℝ := spread vs / Real.sqrt vs.length

/-- `_hist_bin_sturges`. -/
noncomputable def wSturges (vs : List ℝ) : ℝ := spread vs / (Real.logb 2 vs.length + 1)

/-- `_hist_bin_rice`. -/
noncomputable def wRice (vs : List ℝ) : ℝ := spread vs / (2 * (vs.length : ℝ) ^ (1 / 3 : ℝ))

/-- `_hist_bin_scott`. -/
noncomputable def wScott (vs : List ℝ) : ℝ := (24 * Real.pi ^ (1 / 2 : ℝ) / vs.length) ^ (1 / 3 : ℝ) * sigma vs

open Classical in
/-- `_hist_bin_doane`. -/
noncomputable def wDoane (vs : List ℝ) : ℝ :=
  let n : ℝ := vs.length
  if 2 < vs.length then
    if 0 < sigma vs then
      let g1 := average (vs.map fun x => ((x - average vs) / sigma vs) ^ 3)
      let sg1 := Real.sqrt (6 * (n - 2) / ((n + 1) * (n + 3)))
      spread vs / (1 + Real.logb 2 n + Real.logb 2 (1 + |g1| / sg1))
    else 0
  else 0

/-- `_hist_bin_fd`. -/
noncomputable def wFd (vs : List ℝ) : ℝ := 2 * (percentile 75 vs - percentile 25 vs) * (vs.length : ℝ) ^ (-1 / 3 : ℝ)

open Classical in
/-- `_hist_bin_auto`. -/
noncomputable def wAuto (vs : List ℝ) : ℝ := if wFd vs ≠ 0 then min (wFd vs) (wSturges vs) else wSturges vs

/-- `_hist_bin_selectors`, without `stone`. -/
noncomputable def selector (m : String) : Option (List ℝ → ℝ) :=
  if m = "auto" then some wAuto
  else if m = "doane" then some wDoane
  else if m = "fd" then some wFd
  else if m = "rice" then some wRice
  else if m = "scott" then some wScott
  else if m = "sqrt" then some wSqrt
  else if m = "sturges" then some wSturges
  else none

open Classical in
/-- `_get_outer_edges(a, None)` of numpy: equal edges are moved apart. -/
noncomputable def outerEdges (vs : List ℝ) : ℝ × ℝ :=
  if vs = [] then (0, 1)
  else if least vs = greatest vs then (least vs - 1 / 2, greatest vs + 1 / 2)
  else (least vs, greatest vs)

open Classical in
/-- `_get_bin_edges(values, m, None, None)[1]` (histogram_utils.py:239-313). -/
noncomputable def batchBins (m : String) (vs : List ℝ) : Except Err ℤ :=
  match selector m with
  | none => .error .valueError
  | some f =>
    let e := outerEdges vs
    if vs = [] then .ok 1
    else if f vs ≠ 0 then .ok ⌈(e.2 - e.1) / f vs⌉
    else .ok 1

/-- The estimate a column uses (numerical_column_stats.py:1305-1307); the value for an unknown rule stands for the exception. -/
noncomputable def estimate (m : String) (vs : List ℚ) : ℕ :=
  match batchBins m (vs.map fun q : ℚ => (q : ℝ)) with
  | .ok k => k.toNat
  | .error _ => 1

end Verif.BatchBins
