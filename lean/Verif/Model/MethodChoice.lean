import Verif.Model.Basic
import Mathlib.Algebra.Order.Field.Rat
import Mathlib.Algebra.BigOperators.Group.List.Basic
import Mathlib.Data.Rat.Defs

/-!
# The choice of a method for binning

Models `_histogram_loss` (dataprofiler/profilers/numerical_column_stats.py:1175-1195), `_select_method_for_histogram`
(numerical_column_stats.py:1197-1240), `_estimate_stats_from_histogram` (1116-1123) and `_total_histogram_bin_variance` (1125-1143) of a
numeric column.

Simplifications: exact arithmetic; a method occurs once in the list of methods.
-/

namespace Verif.MethodChoice

open Verif

/-- An entry of `histogram_methods` (numerical_column_stats.py:111-117). -/
structure Method where
  name : String
  bins : ℤ
  current : ℚ := 0
  total : ℚ := 0
  deriving DecidableEq, Repr

/-- `a.mean()`. -/
def mean (l : List ℚ) : ℚ := l.sum / l.length

/-- `_histogram_loss` (numerical_column_stats.py:1175-1195). -/
def loss (diff avgDiff total avgTotal run avgRun : ℚ) : ℚ :=
  (if avgDiff > 0 then (diff - avgDiff) / avgDiff else 0) + (if avgTotal > 0 then (total - avgTotal) / avgTotal else 0) +
    (if run - avgRun ≥ 1 then (run - avgRun) / avgRun else 0)

/-- What is measured for the methods, in their order. -/
structure Measures where
  diff : List ℚ
  total : List ℚ
  run : List ℚ
  deriving DecidableEq, Repr

/-- The loss of the method at an index (numerical_column_stats.py:1213-1220). -/
def lossAt (q : Measures) (i : ℕ) : Except Err ℚ :=
  match q.diff[i]?, q.total[i]?, q.run[i]? with
  | some d, some t, some r => .ok (loss d (mean q.diff) t (mean q.total) r (mean q.run))
  | _, _, _ => .error .indexError

/-- The comparison with the best so far (numerical_column_stats.py:1225-1238); none is infinitely bad. -/
def better (best : Option Method) (m : Method) : Option Method :=
  match best with
  | none => some m
  | some b =>
    if b.total ≥ m.total then
      if m.bins ≤ b.bins ∧ b.total = m.total then some b else some m
    else some b

/-- The loop (numerical_column_stats.py:1212-1238). -/
def loop (q : Measures) : ℕ → Option Method → List Method → Except Err (Option Method) × List Method
  | _, best, [] => (.ok best, [])
  | i, best, m :: ms =>
    match lossAt q i with
    | .error e => (.error e, m :: ms)
    | .ok l =>
      let m' := { m with current := l, total := m.total + l }
      let r := loop q (i + 1) (better best m') ms
      (r.1, m' :: r.2)

/-- `_select_method_for_histogram` (numerical_column_stats.py:1197-1240): the name selected, and the methods afterwards. -/
def select (exact : ℚ) (est total run : List ℚ) (ms : List Method) : Except Err String × List Method :=
  let r := loop ⟨est.map fun e => |exact - e|, total, run⟩ 0 none ms
  (r.1.map fun b => match b with
    | some m => m.name
    | none => "", r.2)

/-! ### Variances -/

/-- The middles of the bins. -/
def mids (edges : List ℚ) : List ℚ := List.zipWith (fun a b => (1 / 2) * (b + a)) edges edges.tail

/-- `np.average(a, weights=w)`. -/
def average (a w : List ℚ) : Except Err ℚ :=
  if a.length ≠ w.length then .error .typeError
  else if w.sum = 0 then .error .zeroDivision
  else .ok ((List.zipWith (fun x y => x * y) a w).sum / w.sum)

/-- `_estimate_stats_from_histogram` (numerical_column_stats.py:1116-1123). -/
def estimate (counts edges : List ℚ) : Except Err ℚ :=
  match average (mids edges) counts with
  | .error e => .error e
  | .ok m => average ((mids edges).map fun x => (x - m) ^ 2) counts

/-- `a.var()`; none is not a number. An array divides by the number of values, a series by one less (`ddof`). -/
def var (ddof : ℕ) (l : List ℚ) : Option ℚ :=
  if l.length ≤ ddof then none else some ((l.map fun x => (x - mean l) ^ 2).sum / (l.length - ddof : ℕ))

/-- The last edge is moved up (numerical_column_stats.py:1132-1134). -/
def moved (edges : List ℚ) : List ℚ := edges.modify (edges.length - 1) (· + 1 / 1000)

/-- `np.digitize(x, edges)` of increasing edges. -/
def digitize (edges : List ℚ) (x : ℚ) : ℕ := (edges.filter fun e => decide (e ≤ x)).length

/-- The bins that are not empty, counted from one (numerical_column_stats.py:1138). -/
def nonZero (counts : List ℚ) : List ℕ :=
  ((List.range counts.length).filter fun i => decide (counts.getD i 0 ≠ 0)).map (· + 1)

/-- `sum += value`, where not a number stays so. -/
def addUp (a b : Option ℚ) : Option ℚ :=
  match a, b with
  | some x, some y => some (x + y)
  | _, _ => none

/-- `_total_histogram_bin_variance` (numerical_column_stats.py:1125-1143). -/
def totalVariance (ddof : ℕ) (counts edges xs : List ℚ) : Option ℚ :=
  (nonZero counts).foldl (fun acc i => addUp acc (var ddof (xs.filter fun x => decide (digitize (moved edges) x = i)))) (some 0)

end Verif.MethodChoice
