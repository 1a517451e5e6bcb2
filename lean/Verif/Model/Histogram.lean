import Mathlib.Data.Rat.Floor
import Mathlib.Algebra.Order.Field.Rat
import Mathlib.Algebra.BigOperators.Group.List.Basic
import Verif.Model.Basic

/-!
# Histograms of numeric columns

Models the histogram part of `dataprofiler/profilers/numerical_column_stats.py`
(`NumericStatsMixin`).

Simplifications
* floats are exact rationals; data values are finite (`_update_histogram` drops infinities and NaN,
  numerical_column_stats.py:1349);
* `np.linspace`, `np.interp`, `np.histogram`, `np.round`, `np.cumsum` are modelled by their documented
  results; `np.interp` is only modelled for the sorted abscissae numpy documents it for;
* the number of bins proposed by numpy's estimators is an argument (any positive number);
* the per-method bookkeeping (`histogram_methods[...]["total_loss"]`) is modelled only in
  `bestHistogram`.
-/

namespace Verif.Histogram

open Verif

/-- Python's built-in `round` and `np.round` to an integer: half to even. -/
def pyRound (x : ℚ) : ℤ :=
  if x - ⌊x⌋ < 1 / 2 then ⌊x⌋
  else if 1 / 2 < x - ⌊x⌋ then ⌊x⌋ + 1
  else if ⌊x⌋ % 2 = 0 then ⌊x⌋ else ⌊x⌋ + 1

/-- List indexing that raises `IndexError` (only non-negative indices occur). -/
def idx {α : Type} (l : List α) (i : ℕ) : Except Err α :=
  match l[i]? with
  | some x => .ok x
  | none => .error .indexError

/-- `array[i] += x`. -/
def addAt (l : List ℚ) (i : ℕ) (x : ℚ) : Except Err (List ℚ) :=
  match l[i]? with
  | some y => .ok (l.set i (y + x))
  | none => .error .indexError

/-- A histogram dictionary `{"bin_counts", "bin_edges"}`. -/
structure Hist where
  counts : List ℚ
  edges : List ℚ
  deriving DecidableEq, Repr

/-- Loop variables of `_assimilate_histogram` (numerical_column_stats.py:1431-1432). -/
structure AState where
  newId : ℕ
  dest : List ℚ
  loss : ℚ
  deriving DecidableEq, Repr

/-- The `while` loop of `_assimilate_histogram` (numerical_column_stats.py:1440-1444). -/
def advance (dest : List ℚ) (n : ℕ) (e0 : ℚ) (k : ℕ) : Except Err ℕ :=
  match dest[k + 1]? with
  | none => .error .indexError
  | some r => if r ≤ e0 ∧ k + 1 < n then advance dest n e0 (k + 1) else .ok k
termination_by n - k

/-- The squared distance of bin midpoints used for the loss
(numerical_column_stats.py:1453-1456, 1464-1467, 1473-1476). -/
def midLoss (l r e0 e1 : ℚ) : ℚ := (((r + l) - (e1 + e0)) / 2) ^ 2

/-- The branch "current bin straddles two of the new bins" (numerical_column_stats.py:1457-1479). -/
def straddle (destEdges : List ℚ) (e0 e1 c l r : ℚ) (k : ℕ) (s : AState) : Except Err AState := do
  let pct := (r - e0) / (e1 - e0)
  let left : ℚ := pyRound (c * pct)
  let d1 ← addAt s.dest k left
  let loss1 := s.loss + midLoss l r e0 e1 * left
  let d2 ← addAt d1 (k + 1) (c - left)
  let r2 ← idx destEdges (k + 2)
  .ok ⟨k + 1, d2, loss1 + midLoss r r2 e0 e1 * (c - left)⟩

/-- The three branches once the destination bin `k` is known
(numerical_column_stats.py:1446-1479). -/
def place (destEdges : List ℚ) (n : ℕ) (e0 e1 c : ℚ) (k : ℕ) (s : AState) : Except Err AState := do
  let l ← idx destEdges k
  let r ← idx destEdges (k + 1)
  if e1 < r ∨ k + 1 = n then
    let d ← addAt s.dest k c
    .ok ⟨k, d, s.loss + midLoss l r e0 e1 * c⟩
  else if e0 < r then straddle destEdges e0 e1 c l r k s
  else .ok { s with newId := k }

/-- One iteration of the `for` loop (numerical_column_stats.py:1433-1479). -/
def aStep (destEdges : List ℚ) (n : ℕ) (e0 e1 c : ℚ) (s : AState) : Except Err AState :=
  if c = 0 then .ok s
  else do
    let k ← advance destEdges n e0 s.newId
    place destEdges n e0 e1 c k s

/-- The `for` loop: `fromEdges` starts at the left edge of the first remaining bin. -/
def aLoop (destEdges : List ℚ) (n : ℕ) : List ℚ → List ℚ → AState → Except Err AState
  | [], _, s => .ok s
  | c :: cs, e0 :: e1 :: es, s => do
    let s' ← aStep destEdges n e0 e1 c s
    aLoop destEdges n cs (e1 :: es) s'
  | c :: cs, es, s => if c = 0 then aLoop destEdges n cs es s else .error .indexError

/-- `_assimilate_histogram` (numerical_column_stats.py:1399-1484): counts of the destination array
after the call, and the loss. -/
def assimilate (fromCounts fromEdges destCounts destEdges : List ℚ) (n : ℕ) :
    Except Err (List ℚ × ℚ) := do
  let s ← aLoop destEdges n fromCounts fromEdges ⟨0, destCounts, 0⟩
  .ok (s.dest, s.loss)

/-- `np.linspace(a, b, n + 1)`. -/
def linspace (a b : ℚ) (n : ℕ) : List ℚ :=
  (List.range (n + 1)).map fun i : ℕ => a + (i : ℚ) * ((b - a) / n)

/-- First and last elements `a[0]`, `a[-1]`. -/
def firstLast (l : List ℚ) : Except Err (ℚ × ℚ) :=
  match l.head?, l.getLast? with
  | some a, some b => .ok (a, b)
  | _, _ => .error .indexError

/-- `_regenerate_histogram` (numerical_column_stats.py:1368-1397); `range` is the optional
`options` dictionary with `min_edge` and `max_edge`. -/
def regenerate (counts edges : List ℚ) (n : ℕ) (isFloat : Bool) (range : Option (ℚ × ℚ)) :
    Except Err (Hist × ℚ) := do
  let fl ← firstLast edges
  let ab := range.getD fl
  let newEdges := linspace ab.1 ab.2 n
  let edges' := if isFloat then edges else edges.map fun e => (pyRound e : ℚ)
  let r ← assimilate counts edges' (List.replicate n 0) newEdges n
  .ok (⟨r.1, newEdges⟩, r.2)

/-- The bin edges of the merged histogram (numerical_column_stats.py:201-226): the merged profile's
own minimum and maximum when known, otherwise the outermost edges. -/
def mergedRange (min max : Option ℚ) (e1 e2 : List ℚ) : Except Err (ℚ × ℚ) := do
  let a ← firstLast e1
  let b ← firstLast e2
  .ok (min.getD (Min.min a.1 b.1), max.getD (Max.max a.2 b.2))

/-- The stored histogram after `_add_helper_merge_profile_histograms`
(numerical_column_stats.py:145-264): `n` is `ideal_count_of_bins`, `min`/`max` those of the merged
profile. The second component is the aggregated loss. -/
def mergeHist (h1 h2 : Hist) (n : ℕ) (min max : Option ℚ) : Except Err (Hist × ℚ) := do
  let r ← mergedRange min max h1.edges h2.edges
  let edges := linspace r.1 r.2 n
  let a ← assimilate h1.counts h1.edges (List.replicate n 0) edges n
  let b ← assimilate h2.counts h2.edges a.1 edges n
  .ok (⟨b.1, edges⟩, a.2 + b.2)

/-- `ideal_count_of_bins` and the intersection of bin methods
(numerical_column_stats.py:161-190); `m1`, `m2` are the method lists and `u1`, `u2` the
user-set bin counts (`None`/0 are falsy). -/
def mergeBinCount (m1 m2 : List String) (u1 u2 : Option ℕ) (minBins : ℕ) :
    Except Err (List String × ℕ) :=
  let ms := m1.filter fun x => m2.contains x
  if ms.isEmpty then .error .valueError
  else match u1, u2 with
    | some a, some b => if a ≠ 0 ∧ b ≠ 0 then .ok (ms, Max.max a b) else .ok (ms, minBins)
    | _, _ => .ok (ms, minBins)

/-! ## Percentiles -/

/-- `np.cumsum`, starting from `acc`. -/
def cumsum (acc : ℚ) : List ℚ → List ℚ
  | [] => []
  | x :: xs => (acc + x) :: cumsum (acc + x) xs

/-- `np.interp(x, xp, fp)` on sorted points `(xp, fp)`. -/
def interp : List (ℚ × ℚ) → ℚ → ℚ
  | [], _ => 0
  | [p], _ => p.2
  | p :: q :: rest, x =>
    if x < p.1 then p.2
    else if x < q.1 then p.2 + (q.2 - p.2) / (q.1 - p.1) * (x - p.1)
    else interp (q :: rest) x

/-- The amount added to the cumulated counts of empty bins (numerical_column_stats.py:1579). -/
def tinyStep : ℚ := 1 / 10 ^ 15

/-- The tolerance used to recognise a cumulated count of one half
(numerical_column_stats.py:1574, 1717). -/
def halfTol : ℚ := 1 / 10 ^ 10

/-- The edges whose cumulated count is one half (numerical_column_stats.py:1574-1576). -/
def halfEdges (counts edges : List ℚ) : List ℚ :=
  let cum := cumsum 0 (counts.map (· / counts.sum))
  ((cum.zip edges.tail).filter fun p => decide (|p.1 - 1 / 2| < halfTol)).map Prod.snd

/-- The average of several half edges, if there is more than one
(numerical_column_stats.py:1573-1576). -/
def medianValue (counts edges : List ℚ) : Option ℚ :=
  let he := halfEdges counts edges
  if 1 < he.length then some (he.sum / he.length) else none

/-- The points `(cumsum_bin_counts, bin_edges)` given to `np.interp`
(numerical_column_stats.py:1568-1584). -/
def cdfPoints (counts edges : List ℚ) : List (ℚ × ℚ) :=
  let cum := cumsum 0 (counts.map (· / counts.sum))
  let cum' := List.zipWith (fun c x => if c = 0 then x + tinyStep else x) counts cum
  (0 :: cum').zip edges

/-- One entry of `_get_percentile`. `if median_value:` is Python truthiness. -/
def percentile1 (counts edges : List ℚ) (p : ℚ) : ℚ :=
  match medianValue counts edges with
  | some m => if m ≠ 0 ∧ p = 50 then m else interp (cdfPoints counts edges) (p / 100)
  | none => interp (cdfPoints counts edges) (p / 100)

/-- `_get_percentile` (numerical_column_stats.py:1553-1589). -/
def percentiles (h : Hist) (ps : List ℚ) : List ℚ := ps.map (percentile1 h.counts h.edges)

/-- `_get_quantiles` (numerical_column_stats.py:1723-1732); `np.linspace(0, 100, n + 1)[1:-1]`. -/
def quantiles (h : Hist) (n : ℕ) : List ℚ :=
  percentiles h ((linspace 0 100 n).tail.dropLast)

/-- `median` (numerical_column_stats.py:558-567) when a histogram exists and it is enabled. -/
def median (h : Hist) : ℚ := percentile1 h.counts h.edges 50

/-! ## Mode -/

/-- Loop variables of `_estimate_mode_from_histogram`: `cur_max`, `highest_idxs` (`count` is its
length, see `modeStep`). -/
structure MState where
  curMax : ℚ
  idxs : List ℕ
  count : ℕ

/-- One iteration (numerical_column_stats.py:1099-1107). -/
def modeStep (topK : ℕ) (s : MState) (i : ℕ) (c : ℚ) : MState :=
  if s.curMax < c then ⟨c, [i], 1⟩
  else if c = s.curMax ∧ s.count < topK then ⟨s.curMax, s.idxs ++ [i], s.count + 1⟩
  else s

/-- The loop over the bins, from index `i` on. -/
def modeLoop (topK : ℕ) : ℕ → List ℚ → MState → MState
  | _, [], s => s
  | i, c :: cs, s => modeLoop topK (i + 1) cs (modeStep topK s i c)

/-- `_estimate_mode_from_histogram` (numerical_column_stats.py:1082-1114). -/
def modes (h : Hist) (topK : ℕ) : Except Err (List ℚ) :=
  (modeLoop topK 0 h.counts ⟨-1, [], 0⟩).idxs.mapM fun i => do
    let a ← idx h.edges i
    let b ← idx h.edges (i + 1)
    .ok ((a + b) / 2)

/-! ## Building the histogram from values -/

/-- Number of values in each of the bins given by consecutive edges; all half open but the last
one, which is closed (`np.histogram`). -/
def binValues (vs : List ℚ) : List ℚ → List ℕ
  | [] => []
  | [_] => []
  | [a, b] => [vs.countP fun v => decide (a ≤ v ∧ v ≤ b)]
  | a :: b :: c :: es => (vs.countP fun v => decide (a ≤ v ∧ v < b)) :: binValues vs (b :: c :: es)

/-- A histogram with integer counts, as `np.histogram` returns it. -/
structure IHist where
  counts : List ℕ
  edges : List ℚ
  deriving DecidableEq, Repr

/-- `_get_histogram` (numerical_column_stats.py:1267-1320) on non-empty values; `n` is
`n_equal_bins`. -/
def getHistogram (vs : List ℚ) (n : ℕ) : IHist :=
  let lo := vs.foldl Min.min (vs.headD 0)
  let hi := vs.foldl Max.max (vs.headD 0)
  if lo = hi then ⟨[vs.length], [lo, lo]⟩
  else
    let es := linspace lo hi n
    ⟨binValues vs es, es⟩

/-- `[[left_edge] * count ...]` for all bins but the last, then the last bin split over its two
edges (numerical_column_stats.py:1243-1258). -/
def expand : List ℕ → List ℚ → List ℚ
  | [], _ => []
  | [c], [a, b] => List.replicate (c / 2) a ++ List.replicate (c - c / 2) b
  | c :: cs, a :: es => List.replicate c a ++ expand cs es
  | _ :: _, [] => []

/-- `_histogram_to_array` (numerical_column_stats.py:1241-1265). -/
def toArray (h : IHist) (isFloat : Bool) : List ℚ :=
  let l := expand h.counts h.edges
  if isFloat then l else l.map fun x => (pyRound x : ℚ)

/-- The stored histogram: absent, integer counts (built from data) or float counts (built by a
merge: `np.zeros`, numerical_column_stats.py:229). -/
inductive Stored where
  | absent
  | ints (h : IHist)
  | floats (h : Hist)
  deriving DecidableEq, Repr

/-- `_update_histogram`/`_merge_histogram` (numerical_column_stats.py:1322-1360) for one batch.
`[edge] * count` with a float count raises `TypeError`. -/
def updateHistogram (isFloat : Bool) (s : Stored) (batch : List ℚ) (n : ℕ) : Except Err Stored :=
  if batch.isEmpty then .ok s
  else match s with
    | .absent => .ok (.ints (getHistogram batch n))
    | .ints h => .ok (.ints (getHistogram (batch ++ toArray h isFloat) n))
    | .floats _ => .error .typeError

/-- `_get_histogram_and_quantiles` (numerical_column_stats.py:1931-1946): any exception is swallowed
with a warning, leaving the stored histogram alone. -/
def updateSafely (isFloat : Bool) (s : Stored) (batch : List ℚ) (n : ℕ) : Stored :=
  match updateHistogram isFloat s batch n with
  | .ok s' => s'
  | .error _ => s

/-- A history of batches, each with the number of bins chosen at that time. -/
def runUpdates (isFloat : Bool) (s : Stored) : List (List ℚ × ℕ) → Stored
  | [] => s
  | (b, n) :: rest => runUpdates isFloat (updateSafely isFloat s b n) rest

/-! ## Median absolute deviation -/

/-- Index of the first positive edge (numerical_column_stats.py:1611-1616). -/
def firstPositive (edges : List ℚ) : Option ℕ := edges.findIdx? fun e => decide (0 < e)

/-- The two folds of `_fold_histogram`. -/
structure Folds where
  posCounts : List ℚ
  posEdges : List ℚ
  negCounts : List ℚ
  negEdges : List ℚ
  deriving DecidableEq, Repr

/-- The two folds for a break point strictly inside (numerical_column_stats.py:1624-1647). -/
def foldAt (counts edges : List ℚ) (z : ℕ) : Folds :=
  let ez := edges.getD z 0
  let ep := edges.getD (z - 1) 0
  let cz := counts.getD (z - 1) 0
  let posPart := cz * (ez / (ez - ep))
  let negCounts := (cz - posPart) :: (counts.take (z - 1)).reverse
  let negEdges := 0 :: ((edges.take z).reverse.map (- ·))
  let drop := decide (1 < negEdges.length) && decide (negEdges.getD 1 0 = 0)
  { posCounts := posPart :: counts.drop z
    posEdges := 0 :: edges.drop z
    negCounts := if drop then negCounts.tail else negCounts
    negEdges := if drop then negEdges.tail else negEdges }

/-- `_fold_histogram` (numerical_column_stats.py:1592-1647). The break point is 0 only when `value` lies
below the first edge, which no caller does (Python's negative index `-1` is not modelled). -/
def foldHistogram (counts edges : List ℚ) (value : ℚ) : Folds :=
  let nc := counts.map (· / counts.sum)
  let es := edges.map (· - value)
  match firstPositive es with
  | none => ⟨[], [], nc, es⟩
  | some 1 => ⟨nc, es, [], []⟩
  | some z => foldAt nc es z

/-- `itertools.chain(*itertools.zip_longest(a, b))` without the `None` fillers
(numerical_column_stats.py:1690-1695). -/
def interleave : List ℚ → List ℚ → List ℚ
  | [], bs => bs
  | a :: as, [] => a :: as
  | a :: as, b :: bs => a :: b :: interleave as bs

/-- Keep an element iff it exceeds its predecessor by more than 1e-14; the first is kept
(numerical_column_stats.py:1698-1700). `prev` is the preceding element of the unfiltered list. -/
def keepRising (prev : ℚ) : List ℚ → List ℚ
  | [] => []
  | x :: xs => if 1 / 10 ^ 14 < x - prev then x :: keepRising x xs else keepRising x xs

/-- `bin_edges_impose` (numerical_column_stats.py:1687-1700). -/
def imposedEdges (f : Folds) : List ℚ :=
  let l := if f.negEdges.getD 1 0 < f.posEdges.getD 1 0
    then (interleave f.negEdges f.posEdges).tail
    else (interleave f.posEdges f.negEdges).tail
  match l with
  | [] => []
  | x :: xs => x :: keepRising x xs

/-- Cumulated counts of one fold at a position, `np.interp(x, edges, cumsum([0] + counts))`
(numerical_column_stats.py:1702-1711). -/
def foldMass (counts edges : List ℚ) (x : ℚ) : ℚ := interp (edges.zip (0 :: cumsum 0 counts)) x

/-- `median_abs_deviation` (numerical_column_stats.py:1650-1721) for a column with a histogram and
the property enabled; `med` is the median used. -/
def medianAbsDev (counts edges : List ℚ) (med : ℚ) : ℚ :=
  let f := foldHistogram counts edges med
  if f.posCounts.isEmpty || f.negCounts.isEmpty then 0
  else
    let es := imposedEdges f
    let mass := es.map fun x => foldMass f.posCounts f.posEdges x + foldMass f.negCounts f.negEdges x
    let half := ((mass.zip es).filter fun p => decide (|p.1 - 1 / 2| < halfTol)).map Prod.snd
    if 1 < half.length then half.sum / half.length
    else interp (mass.zip es) (1 / 2)

/-! ## Choosing the reported histogram -/

/-- The part of `histogram_methods[method]` used to report: the cached histogram, the suggested
number of bins and the total loss. -/
structure Method where
  cached : Option Hist
  suggested : ℕ
  totalLoss : ℚ
  deriving DecidableEq, Repr

/-- `_histogram_for_profile` (numerical_column_stats.py:1486-1528) for a column with a stored
histogram `h` of total loss `storedLoss`. -/
def histogramForProfile (h : Hist) (storedLoss : ℚ) (isFloat : Bool) (m : Method) :
    Except Err (Hist × ℚ) :=
  match m.cached with
  | some c => .ok (c, m.totalLoss)
  | none =>
    if h.counts.length = m.suggested then .ok (h, storedLoss)
    else regenerate h.counts h.edges m.suggested isFloat none

/-- `not best_hist_loss or hist_loss < best_hist_loss` (numerical_column_stats.py:1547). -/
def better (best : Option ℚ) (loss : ℚ) : Bool :=
  match best with
  | none => true
  | some b => b = 0 || decide (loss < b)

/-- The loop of `_get_best_histogram_for_profile` (numerical_column_stats.py:1540-1551); the result
is the selected method's histogram (`None` when there is no method). -/
def bestLoop (h : Hist) (storedLoss : ℚ) (isFloat : Bool) :
    List (String × Method) → Option ℚ → Option (String × Hist) → Except Err (Option (String × Hist))
  | [], _, sel => .ok sel
  | (name, m) :: ms, best, sel => do
    let r ← histogramForProfile h storedLoss isFloat m
    if better best r.2 then bestLoop h storedLoss isFloat ms (some r.2) (some (name, r.1))
    else bestLoop h storedLoss isFloat ms best sel

/-- `_get_best_histogram_for_profile` when no selection was cached. -/
def bestHistogram (h : Hist) (storedLoss : ℚ) (isFloat : Bool) (ms : List (String × Method)) :
    Except Err (Option (String × Hist)) := bestLoop h storedLoss isFloat ms none none

end Verif.Histogram
