import Verif.Model.Histogram
import Verif.Model.PyDict

/-!
# The histogram of a numeric column over its life

Models how `NumericStatsMixin` (`dataprofiler/profilers/numerical_column_stats.py`) creates, updates, reports and merges the histogram of a column
with its suggested numbers of bins, its quantiles and the dictionaries in which they are kept. The arithmetic of histograms is in `Model/Histogram`.

The dictionaries `{"bin_counts", "bin_edges"}` and `histogram_methods` are objects that can be reached in more than one way (a report makes an entry
of `histogram_methods` point to the stored histogram; a merge with an empty column makes two columns share `histogram_methods`). They are kept in a
heap and referred to by their position.

Simplifications
* the values of a batch are finite (numerical_column_stats.py:1349 drops the others); a batch is empty if it had only infinities;
* numpy's estimate of the number of bins (`histogram_utils._get_bin_edges`) and the estimate from a merged profile
  (`histogram_utils._calculate_bins_from_profile`) are parameters (see `Model/BinWidth` for the latter);
* `histogram_and_quantiles` is enabled;
* a report that raises is not resumed: the heap it leaves is not modelled.
-/

namespace Verif.HistColumn

open Verif Verif.Histogram

/-- A dictionary `{"bin_counts", "bin_edges"}`; `losses` are the two entries `current_loss` and `total_loss` a merge writes into it
(numerical_column_stats.py:255-256). -/
structure HDict where
  body : Stored
  losses : Option ℚ
  deriving DecidableEq, Repr

/-- An entry of `histogram_methods`: `histogram` (a reference), `suggested_bin_count` (missing after some merges) and `total_loss`. -/
structure Entry where
  hist : ℕ
  suggested : Option ℕ
  total : ℚ
  deriving DecidableEq, Repr

/-- A `histogram_methods` dictionary. -/
abbrev Table := PyDict String Entry

/-- The objects columns refer to. -/
structure Heap where
  dicts : List HDict
  tables : List Table
  deriving DecidableEq, Repr

/-- The attributes of a column that concern its histogram. -/
structure Col where
  isFloat : Bool
  stored : ℕ
  storedLoss : ℚ
  names : List String
  user : Option ℕ
  table : ℕ
  selection : Option String
  quantiles : Option (List ℚ)
  numQuantiles : ℕ
  deriving DecidableEq, Repr

/-- `bin_count_or_method` (numerical_column_stats.py:93-101). -/
inductive Bins where
  | method (m : String)
  | methods (ms : List String)
  | count (n : ℕ)
  deriving DecidableEq, Repr

/-- The options that concern the histogram. -/
structure Options where
  bins : Bins
  numQuantiles : ℕ
  deriving DecidableEq, Repr

/-- `histogram_bin_method_names` (numerical_column_stats.py:70-78). -/
def defaultNames : List String := ["auto", "fd", "doane", "scott", "rice", "sturges", "sqrt"]

/-- `min_histogram_bin` (numerical_column_stats.py:69). -/
def minBins : ℕ := 1000

/-- `max_histogram_bin` (numerical_column_stats.py:68). -/
def maxBins : ℕ := 100000

def Heap.dict (h : Heap) (r : ℕ) : HDict := h.dicts.getD r ⟨.absent, none⟩

def Heap.tab (h : Heap) (t : ℕ) : Table := h.tables.getD t []

/-- `d["bin_counts"] = ...; d["bin_edges"] = ...`. -/
def Heap.write (h : Heap) (r : ℕ) (b : Stored) : Heap := { h with dicts := h.dicts.set r { h.dict r with body := b } }

/-- `table[m] = e`. -/
def Heap.put (h : Heap) (t : ℕ) (m : String) (e : Entry) : Heap := { h with tables := h.tables.set t (PyDict.set (h.tab t) m e) }

/-- A new dictionary without histogram. -/
def emptyDict : HDict := ⟨.absent, none⟩

/-- One empty entry of `histogram_methods` per method (numerical_column_stats.py:110-116, 191-196); `suggested` is missing in the latter. -/
def newTable (suggested : Option ℕ) : List String → Heap → Table → Heap × Table
  | [], h, t => (h, t)
  | m :: ms, h, t => newTable suggested ms { h with dicts := h.dicts ++ [emptyDict] } (PyDict.set t m ⟨h.dicts.length, suggested, 0⟩)

/-- The names of the methods and the number of bins the options ask for (numerical_column_stats.py:70-80, 93-101). -/
def binNames : Option Options → List String × Option ℕ
  | none => (defaultNames, none)
  | some ⟨.method m, _⟩ => ([m], none)
  | some ⟨.methods ms, _⟩ => (ms, none)
  | some ⟨.count n, _⟩ => (["custom"], some n)

/-- The histogram part of `NumericStatsMixin.__init__` (numerical_column_stats.py:68-117). -/
def newCol (h : Heap) (isFloat : Bool) (o : Option Options) : Heap × Col :=
  let stored := h.dicts.length
  let r := newTable (some minBins) (binNames o).1 { h with dicts := h.dicts ++ [emptyDict] } []
  ({ r.1 with tables := r.1.tables ++ [r.2] },
   { isFloat := isFloat, stored := stored, storedLoss := 0, names := (binNames o).1, user := (binNames o).2, table := r.1.tables.length,
     selection := none, quantiles := none, numQuantiles := match o with | none => 1000 | some o => o.numQuantiles })

/-- The histogram a dictionary holds, with counts as numbers. -/
def asHist : Stored → Option Hist
  | .absent => none
  | .ints h => some ⟨h.counts.map fun c : ℕ => (c : ℚ), h.edges⟩
  | .floats h => some h

/-- The stored histogram of a column. -/
def Col.histogram (h : Heap) (c : Col) : Option Hist := asHist (h.dict c.stored).body

/-- `_has_histogram` (numerical_column_stats.py:141-143). -/
def Col.has (h : Heap) (c : Col) : Bool := (c.histogram h).isSome

/-- The loop over the methods of `_get_histogram` (numerical_column_stats.py:1283-1289, 1303-1317): the histogram of each becomes `b`, its
suggested number of bins `sug`. A method without entry raises `KeyError`, after those before it were changed. -/
def writeAll (t : ℕ) (sug : String → ℕ) (b : Stored) : List String → Heap → Heap × Option Err
  | [], h => (h, none)
  | m :: ms, h =>
    match PyDict.get? (h.tab t) m with
    | none => (h, some .keyError)
    | some e => writeAll t sug b ms ((h.write e.hist b).put t m { e with suggested := some (sug m) })

/-- Whether all values are the same (numerical_column_stats.py:1277). -/
def constant (vs : List ℚ) : Bool := vs.foldl Min.min (vs.headD 0) == vs.foldl Max.max (vs.headD 0)

/-- The suggested number of bins of a method (numerical_column_stats.py:1294-1311). -/
def suggestion (est : String → List ℚ → ℕ) (user : Option ℕ) (vs : List ℚ) (m : String) : ℕ :=
  match user with
  | none => Min.min (est m vs) maxBins
  | some n => if n = 0 then minBins else n

/-- `n_equal_bins` (numerical_column_stats.py:1294-1312). -/
def equalBins (est : String → List ℚ → ℕ) (user : Option ℕ) (vs : List ℚ) (names : List String) : ℕ :=
  match user with
  | none => (names.map (suggestion est user vs)).foldl Max.max minBins
  | some n => if n = 0 then minBins else n

/-- `_get_histogram` (numerical_column_stats.py:1267-1320) and storing its result (numerical_column_stats.py:1328-1329, 1356-1357). -/
def buildHistogram (est : String → List ℚ → ℕ) (h : Heap) (c : Col) (vs : List ℚ) : Heap × Option Err :=
  let g := getHistogram vs (equalBins est c.user vs c.names)
  let r := if constant vs then writeAll c.table (fun _ => 1) (.ints g) c.names h
    else writeAll c.table (suggestion est c.user vs) .absent c.names h
  match r.2 with
  | some e => (r.1, some e)
  | none => (r.1.write c.stored (.ints g), none)

/-- The values of the batch, and those read back from the stored histogram (numerical_column_stats.py:1322-1326, 1352-1355). -/
def combined (s : Stored) (isFloat : Bool) (batch : List ℚ) : Except Err (List ℚ) :=
  match s with
  | .absent => .ok batch
  | .ints g => .ok (batch ++ toArray g isFloat)
  | .floats _ => .error .typeError

/-- `_histogram_bin_error` (numerical_column_stats.py:1145-1173): squared distances from the middle of the bin. -/
def binError (edges : List ℚ) (vs : List ℚ) : ℚ :=
  (vs.map fun v =>
    let i := (edges.dropLast.filter fun e => decide (e ≤ v)).length
    (v - (edges.getD i 0 + edges.getD (i - 1) 0) / 2) ^ 2).sum

/-- `_update_histogram` (numerical_column_stats.py:1331-1366). -/
def updateHist (est : String → List ℚ → ℕ) (h : Heap) (c : Col) (batch : List ℚ) : Heap × Col × Option Err :=
  if batch.isEmpty then (h, c, none)
  else
    match combined (h.dict c.stored).body c.isFloat batch with
    | .error e => (h, c, some e)
    | .ok vs =>
      match buildHistogram est h c vs with
      | (h', some e) => (h', c, some e)
      | (h', none) =>
        (h', { c with storedLoss := c.storedLoss + binError (getHistogram vs (equalBins est c.user vs c.names)).edges batch }, none)

/-- `_get_quantiles` (numerical_column_stats.py:1723-1732) for a column with a histogram. -/
def withQuantiles (h : Heap) (c : Col) : Col :=
  match c.histogram h with
  | none => c
  | some g => { c with quantiles := some (quantiles g c.numQuantiles) }

/-- `_get_histogram_and_quantiles` (numerical_column_stats.py:1931-1946): every exception is swallowed. -/
def update (est : String → List ℚ → ℕ) (h : Heap) (c : Col) (batch : List ℚ) : Heap × Col :=
  match updateHist est h c batch with
  | (h', c', some _) => (h', c')
  | (h', c', none) => (h', withQuantiles h' { c' with selection := none })

/-- `_histogram_for_profile` (numerical_column_stats.py:1486-1528): a reference to the histogram and its loss. -/
def histogramFor (h : Heap) (c : Col) (e : Entry) : Except Err (Heap × ℕ × ℚ) :=
  match e.suggested with
  | none => .error .keyError
  | some n =>
    match c.histogram h with
    | none => .ok (h, e.hist, e.total)
    | some g =>
      if (h.dict e.hist).body ≠ .absent then .ok (h, e.hist, e.total)
      else if g.counts.length = n then .ok (h, c.stored, c.storedLoss)
      else
        match regenerate g.counts g.edges n c.isFloat none with
        | .error e => .error e
        | .ok r => .ok ({ h with dicts := h.dicts ++ [⟨.floats r.1, none⟩] }, h.dicts.length, r.2)

/-- The loop of `_get_best_histogram_for_profile` (numerical_column_stats.py:1542-1549). -/
def bestLoop (c : Col) : List String → Heap → Option ℚ → Option String → Except Err (Heap × Option String)
  | [], h, _, sel => .ok (h, sel)
  | m :: ms, h, best, sel =>
    match PyDict.get? (h.tab c.table) m with
    | none => .error .keyError
    | some e =>
      match histogramFor h c e with
      | .error e => .error e
      | .ok (h', r, loss) =>
        let h'' := h'.put c.table m { e with hist := r, total := e.total + loss }
        if better best loss then bestLoop c ms h'' (some loss) (some m) else bestLoop c ms h'' best sel

/-- `_get_best_histogram_for_profile` (numerical_column_stats.py:1530-1551): the histogram in the report. -/
def report (h : Heap) (c : Col) : Except Err (Heap × Col × HDict) :=
  match c.selection with
  | some m =>
    match PyDict.get? (h.tab c.table) m with
    | none => .error .keyError
    | some e => .ok (h, c, h.dict e.hist)
  | none =>
    match bestLoop c (PyDict.keys (h.tab c.table)) h none none with
    | .error e => .error e
    | .ok (_, none) => .error .keyError
    | .ok (h', some m) =>
      match PyDict.get? (h'.tab c.table) m with
      | none => .error .keyError
      | some e => .ok (h', { c with selection := some m }, h'.dict e.hist)

/-- `median` (numerical_column_stats.py:557-567) when enabled; `none` is NaN. -/
def Col.median (h : Heap) (c : Col) : Option ℚ := (c.histogram h).map Histogram.median

/-- `mode` (numerical_column_stats.py:544-555) when enabled; `none` is `[nan]`. -/
def Col.mode (h : Heap) (c : Col) (topK : ℕ) : Option (Except Err (List ℚ)) := (c.histogram h).map fun g => modes g topK

/-- The number of bins the merged column asks for (numerical_column_stats.py:172-180). -/
def mergedUser : Option ℕ → Option ℕ → Option ℕ
  | some a, some b => if a ≠ 0 ∧ b ≠ 0 then some (Max.max a b) else none
  | _, _ => none

/-- `_add_helper_merge_profile_histograms` (numerical_column_stats.py:145-264) for the new column `c`; `lo`, `hi` are the merged minimum and maximum,
`suggest` is `_calculate_bins_from_profile`. -/
def mergeBoth (suggest : String → ℕ) (h : Heap) (c c1 c2 : Col) (g1 g2 : Hist) (lo hi : Option ℚ) : Except Err (Heap × Col) :=
  let names := c1.names.filter fun x => c2.names.contains x
  if names.isEmpty then .error .valueError
  else
    let user := mergedUser c1.user c2.user
    match mergeHist g1 g2 (user.getD minBins) lo hi with
    | .error e => .error e
    | .ok r =>
      let nt := newTable none names { h with dicts := h.dicts.set c.stored ⟨.floats r.1, some r.2⟩ } []
      let tab := if user = none then nt.2.map fun p => (p.1, { p.2 with suggested := some (suggest p.1) }) else nt.2
      let h' := { nt.1 with tables := nt.1.tables ++ [tab] }
      .ok (h', withQuantiles h' { c with names := names, user := user, table := nt.1.tables.length })

/-- The histogram part of `_add_helper` (numerical_column_stats.py:345-354), for a column made by `IntColumn(None)` and the like. -/
def merge (suggest : String → ℕ) (h : Heap) (c1 c2 : Col) (lo hi : Option ℚ) : Except Err (Heap × Col) :=
  let new := newCol h c1.isFloat none
  match c1.histogram new.1, c2.histogram new.1 with
  | some g1, some g2 => mergeBoth suggest new.1 new.2 c1 c2 g1 g2 lo hi
  | _, none => .ok (new.1, { new.2 with table := c1.table, quantiles := c1.quantiles })
  | none, some _ => .ok (new.1, { new.2 with table := c2.table, quantiles := c2.quantiles })

/-- Several updates. -/
def updates (est : String → List ℚ → ℕ) : Heap → Col → List (List ℚ) → Heap × Col
  | h, c, [] => (h, c)
  | h, c, b :: bs => updates est (update est h c b).1 (update est h c b).2 bs

end Verif.HistColumn
