import Mathlib.Data.Rat.Defs
import Mathlib.Data.Nat.Sqrt
import Verif.Model.Basic
import Verif.Model.PyDict
import Verif.Model.Schema

/-!
# The plots of a report

Models `plot_histograms`, `plot_col_histogram`, `plot_missing_values_matrix` and `plot_col_missing_values`
(dataprofiler/reports/graphs.py:30-357).

Simplifications
* a figure is the list of what is drawn on it: panels with their bars, rectangles with their place, colour and label,
  ticks and the legend; fonts, line widths, layout and the axes passed in by a caller are left out;
* `seaborn.histplot` with given bins and weights is `heights`: the bar of a bin is the total weight of the points in
  it, the bins being closed on the left and the last one on both sides, as in `numpy.histogram`;
* `math.ceil(math.sqrt(n))` (graphs.py:113) is computed exactly; the theorems about panels hold for any positive value;
* the best histogram of a column (`_get_best_histogram_for_profile`) is a field of the column, modelled elsewhere;
* the decorator `require_module` is left out (see C114).
-/

namespace Verif.Plot

open Verif

/-- An element of a list passed by the caller, as far as `isinstance` tells it (a `bool` is an `int`). -/
inductive Elem where
  | text (s : String)
  | int (n : ℤ)
  | other
  deriving DecidableEq, Repr

/-- An argument which should be a list or `None`: anything else is true or false as a condition. -/
inductive Arg where
  | absent
  | list (l : List Elem)
  | strange (truth : Bool)

/-- The truth of an argument used as a condition. -/
def Arg.truth : Arg → Bool
  | .absent => false
  | .list l => !l.isEmpty
  | .strange b => b

/-- The two lists of a histogram: edges and counts. -/
structure Hist where
  edges : List ℚ
  counts : List ℚ

/-- A column of the profile: its name, whether it has a compiler of types and the type that one selected, and its best
histogram, `none` when there is none. -/
structure Column where
  name : Schema.Key
  compiled : Bool
  selected : Option String
  hist : Option Hist

/-- `isinstance(x, str)`. -/
def Elem.isText : Elem → Bool
  | .text _ => true
  | _ => false

/-- `isinstance(x, int)`. -/
def Elem.isInt : Elem → Bool
  | .int _ => true
  | _ => false

/-- The test on an argument which has to be a list of one kind (graphs.py:55-57, 62-64). -/
def listOf (p : Elem → Bool) : Arg → Bool
  | .absent => true
  | .list l => l.all p
  | .strange _ => false

/-- The tests on the two arguments (graphs.py:50-68). -/
def checkArgs (names inds : Arg) : Except Err Unit :=
  if names.truth && inds.truth then .error .valueError
  else if !listOf Elem.isText names then .error .valueError
  else if !listOf Elem.isInt inds then .error .valueError
  else .ok ()

/-- The elements of an argument. -/
def Arg.elems : Arg → List Elem
  | .list l => l
  | _ => []

/-- `col = column; if isinstance(col, str): col = col.lower()` (graphs.py:77-79). -/
def keyOf (lower : String → String) : Elem → Schema.Key
  | .text s => .str (lower s)
  | .int n => .int n
  | .other => .str ""

/-- The loop over the names (graphs.py:76-84). -/
def namedInds (lower : String → String) (schema : Schema.NameMap) : List Elem → Except Err (List ℤ)
  | [] => .ok []
  | c :: rest =>
    if PyDict.has schema (keyOf lower c) then do
      let more ← namedInds lower schema rest
      .ok ((PyDict.getD schema (keyOf lower c) []).map (fun i : ℕ => (i : ℤ)) ++ more)
    else .error .valueError

/-- The integer of an element. -/
def Elem.toInt : Elem → ℤ
  | .int n => n
  | _ => 0

/-- The indices to plot, before the filter on types (graphs.py:70-84). -/
def indsToGraph (lower : String → String) (cols : List Column) (names inds : Arg) : Except Err (List ℤ) :=
  if inds.truth then .ok (inds.elems.map Elem.toInt)
  else if names.truth then namedInds lower (Schema.schemaOf lower (cols.map Column.name)) names.elems
  else .ok ((List.range cols.length).map fun i : ℕ => (i : ℤ))

/-- `profile_list[i]`: an index counts from the end when negative. -/
def pick (cols : List Column) (i : ℤ) : Except Err Column :=
  match (if 0 ≤ i then cols[i.toNat]? else if 0 ≤ i + cols.length then cols[(i + cols.length).toNat]? else none) with
  | some c => .ok c
  | none => .error .indexError

/-- `is_index_graphable_column` (graphs.py:90-104). -/
def graphable (cols : List Column) (i : ℤ) : Except Err Bool := do
  let c ← pick cols i
  if c.compiled then .ok (decide (c.selected = some "int" ∨ c.selected = some "float")) else .error .keyError

/-- `list(filter(is_index_graphable_column, inds_to_graph))` (graphs.py:104). -/
def filterInds (cols : List Column) : List ℤ → Except Err (List ℤ)
  | [] => .ok []
  | i :: rest => do
    let g ← graphable cols i
    let more ← filterInds cols rest
    .ok (if g then i :: more else more)

/-- The bin of a point: the last bin takes both its ends. -/
def inBin (a b : ℚ) (last : Bool) (x : ℚ) : Bool := decide (a ≤ x) && (decide (x < b) || (last && decide (x ≤ b)))

/-- The total weight of the points in a bin. -/
def weight (pts : List (ℚ × ℚ)) (a b : ℚ) (last : Bool) : ℚ := ((pts.filter fun p => inBin a b last p.1).map Prod.snd).sum

/-- The heights of the bars of `seaborn.histplot` given the points with their weights, and the edges. -/
def heights (pts : List (ℚ × ℚ)) : List ℚ → List ℚ
  | a :: b :: rest => weight pts a b rest.isEmpty :: heights pts (b :: rest)
  | _ => []

/-- What a panel of histograms shows. -/
structure Panel where
  title : Schema.Key
  edges : List ℚ
  bars : List ℚ

/-- `plot_col_histogram` (graphs.py:152-190): the left edges are the points, weighted with the counts. -/
def plotColumn (c : Column) : Except Err Panel :=
  match c.hist with
  | none => .error .valueError
  | some h => .ok ⟨c.name, h.edges, heights (h.edges.dropLast.zip h.counts) h.edges⟩

/-- `math.ceil(math.sqrt(n))` (graphs.py:113). -/
def gridCols (n : ℕ) : ℕ := if n.sqrt * n.sqrt = n then n.sqrt else n.sqrt + 1

/-- `math.ceil(n / cols)` (graphs.py:114). -/
def gridRows (n cols : ℕ) : ℕ := (n + cols - 1) / cols

/-- One axis of the grid: a panel, or one turned off, or one left as it was made. -/
inductive Cell where
  | shown (p : Panel)
  | off
  | bare

/-- The loop drawing the panels (graphs.py:122-137): `zip` stops at the shorter of the two. -/
def drawPanels (cols : List Column) : List ℤ → ℕ → Except Err (List Panel)
  | _, 0 => .ok []
  | [], _ => .ok []
  | i :: rest, k + 1 => do
    let c ← pick cols i
    let p ← plotColumn c
    let more ← drawPanels cols rest k
    .ok (p :: more)

/-- The state of the axes at the end (graphs.py:122-141): panels first, then `axs[n:]` turned off. -/
def axes (panels : List Panel) (n total : ℕ) : List Cell :=
  (panels.map Cell.shown ++ List.replicate (min n total - panels.length) Cell.bare) ++ List.replicate (total - n) Cell.off

/-- A figure: the shape of its grid and its axes in reading order. -/
structure Figure where
  rows : ℕ
  cols : ℕ
  cells : List Cell

/-- The drawing part of `plot_histograms`, with the number of grid columns given (graphs.py:111-147). -/
def drawFigure (gc : ℕ → ℕ) (cols : List Column) (inds : List ℤ) : Except Err Figure := do
  let panels ← drawPanels cols inds (gridRows inds.length (gc inds.length) * gc inds.length)
  .ok ⟨gridRows inds.length (gc inds.length), gc inds.length,
    axes panels inds.length (gridRows inds.length (gc inds.length) * gc inds.length)⟩

/-- `plot_histograms` (graphs.py:31-148): `none` is the warning that there is nothing to plot. -/
def plotHistograms (gc : ℕ → ℕ) (lower : String → String) (cols : List Column) (names inds : Arg) :
    Except Err (Option Figure) := do
  checkArgs names inds
  let all ← indsToGraph lower cols names inds
  -- graphs.py:87: the result of `sorted` is dropped
  let kept ← filterInds cols all
  if kept.isEmpty then .ok none
  else do
    let f ← drawFigure gc cols kept
    .ok (some f)

/-! ## Missing values -/

/-- A rectangle of a null value: the first row and the height. -/
structure Bar where
  start : ℤ
  height : ℤ
  deriving DecidableEq, Repr

/-- The loop over contiguous indices and the rectangle after it (graphs.py:297-333): `y_start`, `y_end`, the current
index and the ones to come. -/
def scan (yStart yEnd value : ℤ) : List ℤ → List Bar
  | [] => [⟨yStart, value - yStart + 1⟩]
  | next :: rest =>
    if next - value = 1 then scan yStart next next rest
    else ⟨yStart, yEnd - yStart + 1⟩ :: scan next yEnd next rest

/-- The rectangles of one null value in one column (graphs.py:281-333), its indices being sorted. -/
def bars : List ℤ → Except Err (List Bar)
  | [] => .error .indexError
  | a :: rest => .ok (scan a a a rest)

/-- A rectangle on the figure: left, bottom, width, height, colour and label (`none` for the background). -/
structure Rect where
  left : ℚ
  bottom : ℚ
  width : ℚ
  height : ℚ
  color : String
  label : Option String
  deriving DecidableEq, Repr

/-- The colours given out, and the ones left (graphs.py:250-251). -/
structure Colors where
  given : PyDict String String
  cycle : List String

/-- The colour of a null value (graphs.py:285-291). -/
def colorOf (palette : List String) (st : Colors) (t : String) : Except Err (String × Colors) :=
  match PyDict.get? st.given t with
  | some c => .ok (c, st)
  | none =>
    match st.cycle with
    | [] => .error .indexError
    | c :: rest => .ok (c, ⟨PyDict.set st.given t c, if rest.isEmpty then palette else rest⟩)

/-- The width of every rectangle (graphs.py:245). -/
def width : ℚ := 8 / 10

/-- A rectangle for rows (graphs.py:308-318, 324-333): `xy=(col_id - width / 2 + 0.5, y_start - height / 2)`. -/
def rectOf (col : ℕ) (color t : String) (b : Bar) : Rect :=
  ⟨col - width / 2 + 1 / 2, b.start - 1 / 2, width, b.height, color, some ("\"" ++ t ++ "\"")⟩

/-- The loop over the null values of a column (graphs.py:276-333); `order` sorts a set of indices. -/
def drawNulls (palette : List String) (order : List ℤ → List ℤ) (col : ℕ) :
    PyDict String (List ℤ) → Colors → Except Err (List Rect × Colors)
  | [], st => .ok ([], st)
  | (t, rows) :: rest, st => do
    let (c, st') ← colorOf palette st t
    let bs ← bars (order rows)
    let (more, st'') ← drawNulls palette order col rest st'
    .ok (bs.map (rectOf col c t) ++ more, st'')

/-- A column as this plot sees it. -/
structure NullColumn where
  name : String
  sampleSize : ℕ
  nulls : PyDict String (List ℤ)

/-- The background of a column (graphs.py:264-272). -/
def ground (col : ℕ) (size : ℕ) : Rect := ⟨col - width / 2 + 1 / 2, -1 / 2, width, size, "blue", none⟩

/-- The loop over the columns (graphs.py:260-333). -/
def drawColumns (palette : List String) (order : List ℤ → List ℤ) :
    ℕ → List NullColumn → Colors → Except Err (List Rect × Colors)
  | _, [], st => .ok ([], st)
  | i, c :: cs, st => do
    let (here, st') ← drawNulls palette order i c.nulls st
    let (more, st'') ← drawColumns palette order (i + 1) cs st'
    .ok (ground i c.sampleSize :: here ++ more, st'')

/-- `dict(zip(labels, handles))` over the labelled rectangles (graphs.py:345-346). -/
def legendOf : List Rect → PyDict String String → PyDict String String
  | [], d => d
  | r :: rs, d =>
    match r.label with
    | none => legendOf rs d
    | some l => legendOf rs (PyDict.set d l r.color)

/-- The plot of missing values. -/
structure Missing where
  rects : List Rect
  ticks : List (ℚ × String)
  legend : PyDict String String

/-- `plot_col_missing_values` on a list of columns (graphs.py:214-357): `none` is the warning that there is no data. -/
def plotMissing (colors : List String) (order : List ℤ → List ℤ) (cols : List NullColumn) : Except Err (Option Missing) :=
  if cols.isEmpty then .ok none
  else do
    let (rects, _) ← drawColumns (colors.drop 1) order 0 cols ⟨[], colors.drop 1⟩
    .ok (some ⟨rects,
      cols.zipIdx.map fun p => ((1 / 2 : ℚ) + p.2, "\"" ++ p.1.name ++ "\""),
      legendOf rects []⟩)

end Verif.Plot
