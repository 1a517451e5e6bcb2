import Verif.Model.Basic
import Verif.Model.PyDict
import Verif.Model.Counter
import Mathlib.Data.Rat.Defs
import Mathlib.Algebra.Order.Field.Rat

/-!
# Recognising delimited files

Models `get_delimiter_regex` (dataprofiler/data_readers/data_utils.py:712-739), `CSVData._guess_delimiter_and_quotechar`
(dataprofiler/data_readers/csv_data.py:184-344) as it is called, without a quote character, `_guess_header_row` (csv_data.py:347-541)
with its default thresholds, and `is_match` (csv_data.py:624-742).  A text is a list of characters.  `detect_cell_type`
(data_utils.py:679-709, it asks dateutil), `str.strip`, `str.rstrip`, `str.isalpha`, the quote character found by `csv.Sniffer` and the
random rows are parameters.  Quotients of small integers are exact.
-/

namespace Verif.Csv

open Verif

/-- The types of cells (data_utils.py:679-709). -/
inductive CellType where
  | none
  | str
  | upstr
  | int
  | float
  | date
  deriving DecidableEq

/-- What is not modelled. -/
structure Env where
  cellType : List Char → CellType
  strip : List Char → List Char
  rstrip : List Char → List Char
  isAlpha : Char → Bool
  /-- `csv.Sniffer._guess_quote_and_delimiter(...)[0]`; `none` if it raises or finds nothing -/
  sniff : List Char → List Char → Option Char
  /-- the `j`-th of `random.choices` for a proposed delimiter -/
  draw : Char → ℕ → ℕ

/-- `re.split(get_delimiter_regex(d, q), row)` (data_utils.py:712-739) for a row without line ends: a delimiter counts if the quote
characters behind it come in pairs. -/
def splitRow (d q : Char) : List Char → List (List Char)
  | [] => [[]]
  | c :: cs =>
    if c = d ∧ cs.count q % 2 = 0 then [] :: splitRow d q cs
    else
      match splitRow d q cs with
      | [] => [[c]]
      | x :: xs => (c :: x) :: xs

/-- `data_as_str.split("\n")`. -/
def splitLines (text : List Char) : List (List Char) := text.splitOn '\n'

/-! ### Delimiter -/

/-- `preferred` (csv_data.py:187). -/
def preferred : List Char := [',', '\t']

/-- The characters by falling number (csv_data.py:206-222), without line ends, quotes and preferred delimiters. -/
def orderedVocab (text : List Char) : List Char :=
  let vocab := ((PyDict.del (PyDict.del (PyDict.del (Counter.ofList text) '\n') '"') '\''))
  ((Counter.sortDesc vocab).map (·.1)).filter fun c => c ∉ preferred

/-- The quote character (csv_data.py:224-237). -/
def guessQuote (env : Env) (text : List Char) : Char := (env.sniff text ((orderedVocab text).take 20)).getD '"'

/-- The rows looked at (csv_data.py:254-260): at most 25, and repetitions of these. -/
def sampleRows (pick : ℕ → ℕ) (rows : List (List Char)) : List (List Char) :=
  if 25 < rows.length then
    rows.take 25 ++ (List.range (min ((rows.length - 25) / 10) 1000)).map fun j => (rows.take 25).getD (pick j % 25) []
  else rows

/-- The rows from the bottom, without a last one that has at most one character (csv_data.py:262-270). -/
def bottomUp (rows : List (List Char)) : List (List Char) :=
  match rows.reverse with
  | [] => []
  | r :: rest => if r.length ≤ 1 then rest else r :: rest

/-- `cell_type in ["str", "none"]`. -/
def isPlain (t : CellType) : Bool := t = .str ∨ t = .none

/-- Whether the loop over the cells of a row finds the delimiter unsafe (csv_data.py:294-320). -/
def unsafeRow (env : Env) (d : Char) (n : ℕ) : Option CellType → List (List Char) → Bool
  | _, [] => false
  | prior, c :: cs =>
    if isPlain (env.cellType c) ∧ prior.any isPlain ∧ env.isAlpha d then true
    else if isPlain (env.cellType c) ∧ prior.any isPlain ∧ d = ' ' ∧ n ≤ 2 then true
    else if env.cellType [d] = .int ∧ env.cellType c = .int then true
    else unsafeRow env d n (some (env.cellType c)) cs

/-- The variables of the loop over the rows (csv_data.py:245-250). -/
structure Scan where
  prior : Option ℕ := none
  maxCol : ℕ := 0
  valid : Bool := false
  safe : Bool := true

/-- One row (csv_data.py:272-320); `none` for a row with more cells than the one below. -/
def scanRow (env : Env) (d q : Char) (s : Scan) (row : List Char) : Option Scan :=
  let cells := splitRow d q row
  if s.prior.getD cells.length < cells.length then none
  else some {
    prior := some cells.length
    maxCol := if s.maxCol = 0 then cells.length else s.maxCol
    valid := s.valid || decide (1 < cells.length)
    safe := s.safe && !unsafeRow env d cells.length none cells }

/-- The loop over the rows. -/
def scanRows (env : Env) (d q : Char) : Scan → List (List Char) → Option Scan
  | s, [] => some s
  | s, r :: rs =>
    match scanRow env d q s r with
    | none => none
    | some s' => scanRows env d q s' rs

/-- A proposed delimiter (csv_data.py:244-332): the number of columns if it is possible. -/
def evaluate (env : Env) (q : Char) (rows : List (List Char)) (d : Char) : Option ℕ :=
  match scanRows env d q {} (bottomUp (sampleRows (env.draw d) rows)) with
  | none => none
  | some s => if s.safe ∧ s.valid then some s.maxCol else none

/-- The possible delimiters and their columns (csv_data.py:242-332). -/
def validated (env : Env) (text : List Char) : List (Char × ℕ) :=
  (preferred ++ (orderedVocab text).take 20).filterMap fun d =>
    (evaluate env (guessQuote env text) (splitLines text) d).map fun n => (d, n)

/-- One possible delimiter against the best so far (csv_data.py:335-342). -/
def heavier (best : Option Char × ℕ) (x : Char × ℕ) : Option Char × ℕ :=
  let w := if x.1 ∈ preferred then 5 * x.2 else x.2
  if best.2 < w then (some x.1, w) else best

/-- `_guess_delimiter_and_quotechar` (csv_data.py:184-344). -/
def guess (env : Env) (text : List Char) : Option Char × Char :=
  (((validated env text).foldl heavier (none, 0)).1, guessQuote env text)

/-! ### Header -/

/-- The types of the cells of a row (csv_data.py:390-402). -/
def rowTypes (env : Env) (d q : Char) (row : List Char) : List CellType :=
  (splitRow d q row).map fun c => env.cellType (env.strip c)

/-- The number of cells that are not empty. -/
def filled (r : List CellType) : ℕ := r.length - r.count .none

/-- The differences of a row (csv_data.py:410-429). -/
def rowDiff (pot r : List CellType) : List Bool :=
  if pot.length < filled r ∨ filled r = 0 then List.replicate r.length false
  else r.mapIdx fun j t => decide (pot[j]? ≠ some t)

/-- The differences of all rows (csv_data.py:404-433). -/
def diffs (pot : List CellType) : List (List CellType) → List (List Bool)
  | [] => []
  | r :: rs => rowDiff pot r :: diffs (if 0 < filled r then r else pot) rs

/-- The variables of the loop (csv_data.py:436-438). -/
structure Hdr where
  priorLen : ℕ := 0
  last : Option ℕ := none
  change : Bool := false

/-- The share of a number of cells. -/
def ratio (n total : ℕ) : ℚ := (n : ℚ) / (total : ℚ)

/-- A row that looks like a header (csv_data.py:445-472). -/
def looksLike (r : List CellType) (df : List Bool) : Bool :=
  decide (9 / 10 < ratio (r.count .str + r.count .upstr + r.count .none) r.length) &&
    decide (ratio (r.count .none) r.length < 1 / 2) && decide (ratio (df.count true) df.length < 1 / 10)

/-- One row (csv_data.py:439-478). -/
def hdrStep (s : Hdr) (x : (List CellType × List Bool) × ℕ) : Hdr :=
  if x.1.1.length = 0 then s
  else
    let inc : Bool := decide (s.priorLen ≤ filled x.1.1 ∧ 0 < filled x.1.1)
    { priorLen := if inc then filled x.1.1 else s.priorLen
      last := if looksLike x.1.1 x.1.2 ∧ inc ∧ ¬ s.change then some x.2 else s.last
      change := s.change || decide (0 < x.1.2.count true ∧ 0 < filled x.1.1) }

/-- The row by types (csv_data.py:404-482). -/
def byTypes (types : List (List CellType)) : Option ℕ :=
  let s := ((types.zip (diffs (types.headD []) types)).zipIdx).foldl hdrStep {}
  if s.change then s.last else none

/-- The number of words (csv_data.py:495-499). -/
def wordCount (env : Env) (c : List Char) : ℕ :=
  if env.strip c = [] then 0 else (env.strip c).count ' ' + 1

/-- The word counts of a column with their rows (csv_data.py:486-513), for rows long enough to have it. -/
def column (env : Env) (rows : List (List (List Char))) (j : ℕ) : List (ℕ × ℕ) :=
  (rows.zipIdx).filterMap fun x => (x.1[j]?).map fun c => (wordCount env c, x.2)

/-- Whether the numbers of words vary (csv_data.py:501-509, 522-524). -/
def varies (col : List (ℕ × ℕ)) : Bool :=
  decide (1 < (col.map (·.1)).foldl max 0 - (col.map (·.1)).foldl min ((col.map (·.1)).headD 0))

/-- `first_index_with_value` (csv_data.py:511-513). -/
def firstIndex (col : List (ℕ × ℕ)) : Option ℕ := (col.find? fun x => decide (0 < x.1)).map (·.2)

/-- The last of the first rows and how many columns begin there (csv_data.py:526-532). -/
def lastFirst (s : ℕ × ℕ) (i : Option ℕ) : ℕ × ℕ :=
  match i with
  | none => s
  | some i => if s.1 < i then (i, 1) else if i = s.1 then (s.1, s.2 + 1) else s

/-- The row by numbers of words (csv_data.py:484-539): `h` is the row found before. -/
def byWords (env : Env) (rows : List (List (List Char))) (h : Option ℕ) : Option ℕ :=
  let width := (rows.map List.length).foldl max 0
  let cols := (List.range width).map (column env rows)
  let s := (cols.map firstIndex).foldl lastFirst (0, 0)
  if cols.any varies ∧ width / 2 < s.2 then some s.1 else h

/-- `_guess_header_row` (csv_data.py:347-541). -/
def guessHeader (env : Env) (text : List Char) (delimiter quote : Option Char) : Option ℕ :=
  if text = [] then none
  else
    let d := delimiter.getD ','
    let q := quote.getD '"'
    let rows := splitLines text
    let types := rows.map (rowTypes env d q)
    let h := byTypes types
    if types.all fun r => r.all isPlain then byWords env (rows.map (splitRow d q)) h else h

/-! ### Recognition -/

/-- The `header` option. -/
inductive Header where
  | auto
  | none
  | row (n : ℕ)
  deriving DecidableEq

/-- The variables of the loop over the lines (csv_data.py:670-674). -/
structure Tally where
  lines : ℕ := 0
  empty : ℕ := 0
  counts : PyDict ℕ ℕ := []

/-- The number of delimiters in a line (csv_data.py:690-697). -/
def lineCount (env : Env) (delimiter quote : Option Char) (line : List Char) : ℕ :=
  match delimiter with
  | some d => (splitRow d (quote.getD '"') line).length - 1
  | none => (splitRow ' ' (quote.getD '"') (env.rstrip line)).length - 1

/-- The loop over the lines (csv_data.py:679-705). -/
def tally (env : Env) (delimiter quote : Option Char) : Tally → List (List Char) → Tally
  | t, [] => t
  | t, l :: ls =>
    if l.length ≤ 1 then tally env delimiter quote { t with lines := t.lines + 1, empty := t.empty + 1 } ls
    else
      let t' : Tally := ⟨t.lines + 1, t.empty, Counter.bump t.counts (lineCount env delimiter quote l) 1⟩
      if 1000 ≤ t.lines + 1 then t' else tally env delimiter quote t' ls

/-- The most common number of delimiters, the first of these (csv_data.py:724-732). -/
def mostCommonCount (best : Option (ℕ × ℕ)) (x : ℕ × ℕ) : Option (ℕ × ℕ) :=
  match best with
  | none => some x
  | some b => if b.2 < x.2 then some x else some b

/-- The decision (csv_data.py:707-742). -/
def decideCsv (hasDelimiter : Bool) (t : Tally) : Bool :=
  if t.lines - t.empty ≤ 3 then false
  else
    let deviation : ℕ := 2 ^ ((Nat.toDigits 10 t.lines).length - 1)
    let active := t.lines - t.empty
    match t.counts.foldl mostCommonCount none with
    | none => false
    | some b =>
      decide (0 < b.1 ∨ hasDelimiter = false) &&
        decide (((active : ℚ) - (deviation : ℚ)) / (active : ℚ) ≤ ratio b.2 ((t.counts.map (·.2)).sum))

/-- The lines behind the header. -/
def behind (h : Option ℕ) (rows : List (List Char)) : List (List Char) :=
  match h with
  | none => rows
  | some n => rows.drop n

/-- `CSVData.is_match` (csv_data.py:624-742) on the text read: the delimiter, quote character and header used if it is recognised.
`other` tells whether the file is JSON, Parquet or Avro. -/
def isMatch (env : Env) (other : Bool) (delimiter quote : Option Char) (header : Header) (text : List Char) :
    Option (Option Char × Option Char × Option ℕ) :=
  if other then none
  else
    let d := match delimiter with | some d => some d | none => (guess env text).1
    let q := match delimiter with | some _ => quote | none => some (guess env text).2
    let h := match header with | .auto => guessHeader env text d q | .none => none | .row n => some n
    if decideCsv d.isSome (tally env d q {} (behind h (splitLines text))) then some (d, q, h) else none

end Verif.Csv
