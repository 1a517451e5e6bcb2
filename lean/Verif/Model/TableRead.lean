import Mathlib.Data.Int.Notation
import Verif.Model.Basic
import Verif.Model.Reservoir

/-!
# Reading tables

Models how `ParquetData` reads a file (dataprofiler/data_readers/parquet_data.py:106-115, data_utils.py:476-567) and how `CSVData` reads a
file or a text (csv_data.py:543-613, data_utils.py:370-441).

Simplifications
* a Parquet file is given by its columns, each of them divided into the row groups; columns are integers, floats, booleans or texts; the
  index is not stored in the file;
* doubles are an arbitrary type; `ofInt` rounds an integer to one and `show` prints it;
* `convert_unicode_col_to_utf8` (data_utils.py:444-473) changes columns of texts mixed with other values only, and a Parquet column of these
  types is never mixed; the original types of the columns are not modelled;
* the parser of pandas, the heuristics for delimiter, quote character and header row (see C66, C67) and the part of the file they look at
  (see C44) are parameters; so is the encoding, and closing and detaching the streams is left out.
-/

namespace Verif.TableRead

open Verif

/-! ### Parquet -/

/-- Doubles. -/
structure Doubles (D : Type) where
  ofInt : ℤ → D
  nan : D
  /-- `str` of a double -/
  shown : D → String
  /-- `str` of an integer -/
  dec : ℤ → String

/-- A column of a file: the row groups, with nulls. -/
inductive Column (D : Type)
  | ints (groups : List (List (Option ℤ)))
  | floats (groups : List (List (Option D)))
  | bools (groups : List (List (Option Bool)))
  | texts (groups : List (List (Option String)))

/-- The sizes of the row groups of a column. -/
def Column.sizes {D : Type} : Column D → List ℕ
  | .ints g => g.map List.length
  | .floats g => g.map List.length
  | .bools g => g.map List.length
  | .texts g => g.map List.length

/-- A file: the sizes of its row groups, and its columns. -/
structure File (D : Type) where
  sizes : List ℕ
  columns : List (String × Column D)

/-- An object in a column of pandas. -/
inductive Obj
  | none
  | bool (b : Bool)
  | str (s : String)
  deriving DecidableEq

/-- A column of pandas. -/
inductive Arr (D : Type)
  | ints (l : List ℤ)
  | floats (l : List D)
  | bools (l : List Bool)
  | objs (l : List Obj)

variable {D : Type}

/-- `to_pandas` of integers: with nulls the column becomes one of floats. -/
def intArr (E : Doubles D) (l : List (Option ℤ)) : Arr D :=
  if l.any Option.isNone then .floats (l.map fun
    | none => E.nan
    | some z => E.ofInt z)
  else .ints (l.filterMap id)

/-- `to_pandas` of floats. -/
def floatArr (E : Doubles D) (l : List (Option D)) : Arr D := .floats (l.map fun
  | none => E.nan
  | some d => d)

/-- `to_pandas` of booleans: with nulls the column becomes one of objects. -/
def boolArr (l : List (Option Bool)) : Arr D :=
  if l.any Option.isNone then .objs (l.map fun
    | none => .none
    | some b => .bool b)
  else .bools (l.filterMap id)

/-- `to_pandas` of texts. -/
def textArr (l : List (Option String)) : Arr D := .objs (l.map fun
  | none => .none
  | some s => .str s)

/-- The objects of a column without numbers. -/
def Arr.objects : Arr D → List Obj
  | .bools l => l.map .bool
  | .objs l => l
  | _ => []

/-- `pd.concat` of two columns: integers and floats give floats, booleans and objects give objects.  Numbers and objects do not meet in a
column of a file. -/
def concat (E : Doubles D) : Arr D → Arr D → Arr D
  | .ints a, .ints b => .ints (a ++ b)
  | .ints a, .floats b => .floats (a.map E.ofInt ++ b)
  | .floats a, .ints b => .floats (a ++ b.map E.ofInt)
  | .floats a, .floats b => .floats (a ++ b)
  | .bools a, .bools b => .bools (a ++ b)
  | a, b => .objs (a.objects ++ b.objects)

/-- `pd.concat` of the row groups, one after the other (data_utils.py:541-552); a column that is missing in the empty frame does not
count. -/
def concatAll (E : Doubles D) : List (Arr D) → Option (Arr D)
  | [] => none
  | a :: l => some (l.foldl (concat E) a)

/-- `str` of an object. -/
def Obj.text : Obj → String
  | .none => "None"
  | .bool b => if b then "True" else "False"
  | .str s => s

/-- `astype(str)`. -/
def Arr.texts (E : Doubles D) : Arr D → List String
  | .ints l => l.map E.dec
  | .floats l => l.map E.shown
  | .bools l => l.map fun b => Obj.text (.bool b)
  | .objs l => l.map Obj.text

/-- The row groups of a column in pandas. -/
def Column.arrs (E : Doubles D) : Column D → List (Arr D)
  | .ints g => g.map (intArr E)
  | .floats g => g.map (floatArr E)
  | .bools g => g.map boolArr
  | .texts g => g.map textArr

/-- A frame: the labels of the rows, and the columns. -/
structure Frame where
  labels : List ℤ
  columns : List (String × List String)
  deriving DecidableEq

/-- Labels of a frame that has none of its own: counted from zero. -/
def counted (n : ℕ) : List ℤ := (List.range n).map fun (i : ℕ) => (i : ℤ)

/-- `frame[selected]`. -/
def select {α : Type} (missing : Err) (selected : List String) (cols : List (String × α)) : Except Err (List (String × α)) :=
  if selected.all fun n => cols.any fun c => c.1 = n then .ok (selected.flatMap fun n => cols.filter fun c => c.1 = n)
  else .error missing

/-- `if selected_columns:`. -/
def selectIf {α : Type} (missing : Err) (selected : List String) (cols : List (String × α)) : Except Err (List (String × α)) :=
  if selected = [] then .ok cols else select missing selected cols

/-- The texts of a column read row group by row group. -/
def Column.whole (E : Doubles D) (c : Column D) : List String := ((concatAll E (c.arrs E)).map (Arr.texts E)).getD []

/-- `read_parquet_df` without a sample (data_utils.py:537-558): a file without row groups gives an empty frame. -/
def readAll (E : Doubles D) (selected : List String) (f : File D) : Except Err Frame :=
  if f.sizes = [] then .ok ⟨[], []⟩
  else
    match selectIf .keyError selected f.columns with
    | .error e => .error e
    | .ok cols => .ok ⟨f.sizes.flatMap counted, cols.map fun c => (c.1, c.2.whole E)⟩

/-- The rows of a column that were sampled, in pandas. -/
def Column.sampled (E : Doubles D) (sample : List ℕ) (n : ℕ) : Column D → Arr D
  | .ints g => intArr E (Reservoir.sampleParquet sample n g.flatten)
  | .floats g => floatArr E (Reservoir.sampleParquet sample n g.flatten)
  | .bools g => boolArr (Reservoir.sampleParquet sample n g.flatten)
  | .texts g => textArr (Reservoir.sampleParquet sample n g.flatten)

/-- `sample_parquet` (data_utils.py:476-518); `sample` is the result of `random.sample`. -/
def readSample (E : Doubles D) (selected : List String) (sample : List ℕ) (n : ℕ) (f : File D) : Except Err Frame :=
  match selectIf .exception selected f.columns with
  | .error e => .error e
  | .ok cols => .ok ⟨counted (min n f.sizes.sum), cols.map fun c => (c.1, (c.2.sampled E sample n).texts E)⟩

/-- `read_parquet_df` (data_utils.py:521-567). -/
def readParquet (E : Doubles D) (selected : List String) (sample : List ℕ) (n : Option ℕ) (f : File D) : Except Err Frame :=
  match n with
  | none => readAll E selected f
  | some n => readSample E selected sample n f

/-! ### Delimited files -/

/-- The option `header`. -/
inductive Header
  | auto
  | row (n : Option ℕ)
  deriving DecidableEq

/-- The settings of a reader (csv_data.py:78-90). -/
structure Settings where
  delimiter : Option String
  quote : Option String
  header : Header
  checked : Bool
  columns : List String
  nrows : Option ℕ
  deriving DecidableEq

/-- The arguments of `pd.read_csv` (data_utils.py:396-413): the quote character is its default. -/
structure Args where
  delimiter : Option String
  header : Option ℕ
  columns : List String
  skipBlank : Bool
  quote : String
  deriving DecidableEq

/-- What is not modelled: the first part of a file, the guesses, the parser, and the draws of a sample. -/
structure Lib where
  front : List Char → List Char
  guess : List Char → Option String × Option String
  header : List Char → Option String → Option String → Option ℕ
  parse : Args → List Char → Except Err Frame
  draws : ℕ → Reservoir.Draw
  /-- blanks that `str.strip` removes -/
  blank : Char → Bool

/-- `not x` for a text that may be missing. -/
def missing (x : Option String) : Bool := x = none || x = some ""

/-- The lines of a stream, with their ends. -/
def lines : List Char → List (List Char)
  | [] => []
  | c :: t =>
    if c = '\n' then [c] :: lines t
    else
      match lines t with
      | [] => [[c]]
      | l :: ls => (c :: l) :: ls

/-- `read_csv_df` (data_utils.py:370-441). -/
def readCsv (L : Lib) (delimiter : Option String) (header : Option ℕ) (nrows : Option ℕ) (columns : List String) (text : List Char) :
    Except Err Frame :=
  match nrows with
  | none => L.parse ⟨delimiter, header, columns, header = none, "\""⟩ text
  | some 0 => L.parse ⟨delimiter, header, columns, header = none, "\""⟩ text
  | some n =>
    match Reservoir.rsample L.draws header n (lines text) with
    | .error e => .error e
    | .ok (sampled, h) => L.parse ⟨delimiter, h, columns, header = none, "\""⟩ sampled

/-- The delimiter and the quote character are guessed if they are missing (csv_data.py:545-551, 574-580). -/
def guessed (L : Lib) (s : Settings) (text : List Char) : Settings :=
  if missing s.delimiter || missing s.quote then
    { s with
      delimiter := if missing s.delimiter then (L.guess text).1 else s.delimiter
      quote := if missing s.quote then (L.guess text).2 else s.quote }
  else s

/-- The header row is guessed if it is to be (csv_data.py:554-557, 582-586). -/
def headed (L : Lib) (s : Settings) (text : List Char) : Settings :=
  match s.header with
  | .auto => { s with header := .row (L.header text s.delimiter s.quote) }
  | .row _ => s

/-- `text.split("\n")`. -/
def splitNl : List Char → List (List Char)
  | [] => [[]]
  | c :: t =>
    if c = '\n' then [] :: splitNl t
    else
      match splitNl t with
      | [] => [[c]]
      | l :: ls => (c :: l) :: ls

/-- `line.count(d)` for a text that is not empty: occurrences that do not overlap. -/
def occurrences (d : List Char) : ℕ → List Char → ℕ
  | 0, _ => 0
  | _ + 1, [] => 0
  | fuel + 1, c :: t =>
    if d.isPrefixOf (c :: t) then 1 + occurrences d fuel ((c :: t).drop d.length) else occurrences d fuel t

/-- The last character of `line.strip()`. -/
def lastInk (blank : Char → Bool) (line : List Char) : Option Char := (line.reverse.dropWhile blank).head?

/-- The loop over the lines (csv_data.py:592-602): how many end with the only delimiter, and how many are not empty.  A line of blanks has
no last character. -/
def countLast (blank : Char → Bool) (d : List Char) : List (List Char) → Except Err (ℕ × ℕ)
  | [] => .ok (0, 0)
  | [] :: ls => countLast blank d ls
  | l :: ls =>
    if occurrences d l.length l = 1 then
      match lastInk blank l with
      | none => .error .indexError
      | some c =>
        match countLast blank d ls with
        | .error e => .error e
        | .ok (a, b) => .ok (if [c] = d then a + 1 else a, b + 1)
    else
      match countLast blank d ls with
      | .error e => .error e
      | .ok (a, b) => .ok (a, b + 1)

/-- A delimiter that only ends the lines is dropped (csv_data.py:588-604). -/
def trimmed (blank : Char → Bool) (s : Settings) (text : List Char) : Except Err Settings :=
  if missing s.delimiter || text.isEmpty then .ok s
  else
    match countLast blank (s.delimiter.getD "").toList (splitNl text) with
    | .error e => .error e
    | .ok (a, b) => .ok (if a = b then { s with delimiter := none } else s)

/-- The header row that is used. -/
def Header.used : Header → Option ℕ
  | .auto => none
  | .row n => n

/-- The settings found before the file is read (csv_data.py:572-586). -/
def found (L : Lib) (s : Settings) (text : List Char) : Settings :=
  if missing s.delimiter || !s.checked then
    match (guessed L s text).header with
    | .auto => { headed L (guessed L s text) text with checked := true }
    | .row _ => guessed L s text
  else s

/-- `_load_data_from_file` (csv_data.py:567-613): the settings left behind, and the frame. -/
def loadFile (L : Lib) (s : Settings) (text : List Char) : Settings × Except Err Frame :=
  match trimmed L.blank (found L s (L.front text)) (L.front text) with
  | .error e => (found L s (L.front text), .error e)
  | .ok s' => (s', readCsv L s'.delimiter s'.header.used s'.nrows s'.columns text)

/-- `_load_data_from_str` (csv_data.py:543-565). -/
def loadText (L : Lib) (s : Settings) (text : List Char) : Settings × Except Err Frame :=
  let s' := headed L (guessed L s text) text
  (s', readCsv L s'.delimiter s'.header.used s'.nrows s'.columns text)

end Verif.TableRead
