import Verif.Model.Chunks

/-!
# Delimited data as records

Models `CSVData._get_data_as_records` (dataprofiler/data_readers/csv_data.py:615-621) and the method of `SpreadSheetDataMixin` it ends with
(structured_mixins.py:72-83), down to the writer of the module `csv` that `DataFrame.to_csv(index=False)` uses.

Simplifications
* a cell is a text or missing (readers make texts of all cells); texts have no surrogates, so they survive UTF-8;
* fields are quoted as little as possible, the default of pandas; which fields beyond those with delimiter, quote character or line end
  are quoted depends on the version of Python and is a parameter;
* lines end with `\n`, as on Linux.
-/

namespace Verif.CsvRecords

open Verif

/-- The delimiter, the quote character, and what else is quoted. -/
structure Dialect where
  delim : Char
  quote : Char
  also : List Char → Bool

/-- `self.delimiter if self.delimiter else self._default_delimiter` (csv_data.py:617-618); the writer takes one character only. -/
def character (x : Option String) (dflt : Char) : Except Err Char :=
  match (x.getD "").toList with
  | [] => .ok dflt
  | [c] => .ok c
  | _ => .error .typeError

/-- Whether the writer quotes a field; a line of one empty field would be a blank line. -/
def quoted (D : Dialect) (alone : Bool) (f : List Char) : Bool :=
  f.any (fun c => c = D.delim || c = D.quote || c = '\n') || D.also f || (alone && f.isEmpty)

/-- A field as it is written: quote characters are doubled. -/
def field (D : Dialect) (alone : Bool) (f : List Char) : List Char :=
  if quoted D alone f then D.quote :: (f.flatMap fun c => if c = D.quote then [c, c] else [c]) ++ [D.quote] else f

/-- `sep.join(l)`. -/
def join (sep : Char) : List (List Char) → List Char
  | [] => []
  | [l] => l
  | l :: ls => l ++ sep :: join sep ls

/-- A row as it is written. -/
def row (D : Dialect) (fs : List (List Char)) : List Char := join D.delim (fs.map (field D (fs.length == 1)))

/-- `data.to_csv(sep=sep, quotechar=quote, index=False)` (csv_data.py:619): the names of the columns, then the rows; missing cells are
empty. -/
def written (D : Dialect) (names : List (List Char)) (rows : List (List (Option (List Char)))) : List Char :=
  (names :: rows.map fun r => r.map fun c => c.getD []).flatMap fun r => row D r ++ ['\n']

/-- The characters `str.splitlines` splits at. -/
def breaks : List Char :=
  ['\n', '\r', Char.ofNat 11, Char.ofNat 12, Char.ofNat 28, Char.ofNat 29, Char.ofNat 30, Char.ofNat 0x85, Char.ofNat 0x2028,
    Char.ofNat 0x2029]

/-- `text.splitlines()` (csv_data.py:620); `cr` if the character before was a carriage return, which a line feed belongs to. -/
def splitLines (cr : Bool) : List Char → List (List Char)
  | [] => []
  | c :: t =>
    if cr && c = '\n' then splitLines false t
    else if breaks.contains c then [] :: splitLines (c = '\r') t
    else
      match splitLines false t with
      | [] => [[c]]
      | l :: ls => (c :: l) :: ls

/-- `SpreadSheetDataMixin._get_data_as_records` (structured_mixins.py:72-83). -/
def joined (lines : List (List Char)) (perLine : ℕ) : Except Err (List (List Char)) :=
  (Chunks.recordGroups lines perLine).map fun groups => groups.map (join '\n')

/-- `CSVData._get_data_as_records` (csv_data.py:615-621); `perLine` is the option `record_samples_per_line`. -/
def records (also : List Char → Bool) (delimiter quote : Option String) (perLine : ℕ) (names : List (List Char))
    (rows : List (List (Option (List Char)))) : Except Err (List (List Char)) :=
  match character delimiter ',', character quote '"' with
  | .ok d, .ok q => joined (splitLines false (written ⟨d, q, also⟩ names rows)) perLine
  | _, _ => .error .typeError

end Verif.CsvRecords
