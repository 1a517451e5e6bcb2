import Verif.Model.Json

/-!
# Recognising and reading JSON files

Models `JSONData.is_match` (dataprofiler/data_readers/json_data.py:368-422), `_load_data_from_str` and `_load_data_from_file`
(json_data.py:240-281), `unicode_to_str` (data_utils.py:94-121), `read_json` (data_utils.py:223-277), `read_json_df`
(data_utils.py:166-220), `json_to_dataframe` (data_utils.py:124-163) and `ParquetData._load_data_from_str`
(parquet_data.py:97-104).

`json.loads` is a parameter; it fails for a text that is not JSON. Which texts cannot be encoded, having half of a surrogate pair,
is a parameter as well.  A file is the list of its lines with
their ends, a line that cannot be decoded being `none`.  In-memory text has lines as `str.splitlines` has them; carriage returns are
left out.
-/

namespace Verif.JsonRead

open Verif Verif.Json

variable {A : Type}

abbrev Line := List Char

/-- Lines with their ends, as a text file gives them; `brk` says which characters end a line. -/
def fileLines (brk : Char → Bool) : List Char → List Line
  | [] => []
  | c :: cs =>
    if brk c then [c] :: fileLines brk cs
    else
      match fileLines brk cs with
      | [] => [[c]]
      | l :: ls => (c :: l) :: ls

/-- `str.splitlines()`: lines without their ends. -/
def splitLines (brk : Char → Bool) (text : List Char) : List Line :=
  (fileLines brk text).map fun l => l.filter fun c => !brk c

/-- The characters at which `str.splitlines` cuts, but for the carriage return. -/
def pythonBreaks : List Char :=
  ['\n', Char.ofNat 0x0b, Char.ofNat 0x0c, Char.ofNat 0x1c, Char.ofNat 0x1d, Char.ofNat 0x1e, Char.ofNat 0x85, Char.ofNat 0x2028,
    Char.ofNat 0x2029]

/-- The regular expression `(:|\[)` is found (json_data.py:399). -/
def marked (l : Line) : Bool := l.any fun c => c = ':' ∨ c = '['

/-- The loop over the lines (json_data.py:400-415): iterations left, lines counted and lines valid so far; `none` if a line cannot be
decoded. The end of the file is counted as a line. -/
def scan (loads : Line → Option (J A)) : ℕ → ℕ → ℕ → List (Option Line) → Option (ℕ × ℕ)
  | 0, total, valid, _ => some (total, valid)
  | _ + 1, total, valid, [] => some (total + 1, valid)
  | _ + 1, _, _, none :: _ => none
  | n + 1, total, valid, some l :: ls =>
    scan loads n (total + 1) (if marked l ∧ (loads l).isSome then valid + 1 else valid) ls

/-- `JSONData.is_match` (json_data.py:368-422): the whole file is JSON, or at least half of what was counted. -/
def isMatch (loads : Line → Option (J A)) (file : List (Option Line)) : Bool :=
  match (file.mapM id).bind (fun ls => loads ls.flatten) with
  | some _ => true
  | none =>
    match scan loads 1000 0 0 file with
    | none => false
    | some (total, valid) => total ≤ 2 * valid

mutual
/-- `unicode_to_str` (data_utils.py:94-121): texts that cannot be encoded raise a `UnicodeEncodeError`, which is a `ValueError`;
`bad` and `badKey` are the texts and keys that cannot. -/
def unicodeToStr (bad : A → Bool) (badKey : Key → Bool) (ignoreDicts : Bool) : J A → Except Err (J A)
  | .val a => if bad a then .error .valueError else .ok (.val a)
  | .list xs => (unicodeList bad badKey xs).map .list
  | .obj fields => if ignoreDicts then .ok (.obj fields) else (unicodeFields bad badKey fields).map .obj

/-- The items of a list (data_utils.py:108-109). -/
def unicodeList (bad : A → Bool) (badKey : Key → Bool) : List (J A) → Except Err (List (J A))
  | [] => .ok []
  | x :: xs =>
    match unicodeToStr bad badKey true x with
    | .error e => .error e
    | .ok y => (unicodeList bad badKey xs).map (y :: ·)

/-- The items of a dictionary (data_utils.py:112-118). -/
def unicodeFields (bad : A → Bool) (badKey : Key → Bool) : List (Key × J A) → Except Err (List (Key × J A))
  | [] => .ok []
  | (k, x) :: rest =>
    if badKey k then .error .valueError
    else
      match unicodeToStr bad badKey true x with
      | .error e => .error e
      | .ok y => (unicodeFields bad badKey rest).map ((k, y) :: ·)
end

/-- One line (data_utils.py:207-216, 262-271): `json.loads`, whose `object_hook` counts for nothing beside `object_pairs_hook`, and
`unicode_to_str` of what it gives; a `ValueError` of either leaves the line out. -/
def lineLoads (bad : A → Bool) (loads : Line → Option (J A)) (l : Line) : Option (J A) :=
  match loads l with
  | none => none
  | some j => (unicodeToStr bad (fun _ => false) true j).toOption

/-- `read_json` (data_utils.py:252-277): the loop ends at the first empty text; `k` lines were seen. -/
def readLoop (loads : Line → Option (J A)) : ℕ → List (J A) → List (Option Line) → Except Err (ℕ × List (J A))
  | k, acc, [] => .ok (k, acc)
  | _, _, none :: _ => .error .valueError
  | k, acc, some [] :: _ => .ok (k, acc)
  | k, acc, some l :: ls =>
    match loads l with
    | some j => readLoop loads (k + 1) (acc ++ [j]) ls
    | none => readLoop loads (k + 1) acc ls

/-- `read_json` (data_utils.py:223-277). -/
def readJson (loads : Line → Option (J A)) (lines : List (Option Line)) : Except Err (List (J A)) := do
  let r ← readLoop loads 0 [] lines
  if r.2.isEmpty ∧ 0 < r.1 then .error .valueError else .ok r.2

/-- What was read: a whole document, or one per line, whose dictionaries are of the class `OrderedDict`. -/
inductive Loaded (A : Type) where
  | doc (j : J A)
  | lines (js : List (J A))

/-- `_load_data_from_file` (json_data.py:260-281). -/
def loadFile (bad : A → Bool) (loads : Line → Option (J A)) (file : List (Option Line)) : Except Err (Loaded A) :=
  match (file.mapM id).bind (fun ls => loads ls.flatten) with
  | some j => .ok (.doc j)
  | none => (readJson (lineLoads bad loads) file).map .lines

/-- `_load_data_from_str` (json_data.py:240-258). -/
def loadText (bad : A → Bool) (brk : Char → Bool) (loads : Line → Option (J A)) (text : List Char) : Except Err (Loaded A) :=
  match loads text with
  | some j => .ok (.doc j)
  | none => (readJson (lineLoads bad loads) ((splitLines brk text).map some)).map .lines

/-- How `json_to_dataframe` makes the frame (data_utils.py:146-156). -/
inductive Frame (A : Type) where
  | empty
  /-- `pd.json_normalize`: dictionaries inside dictionaries become columns -/
  | normalized (js : List (J A))
  /-- `pd.DataFrame`: dictionaries inside dictionaries stay in the cells -/
  | plain (js : List (J A))

/-- `json_to_dataframe` (data_utils.py:124-163) up to the conversion of cells to text; `same x y`: `y` is an instance of the type of `x`;
the class `OrderedDict` is not `dict`. -/
def toFrame (same : J A → J A → Bool) (ordered : Bool) : List (J A) → Except Err (Frame A)
  | [] => .ok .empty
  | j :: js =>
    if (j :: js).all (same j) then .ok (if j.isObj ∧ !ordered then .normalized (j :: js) else .plain (j :: js))
    else .error .valueError

/-- A text in memory given as the data of a Parquet file: `ParquetData._load_data_from_str` (parquet_data.py:97-104) and
`read_json_df` (data_utils.py:166-220), whose loop is that of `read_json`. -/
def parquetText (bad : A → Bool) (same : J A → J A → Bool) (brk : Char → Bool) (loads : Line → Option (J A)) (text : List Char) :
    Except Err (Frame A) :=
  match readJson (lineLoads bad loads) ((splitLines brk text).map some) with
  | .error e => .error e
  | .ok js => toFrame same true js

/-- `_get_data_as_df` (json_data.py:313-330); a scalar has no length. -/
def frame (same : J A → J A → Bool) : Loaded A → Except Err (Frame A)
  | .doc (.obj fields) => toFrame same false [.obj fields]
  | .doc (.list xs) => toFrame same false xs
  | .doc (.val _) => .error .typeError
  | .lines js => toFrame same true js

end Verif.JsonRead
