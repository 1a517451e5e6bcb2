import Verif.Model.Basic
import Verif.Model.Json

/-!
# Metadata of JSON documents

Models the properties `metadata` and `data_and_metadata` of `JSONData` (dataprofiler/data_readers/json_data.py:94-110), the attribute
`_metadata` they use (85, 234-236), and `data` and `data_format` (base_data.py:66-97).

Simplifications
* a reader has one document, which can be read; what it is in the four formats is given (`Doc`), the flattened one by `Verif.Json.flattened`;
* a data frame is the list of its rows, from the first index on, each with the cells that are there.
-/

namespace Verif.Metadata

open Verif
open Verif.Json (Key)

variable {V : Type}

/-- A data frame. -/
abbrev Frame (V : Type) := List (List (Key × V))

/-- The formats (json_data.py:72-76, structured_mixins.py:33). -/
inductive Format where
  | flattened | dataframe | records | json
  deriving DecidableEq

/-- What `data` returns: a data frame or lines (json_data.py:172-328). -/
inductive Value (V : Type) where
  | frame (f : Frame V)
  | lines (ls : List (List Char))
  deriving DecidableEq

/-- A document in the formats. Flattening gives the metadata as well, if there is a payload (json_data.py:172-238, 283-328). -/
structure Doc (V : Type) where
  flat : Except Err (Frame V × Option (Frame V))
  plain : Except Err (Frame V)
  records : Except Err (List (List Char))
  json : Except Err (List (List Char))

/-- The attributes `_selected_data_format` and `_metadata` (json_data.py:77-85). -/
structure Reader (V : Type) where
  format : Format
  metadata : Option (Frame V)

/-- A new reader (json_data.py:77-85). -/
def new (f : Format) : Reader V := ⟨f, none⟩

/-- `data` (base_data.py:66-82). The metadata are set if flattening found a payload (json_data.py:234-236). -/
def data (d : Doc V) (r : Reader V) : Reader V × Except Err (Value V) :=
  match r.format with
  | .flattened =>
    match d.flat with
    | .error e => (r, .error e)
    | .ok (f, none) => (r, .ok (.frame f))
    | .ok (f, some m) => ({ r with metadata := some m }, .ok (.frame f))
  | .dataframe => (r, d.plain.map .frame)
  | .records => (r, d.records.map .lines)
  | .json => (r, d.json.map .lines)

/-- `DataFrame.empty`: no rows or no columns. -/
def empty (f : Frame V) : Bool := f.all List.isEmpty

/-- `metadata` (json_data.py:94-99): the attribute, and whether there is a warning. -/
def metadata (r : Reader V) : Option (Frame V) × Bool :=
  (r.metadata, match r.metadata with | none => true | some m => empty m)

/-- `pd.concat([a, b], axis=1)`: rows of the same index side by side (json_data.py:107). -/
def concat : Frame V → Frame V → Frame V
  | [], b => b
  | a, [] => a
  | x :: a, y :: b => (x ++ y) :: concat a b

/-- `data_and_metadata` (json_data.py:101-109). `pd.concat` refuses lists. -/
def dataAndMetadata (d : Doc V) (r : Reader V) : Reader V × Except Err (Value V) :=
  let (r, v) := data d r
  (r, v.bind fun v =>
    match r.metadata with
    | none => .ok v
    | some m =>
      if empty m then .ok v
      else
        match v with
        | .frame f => .ok (.frame (concat m f))
        | .lines _ => .error .typeError)

/-- What a user does with a reader (json_data.py:94-110, base_data.py:66-97). -/
inductive Step where
  | data
  | metadata
  | both
  | format (f : Format)

/-- The reader afterwards. -/
def step (d : Doc V) (r : Reader V) : Step → Reader V
  | .data => (data d r).1
  | .metadata => r
  | .both => (dataAndMetadata d r).1
  | .format f => { r with format := f }

/-- Steps one after the other. -/
def run (d : Doc V) (f : Format) (steps : List Step) : Reader V := steps.foldl (step d) (new f)

end Verif.Metadata
