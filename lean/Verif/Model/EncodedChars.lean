import Verif.Model.CharLabels
import Verif.Model.PyDict
import Mathlib.Data.Rat.Floor

/-!
# Texts as numbers

Models `CharEncodedPreprocessor` (dataprofiler/labelers/data_processing.py:749-883): the check of its encoding map and `process`, on
top of `CharPreprocessor.process` (data_processing.py:671-747).

NumPy stores the numbers of a row one by one; what it does with things that are no numbers is as for Python's `int`, and numbers that
do not fit raise `OverflowError`, here `exception`.  The generator is run to its end: batches yielded before an error are not kept, and
labels are looked up for all texts before the first batch is encoded.  That the label mapping is not empty is assumed; one-hot
encoding of the labels is left out.
-/

namespace Verif.EncodedChars

open Verif

/-- Keys of a map: texts, or anything else, by a number. -/
inductive Key
  | text (s : String)
  | other (n : ℕ)
  deriving DecidableEq

/-- Values of a map. -/
inductive Code
  | int (i : ℤ)
  | bool (b : Bool)
  | float (q : ℚ)
  | str (s : String)
  | none
  deriving DecidableEq

/-- An encoding map. -/
abbrev EncMap := PyDict Key Code

/-- `isinstance(x, str)`. -/
def Key.isStr : Key → Bool
  | .text _ => true
  | .other _ => false

/-- `isinstance(x, int)`: so are booleans. -/
def Code.isInt : Code → Bool
  | .int _ => true
  | .bool _ => true
  | _ => false

/-- `_validate_parameters` for the encoding map (data_processing.py:818-828); without one there is `None`. -/
def accepts : Option EncMap → Bool
  | none => false
  | some m => m.all (fun kv => kv.1.isStr) || m.all (fun kv => kv.2.isInt)

/-- Storing a value in an array of 64-bit integers (data_processing.py:873); `parse` reads an integer from a text. -/
def store (parse : String → Option ℤ) : Code → Except Err ℤ
  | .int i => if -(2 ^ 63) ≤ i ∧ i < 2 ^ 63 then .ok i else .error .exception
  | .bool b => .ok (if b then 1 else 0)
  | .float q => .ok (if q < 0 then ⌈q⌉ else ⌊q⌋)
  | .str s => match parse s with
    | some i => .ok i
    | none => .error .valueError
  | .none => .error .typeError

/-- `encoding_map.get(c, 0)` (data_processing.py:875). -/
def lookUp (m : EncMap) (s : String) : Code := PyDict.getD m (.text s) (.int 0)

/-- `processed_x[i][:text_len] = …` (data_processing.py:869-877): a row of zeros, its beginning overwritten. -/
def encodeText (parse : String → Option ℤ) (m : EncMap) (maxLen : ℕ) (text : List Char) : Except Err (List ℤ) :=
  match text.mapM fun c => store parse (lookUp m (String.singleton c)) with
  | .error e => .error e
  | .ok codes =>
    if text.length ≤ maxLen then .ok (codes ++ (List.replicate maxLen 0).drop text.length) else .error .valueError

/-- `process` without labels (data_processing.py:839-883). -/
def encode (parse : String → Option ℤ) (p : CharProcess.Params Char) (m : EncMap) (size : ℕ) (texts : List (List Char)) :
    Except Err (List (List (List ℤ))) :=
  match CharProcess.process p () () size (texts.map fun t => (t, ([] : List Unit))) with
  | .error e => .error e
  | .ok batches => batches.mapM fun b => b.mapM fun x => encodeText parse m p.maxLen x.1

/-- Labels: a list, or an array of the lists of entities; if these are equally many, NumPy makes an array of more dimensions of them. -/
inductive Labels (K : Type)
  | list (ls : List (List (ℤ × ℤ × K)))
  | array (ls : List (List (ℤ × ℤ × K)))
  | nested (ls : List (List (ℤ × ℤ × K)))

/-- The entities of each text. -/
def Labels.entities {K : Type} : Labels K → List (List (ℤ × ℤ × K))
  | .list ls => ls
  | .array ls => ls
  | .nested ls => ls

/-- `if labels:` (data_processing.py:863, 879). -/
def Labels.truth {K : Type} : Labels K → Except Err Bool
  | .list ls => .ok !ls.isEmpty
  | .array [] => .ok false
  | .array [es] => .ok !es.isEmpty
  | .array _ => .error .valueError
  | .nested ls => if ls.flatten = [] then .ok false else .error .valueError

/-- One batch with labels (data_processing.py:861-883).  If the labels count as false, samples and labels are taken for two texts: the
first sample is looked up as a whole, and the rows of the labels cannot be looked up. -/
def encodeBatch {K L : Type} (parse : String → Option ℤ) (m : EncMap) (maxLen : ℕ) (labels : Labels K)
    (b : List (List Char × List L)) : Except Err (List (List ℤ) × List (List L)) :=
  match labels.truth with
  | .error e => .error e
  | .ok true => match b.mapM fun x => encodeText parse m maxLen x.1 with
    | .error e => .error e
    | .ok rows => .ok (rows, b.map (·.2))
  | .ok false => match b.head? with
    | none => .error .indexError
    | some x => match store parse (lookUp m (String.ofList x.1)) with
      | .error e => .error e
      | .ok _ => .error .typeError

/-- `process` with labels (data_processing.py:839-883, 710-721). -/
def encodeLabelled {K L : Type} (parse : String → Option ℤ) (p : CharProcess.Params Char) (m : EncMap) (mapping : K → Option L)
    (pad dflt : K) (size : ℕ) (texts : List (List Char)) (labels : Labels K) :
    Except Err (List (List (List ℤ) × List (List L))) :=
  if texts.length ≠ labels.entities.length then .error .valueError
  else
    match CharLabels.train p mapping pad dflt size (texts.zip labels.entities) with
    | .error e => .error e
    | .ok batches => batches.mapM (encodeBatch parse m p.maxLen labels)

end Verif.EncodedChars
