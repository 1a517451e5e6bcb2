import Verif.Model.Basic
import Mathlib.Data.Nat.Notation

/-!
# Files of embeddings

Models `build_embd_dictionary` and `create_glove_char` (dataprofiler/labelers/character_level_cnn_model.py:27-74).

Simplifications
* numbers are kept as the texts that stand in the file, as `build_embd_dictionary` does (it makes arrays of texts); the principal component
  analysis of sklearn is a parameter that gives the texts of the new numbers or an exception;
* which characters are white space is a parameter;
* encoding and the file system are left out: a file is its text.
-/

namespace Verif.Embedding

open Verif

/-- A text. -/
abbrev Text := List Char

/-- Reading a file in text mode makes line feeds of `\r\n` and `\r`. -/
def universal : Text → Text
  | '\r' :: '\n' :: cs => '\n' :: universal cs
  | '\r' :: cs => '\n' :: universal cs
  | c :: cs => c :: universal cs
  | [] => []

/-- The lines of a file, each with its line feed; `cur` is the beginning of the current line. -/
def linesFrom (cur : Text) : Text → List Text
  | [] => if cur = [] then [] else [cur]
  | c :: cs => if c = '\n' then (cur ++ [c]) :: linesFrom [] cs else linesFrom (cur ++ [c]) cs

/-- `line.split()`, also after `line.strip()`, which takes away only white space at the ends. -/
def fieldsFrom (sp : Char → Bool) (cur : Text) : Text → List Text
  | [] => if cur = [] then [] else [cur]
  | c :: cs =>
    if sp c then (if cur = [] then fieldsFrom sp [] cs else cur :: fieldsFrom sp [] cs)
    else fieldsFrom sp (cur ++ [c]) cs

/-- A dictionary of words and vectors in insertion order. -/
abbrev Table := List (Text × List Text)

/-- `embd_table[w] = v`. -/
def put (w : Text) (v : List Text) : Table → Table
  | [] => [(w, v)]
  | x :: xs => if x.1 = w then (w, v) :: xs else x :: put w v xs

/-- Lines 37-38: one line; `line[0]` raises if there is no field. -/
def addLine (sp : Char → Bool) (t : Table) (line : Text) : Except Err Table :=
  match fieldsFrom sp [] line with
  | [] => .error .indexError
  | w :: v => .ok (put w v t)

/-- `build_embd_dictionary` (27-40) of the text of a file. -/
def build (sp : Char → Bool) (file : Text) : Except Err Table := (linesFrom [] (universal file)).foldlM (addLine sp) []

/-- `" ".join(…)`. -/
def join : List Text → Text
  | [] => []
  | [x] => x
  | x :: xs => x ++ ' ' :: join xs

/-- Lines 73-74: `word + " " + " ".join(…) + "\n"` for every pair. -/
def write : Table → Text
  | [] => []
  | (w, v) :: xs => w ++ ' ' :: (join v ++ '\n' :: write xs)

/-- `create_glove_char` (43-74): the text of the new file. An empty table cannot be unpacked (60-63). -/
def create (sp : Char → Bool) (pca : List (List Text) → Except Err (List (List Text))) (source : Text) : Except Err Text := do
  let t ← build sp source
  if t.isEmpty then .error .valueError
  else do
    let rows ← pca (t.map Prod.snd)
    .ok (write ((t.map Prod.fst).zip rows))

end Verif.Embedding
