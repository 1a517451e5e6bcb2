import Verif.Model.CharProcess
import Verif.Model.Postprocess
import Verif.Model.LabelMap

/-!
# What a labeler says of the data it is given

Model of `BaseDataLabeler._check_and_return_valid_data_format` and `predict` (dataprofiler/labelers/base_data_labeler.py:155-190,
276-330) with the pre- and postprocessors of the character models: `CharPreprocessor.process` (data_processing.py:671-748),
`StructCharPreprocessor.convert_to_unstructured_format` and `process` (data_processing.py:1405-1520) without labels,
`CharPostprocessor.process` (data_processing.py:1272-1309) and `StructCharPostprocessor.process` (data_processing.py:1807-1850).
Cutting, predicting and matching are those of C55, entities, words and cells those of C57, C58 and C59.  Values other than texts have
neither length nor characters; how they are printed is a parameter.  `check_pipeline` (C63) only warns here.
-/

namespace Verif.Predict

open Verif

/-- A value given: a text, another value, or a list. -/
inductive Obj (V : Type)
  | text (s : List Char)
  | other (v : V)
  | seq (xs : List (Obj V))

/-- Data given to a labeler, after a reader's data has been taken out of it (base_data_labeler.py:172-173).  Frames and arrays are
given by their values, row by row. -/
inductive Given (V : Type)
  | list (xs : List (Obj V))
  | series (xs : List (Obj V))
  | frame (width : ℕ) (rows : List (List (Obj V)))
  | array (shape : List ℕ) (values : List (Obj V))
  | nothing

/-- What is given: a reader, or data. -/
inductive Source (V : Type)
  | reader (data : Given V)
  | data (data : Given V)

/-- A NumPy array: its shape, and its values row by row. -/
structure Arr (V : Type) where
  shape : List ℕ
  values : List (Obj V)

variable {V : Type}

/-- The parts of a list. -/
def Obj.parts : Obj V → Option (List (Obj V))
  | .seq xs => some xs
  | _ => none

/-- The common length of lists, if all values are lists of this length. -/
def common (xs : List (Obj V)) : Option ℕ :=
  match xs with
  | [] => none
  | x :: _ =>
    match x.parts with
    | none => none
    | some ys => if xs.all fun z => z.parts.any fun p => p.length == ys.length then some ys.length else none

/-- One level of lists opened. -/
def opened (xs : List (Obj V)) : List (Obj V) := xs.flatMap fun x => (x.parts).getD []

/-- `np.array(xs, dtype="object")` (base_data_labeler.py:175-176): levels are opened as long as all values are lists of the same
length; at most as many as NumPy has dimensions. -/
def nested : ℕ → List ℕ → List (Obj V) → Arr V
  | 0, shape, xs => ⟨shape, xs⟩
  | fuel + 1, shape, xs =>
    match common xs with
    | none => ⟨shape, xs⟩
    | some n => nested fuel (shape ++ [n]) (opened xs)

/-- The number of dimensions an array can have. -/
def maxDims : ℕ := 32

/-- `_check_and_return_valid_data_format` up to the shape (base_data_labeler.py:171-184). -/
def arrayOf : Source V → Except Err (Arr V)
  | .reader d | .data d =>
    match d with
    | .list xs => .ok (nested (maxDims - 1) [xs.length] xs)
    | .series xs => .ok ⟨[xs.length], xs⟩
    | .frame w rows => .ok ⟨[rows.length, w], rows.flatten⟩
    | .array shape values => .ok ⟨shape, values⟩
    | .nothing => .error .typeError

/-- `_check_and_return_valid_data_format` for `predict` (base_data_labeler.py:186-190): one dimension. -/
def forPredict (s : Source V) : Except Err (List (Obj V)) := (arrayOf s).map (·.values)

/-- `fit_or_predict` (base_data_labeler.py:168-169). -/
def validFormat (mode : String) (s : Source V) : Except Err (Arr V) :=
  if mode ∈ ["fit", "predict"] then
    (arrayOf s).map fun a => if mode = "fit" then a else ⟨[a.values.length], a.values⟩
  else .error .valueError

/-! ### The labeler -/

/-- `predict` up to the matching (base_data_labeler.py:309-325): the texts seen by the preprocessor, and the lengths used in the
matching. -/
def labelWith {α P : Type} (p : CharProcess.Params α) (size s : ℕ) (zero : List P) (net : List (List α) → List (List P))
    (texts : List (List α)) (lens : List ℕ) : Except Err (List (List P)) :=
  match CharProcess.process p () () size (texts.map fun d => (d, d.map fun _ => ())) with
  | .error e => .error e
  | .ok batches =>
    match CharProcess.predict zero net size (batches.map fun b => b.map (·.1)) with
    | .error e => .error e
    | .ok preds => .ok (CharProcess.matchLengths s lens preds)

/-- What a labeler is made of: the parameters of the processors, the network and the mapping of labels. -/
structure Labeler (V : Type) where
  /-- `str` of a value. -/
  str : Obj V → List Char
  params : CharProcess.Params Char
  /-- The length of the postprocessor's separator. -/
  sepLen : ℕ
  zero : List ℕ
  net : List (List Char) → List (List ℕ)
  mapping : PyDict String ℕ
  dflt : String
  pad : String
  /-- Word level: the separators and the share needed. -/
  word : Option (List Char × ℚ)
  ner : Bool
  isPredLabels : Bool
  /-- The random choice for the cell with the given number. -/
  choice : ℕ → List ℕ → ℕ

/-- Which of the things in a value separate words (data_processing.py:1062-1075): the characters of a text; the values in a list, of
which lists raise; other values have no length. -/
def sepsOf (separators : List Char) : Obj V → Except Err (List Bool)
  | .text s => .ok (s.map fun c => decide (c ∈ separators))
  | .other _ => .error .typeError
  | .seq xs => xs.mapM fun x =>
      match x with
      | .text [c] => .ok (decide (c ∈ separators))
      | .text _ => .ok false
      | .other _ => .ok false
      | .seq _ => .error .typeError

/-- `_word_level_argmax` for all texts (data_processing.py:1051-1128). -/
def words (separators : List Char) (minPct : ℚ) (bg : ℕ) (data : List (Obj V)) (preds : List (List ℕ)) :
    Except Err (List (List ℕ)) :=
  (data.zip preds).mapM fun x =>
    match sepsOf separators x.1 with
    | .error e => .error e
    | .ok seps => .ok (Postprocess.wordLevel minPct bg seps x.2)

/-- What is said of texts: the labels of their characters, or entities. -/
inductive Said
  | labels (l : List (List ℕ))
  | entities (l : List (List (ℕ × ℕ × String)))
  deriving DecidableEq

/-- The word level, if asked for (data_processing.py:1301-1304). -/
def wordsIf (L : Labeler V) (data : List (Obj V)) (preds : List (List ℕ)) : Except Err (List (List ℕ)) :=
  match L.word with
  | none => .ok preds
  | some (separators, minPct) =>
    match PyDict.get? L.mapping L.dflt with
    | none => .error .keyError
    | some bg => words separators minPct bg data preds

/-- Entities, if asked for (data_processing.py:1305-1308). -/
def nerIf (L : Labeler V) (preds : List (List ℕ)) : Except Err Said :=
  if L.ner then
    (Postprocess.toNer L.mapping (PyDict.get? L.mapping L.dflt) (PyDict.get? L.mapping L.pad) preds).map .entities
  else .ok (.labels preds)

/-- `predict` of an unstructured labeler (base_data_labeler.py:300-330, data_processing.py:671-748, 1272-1309). -/
def predictTexts (L : Labeler V) (size : ℕ) (src : Source V) : Except Err Said :=
  match forPredict src with
  | .error e => .error e
  | .ok data =>
    match labelWith L.params size L.sepLen L.zero L.net (data.map L.str) (data.map fun x => (L.str x).length) with
    | .error e => .error e
    | .ok preds =>
      match wordsIf L data preds with
      | .error e => .error e
      | .ok preds => nerIf L preds

/-- `astype(str)` of an object array with one value, and reading it back (data_processing.py:1427): NumPy drops zeros at the end. -/
def stripped (s : List Char) : List Char := (s.reverse.dropWhile fun c => c == Char.ofNat 0).reverse

/-- What is said of cells: numbers of labels, or names. -/
inductive Cells
  | numbers (l : List (Option ℕ))
  | names (l : List (Postprocess.Name String))
  deriving DecidableEq

/-- The label of every cell (data_processing.py:1771-1791). -/
def cellLabels (L : Labeler V) (dflt pad : ℕ) (lens : List ℕ) (preds : List (List ℕ)) : List (Option ℕ) :=
  (preds.zip lens).mapIdx fun i x => Postprocess.cellLabel (L.choice i) dflt pad x.1 x.2

/-- The confidences of every cell (data_processing.py:1764-1769, 1792-1800). -/
def cellConfs (num pad : ℕ) (lens : List ℕ) (preds : List (List ℕ)) : Except Err (List (List ℚ)) :=
  (preds.zip lens).mapM fun x => Postprocess.cellConf num pad x.1 x.2

/-- The names of labels, if asked for (data_processing.py:1843-1849). -/
def namesIf (L : Labeler V) (labels : List (Option ℕ)) : Except Err Cells :=
  if L.isPredLabels then
    (Postprocess.vectorize (labels.map fun l => l.bind (Postprocess.reverse L.mapping))).map .names
  else .ok (.numbers labels)

/-- `show_confidences` (base_data_labeler.py:319). -/
def confsIf (L : Labeler V) (conf : Bool) (pad : ℕ) (lens : List ℕ) (preds : List (List ℕ)) : Except Err (Option (List (List ℚ))) :=
  if conf then (cellConfs (LabelMap.numLabels L.mapping) pad lens preds).map some else .ok none

/-- `process` of `StructCharPostprocessor` after the matching (data_processing.py:1833-1850). -/
def judged (L : Labeler V) (conf : Bool) (lens : List ℕ) (preds : List (List ℕ)) : Except Err (Cells × Option (List (List ℚ))) :=
  match PyDict.get? L.mapping L.dflt, PyDict.get? L.mapping L.pad with
  | some d, some p =>
    match confsIf L conf p lens preds with
    | .error e => .error e
    | .ok c => (namesIf L (cellLabels L d p lens preds)).map fun n => (n, c)
  | _, _ => .error .keyError

/-- `predict` of a structured labeler (base_data_labeler.py:300-330, data_processing.py:1443-1520, 1807-1850). -/
def predictCells (L : Labeler V) (size : ℕ) (conf : Bool) (src : Source V) : Except Err (Cells × Option (List (List ℚ))) :=
  match forPredict src with
  | .error e => .error e
  | .ok data =>
    match labelWith L.params size L.sepLen L.zero L.net (data.map fun x => stripped (L.str x)) (data.map fun x => (L.str x).length) with
    | .error e => .error e
    | .ok preds => judged L conf (data.map fun x => (L.str x).length) preds

end Verif.Predict
