import Verif.Model.CharProcess
import Mathlib.Data.Int.Notation

/-!
# Labels of characters for training

Model of how entities become one label per character (dataprofiler/labelers/data_processing.py:481-489) and of
`StructCharPreprocessor` (data_processing.py:1312-1520).  Looking up labels in the label mapping is included.
-/

namespace Verif.CharLabels

open Verif

variable {α L K : Type}

/-- An index of a Python slice, for a sequence of the given length. -/
def sliceIndex (len : ℕ) (i : ℤ) : ℕ := if i < 0 then (i + len).toNat else min i.toNat len

/-- `label_buffer[start:end] = label` (data_processing.py:488). -/
def paint (buf : List L) (start stop : ℤ) (l : L) : List L :=
  let a := sliceIndex buf.length start
  let b := sliceIndex buf.length stop
  if a < b then buf.take a ++ List.replicate (b - a) l ++ buf.drop b else buf

/-- The entities in their order (data_processing.py:486-488); unknown labels raise. -/
def paintAll (mapping : K → Option L) : List L → List (ℤ × ℤ × K) → Except Err (List L)
  | buf, [] => .ok buf
  | buf, (a, b, k) :: es =>
    match mapping k with
    | none => .error .keyError
    | some l => paintAll mapping (paint buf a b l) es

/-- The labels of a text (data_processing.py:483-489). -/
def labelBuffer (mapping : K → Option L) (dflt : K) (n : ℕ) (es : List (ℤ × ℤ × K)) : Except Err (List L) :=
  match mapping dflt with
  | none => .error .keyError
  | some d => paintAll mapping (List.replicate n d) es

/-- `process` with labels (data_processing.py:671-746, 475-489): each text with its entities.  The pad label is looked up when
samples are padded; here at the start. -/
def train (p : CharProcess.Params α) (mapping : K → Option L) (pad dflt : K) (size : ℕ)
    (data : List (List α × List (ℤ × ℤ × K))) : Except Err (List (List (List α × List L))) :=
  match mapping pad, mapping dflt with
  | some pd, some d =>
    match data.mapM fun x => (labelBuffer mapping dflt x.1.length x.2).map fun ls => (x.1, ls) with
    | .error e => .error e
    | .ok xs => CharProcess.process p pd d size xs
  | _, _ => .error .keyError

/-- The loop of `convert_to_unstructured_format` (data_processing.py:1430-1437). -/
def convertLoop [DecidableEq K] (dflt padName : K) (s textLen : ℕ) : ℕ → List (List α × K) → List (ℤ × ℤ × K)
  | _, [] => []
  | start, (x, k) :: rest =>
    (if k ≠ dflt then [((start : ℤ), ((start + x.length : ℕ) : ℤ), k)] else []) ++
      (if start + x.length + s < textLen then [(((start + x.length : ℕ) : ℤ), ((start + x.length + s : ℕ) : ℤ), padName)]
        else []) ++
      convertLoop dflt padName s textLen (start + x.length + s) rest

/-- `convert_to_unstructured_format` (data_processing.py:1405-1440); `padName` is the text "PAD". -/
def convert [DecidableEq K] (dflt padName : K) (sep : List α) (data : List (List α × K)) : List α × List (ℤ × ℤ × K) :=
  let text := List.intercalate sep (data.map (·.1))
  (text, convertLoop dflt padName sep.length text.length 0 data)

/-- `StructCharPreprocessor.process` (data_processing.py:1442-1520): cells are converted one by one. -/
def trainCells [DecidableEq K] (p : CharProcess.Params α) (mapping : K → Option L) (pad dflt padName : K) (size : ℕ)
    (data : List (List α × K)) : Except Err (List (List (List α × List L))) :=
  train p mapping pad dflt size (data.map fun x => convert dflt padName p.sep [x])

end Verif.CharLabels
