import Verif.Model.Basic
import Mathlib.Data.Nat.Notation

/-!
# Sampling rows of files

Models `reservoir`, `rsample` and `sample_parquet`
(dataprofiler/data_readers/data_utils.py:279-367, 476-506).  An iterator over a file is the list of the rows still to come.
The random numbers of each round of the loop are summarised by a `Draw`; the probabilities are not modelled.
-/

namespace Verif.Reservoir

open Verif

variable {α : Type}

/-- A round of the loop: `W == 1.0`, an exception (`log(0.0)`, a division by zero or a skip beyond `sys.maxsize`), or a
number of rows to skip and the sampled row to replace. -/
inductive Draw where
  | stop
  | raise (e : Err)
  | skip (rows slot : ℕ)

/-- The loop (data_utils.py:324-340): `values`, the values of the dictionary `indices`, and the rows to come. -/
def loop (dummy : α) (draws : ℕ → Draw) (i : ℕ) (values : List α) (indices : List ℕ) (rest : List α) :
    Except Err (List α × List ℕ) :=
  match draws i with
  | .stop => .ok (values, indices)
  | .raise e => .error e
  | .skip rows slot =>
    match _h : rest.drop rows with
    | [] => .ok (values, indices)
    | new :: rest' =>
      match indices[slot]? with
      | none => .error .keyError
      | some old => loop dummy draws (i + 1) (values.set old dummy ++ [new]) (indices.set slot values.length) rest'
termination_by rest.length
decreasing_by
  have : (rest.drop rows).length = rest'.length + 1 := by rw [_h]; rfl
  have h2 : (rest.drop rows).length ≤ rest.length := by rw [List.length_drop]; omega
  omega

/-- `values[indices[i]]` for all `i`. -/
def pick (values : List α) : List ℕ → Except Err (List α)
  | [] => .ok []
  | j :: js =>
    match values[j]? with
    | none => .error .indexError
    | some v =>
      match pick values js with
      | .error e => .error e
      | .ok vs => .ok (v :: vs)

/-- `reservoir` (data_utils.py:279-343) for a positive number of rows; `dummy` is the string `None`. -/
def reservoir (dummy : α) (draws : ℕ → Draw) (n : ℕ) (rows : List α) : Except Err (List α) :=
  if n = 0 then .error .zeroDivision
  else
    match loop dummy draws 0 (rows.take n) (List.range (rows.take n).length) (rows.drop n) with
    | .error e => .error e
    | .ok (values, indices) => pick values indices

/-- A line with its end (data_utils.py:366). -/
def endLine (line : List Char) : Except Err (List Char) :=
  match line.getLast? with
  | none => .error .indexError
  | some c => .ok (if c = '\n' then line else line ++ ['\n'])

/-- The concatenation of the lines. -/
def joinLines : List (List Char) → Except Err (List Char)
  | [] => .ok []
  | l :: ls =>
    match endLine l with
    | .error e => .error e
    | .ok l' =>
      match joinLines ls with
      | .error e => .error e
      | .ok t => .ok (l' ++ t)

/-- `rsample` (data_utils.py:346-367): the text and the position of the header in it. A file without the header line
raises `StopIteration`. -/
def rsample (draws : ℕ → Draw) (header : Option ℕ) (n : ℕ) (lines : List (List Char)) :
    Except Err (List Char × Option ℕ) :=
  match header with
  | none =>
    match reservoir "None".toList draws n lines with
    | .error e => .error e
    | .ok rows => (joinLines rows).map fun t => (t, none)
  | some h =>
    match lines[h]? with
    | none => .error .exception
    | some line =>
      match reservoir "None".toList draws n (lines.drop (h + 1)) with
      | .error e => .error e
      | .ok rows => (joinLines (line :: rows)).map fun t => (t, some 0)

/-- `sample_index[...] = True` for the sampled indices. -/
def mask (size : ℕ) (sample : List ℕ) : List Bool := sample.foldl (fun m i => m.set i true) (List.replicate size false)

/-- Rows of a table where the mask is true. -/
def filterMask : List α → List Bool → List α
  | r :: rows, true :: m => r :: filterMask rows m
  | _ :: rows, false :: m => filterMask rows m
  | _, _ => []

/-- `sample_parquet` (data_utils.py:476-506), as far as it selects rows; `sample` is the result of `random.sample`. -/
def sampleParquet (sample : List ℕ) (n : ℕ) (rows : List α) : List α :=
  if n < rows.length then filterMask rows (mask rows.length sample) else filterMask rows (List.replicate rows.length true)

end Verif.Reservoir
