import Verif.Model.Basic
import Mathlib.Data.Rat.Defs
import Mathlib.Algebra.Order.Ring.Unbundled.Rat

/-!
# Splitting text for the character model and matching its predictions

Models `CharPreprocessor._process_batch_helper` (dataprofiler/labelers/data_processing.py:406-669), with
`_find_nearest_sentence_break_before_ind` (data_processing.py:376-404), `CharPostprocessor.match_sentence_lengths` and its copy
in `StructCharPostprocessor` (data_processing.py:1196-1270, 1664-1738), and `CharacterLevelCnnModel.predict`
(dataprofiler/labelers/character_level_cnn_model.py:808-902).  Characters and labels are of arbitrary types.  A text comes with
one label per character; without labels the code does the same to the texts.  Positions are counted from the start of the part
not yet placed, where the code counts from the start of the text.  The ratio of flattened samples is rational, not a double.
-/

namespace Verif.CharProcess

open Verif

variable {α L P : Type}

/-- The parameters used (data_processing.py:259-299). -/
structure Params (α : Type) where
  maxLen : ℕ
  sep : List α
  split : ℚ
  atMax : Bool
  /-- A character at which sentences may be broken (data_processing.py:380). -/
  brk : α → Bool

/-- The variables of the generator (data_processing.py:438-459): the batches yielded, the batch being filled, the pieces of the
flattened sample, its length and labels, and how many samples were flattened or not. -/
structure St (α L : Type) where
  done : List (List (List α × List L))
  cur : List (List α × List L)
  flat : List (List α)
  len : ℕ
  ents : List L
  fc : ℕ
  nfc : ℕ

/-- The initial values. -/
def St.init : St α L := ⟨[], [], [], 0, [], 0, 0⟩

/-- `_find_nearest_sentence_break_before_ind` (data_processing.py:376-404). -/
def findBreak (brk : α → Bool) (r : List α) : ℕ → ℕ
  | 0 => 0
  | n + 1 => if (r[n + 1]?).any brk then n + 1 else findBreak brk r n

/-- Whether the sample is not flattened (data_processing.py:499-502). -/
def Params.plain (p : Params α) (fc nfc : ℕ) : Bool :=
  decide (p.split < (fc : ℚ) / ((max 1 (fc + nfc) : ℕ) : ℚ)) || decide (p.split = 0)

/-- Where to cut a sample that is not flattened (data_processing.py:505-526). -/
def plainCut (p : Params α) (st : St α L) (r : List α) : ℕ :=
  if p.atMax = false ∧ p.maxLen < r.length then
    if findBreak p.brk r p.maxLen = 0 then p.maxLen - st.len else findBreak p.brk r p.maxLen
  else p.maxLen

/-- A sample that is not flattened (data_processing.py:533-547). -/
def plainStep (p : Params α) (pad : L) (st : St α L) (r : List α) (labs : List L) : St α L × ℕ :=
  let n := plainCut p st r
  ({ st with
      cur := st.cur ++ [(r.take n, labs.take n ++ List.replicate (max (p.maxLen - n) (p.maxLen - r.length)) pad)]
      nfc := st.nfc + 1 }, n)

/-- The separator before the next piece (data_processing.py:562-567). -/
def opened (p : Params α) (dflt : L) (st : St α L) : St α L :=
  if 0 < st.len then
    { st with ents := st.ents ++ List.replicate p.sep.length dflt, len := st.len + p.sep.length }
  else st

/-- `entities[:-n]`. -/
def dropEnd (n : ℕ) (xs : List L) : List L := if n = 0 then [] else xs.take (xs.length - n)

/-- A piece is added to the flattened sample (data_processing.py:597-611). -/
def addPiece (st : St α L) (r : List α) (labs : List L) (n : ℕ) : St α L :=
  if n = 0 then st
  else { st with
          flat := st.flat ++ [r.take n]
          len := st.len + (r.take n).length
          ents := st.ents ++ labs.take n }

/-- The flattened sample goes to the batch (data_processing.py:619-641). -/
def emit (p : Params α) (pad : L) (st : St α L) : St α L :=
  { st with
    cur := st.cur ++ [(List.intercalate p.sep st.flat, st.ents ++ List.replicate (p.maxLen - st.len) pad)]
    fc := st.fc + 1
    flat := []
    len := 0
    ents := [] }

/-- It does so when full (data_processing.py:615-618). -/
def emitIfFull (p : Params α) (pad : L) (st : St α L) : St α L :=
  if p.maxLen - p.sep.length ≤ st.len then emit p pad st else st

/-- A flattened sample (data_processing.py:549-641). -/
def flatStep (p : Params α) (pad dflt : L) (st : St α L) (r : List α) (labs : List L) : St α L × ℕ :=
  let o := opened p dflt st
  let n := p.maxLen - o.len
  if p.atMax = false ∧ n < r.length then
    if findBreak p.brk r n = 0 then
      if 0 < o.len then
        (emit p pad { o with len := o.len - p.sep.length, ents := dropEnd p.sep.length o.ents }, 0)
      else (emitIfFull p pad (addPiece o r labs n), n)
    else (emitIfFull p pad (addPiece o r labs (findBreak p.brk r n)), findBreak p.brk r n)
  else (emitIfFull p pad (addPiece o r labs n), n)

/-- One round of the inner loop (data_processing.py:494-641): the state and how much of the text was placed. -/
def step (p : Params α) (pad dflt : L) (st : St α L) (r : List α) (labs : List L) : St α L × ℕ :=
  if p.plain st.fc st.nfc then plainStep p pad st r labs else flatStep p pad dflt st r labs

/-- A full batch is yielded (data_processing.py:644-653). -/
def yieldBatch (size : ℕ) (st : St α L) : St α L :=
  if st.cur.length = size then { st with done := st.done ++ [st.cur], cur := [] } else st

/-- The inner loop (data_processing.py:492-653); `none` if the rounds allowed are not enough. -/
def place (p : Params α) (pad dflt : L) (size : ℕ) : ℕ → St α L → List α → List L → Option (St α L)
  | _, st, [], _ => some st
  | 0, _, _ :: _, _ => none
  | fuel + 1, st, c :: r, labs =>
    let out := step p pad dflt st (c :: r) labs
    place p pad dflt size fuel (yieldBatch size out.1) ((c :: r).drop out.2) (labs.drop out.2)

/-- The loop over the texts (data_processing.py:475-653). -/
def placeAll (p : Params α) (pad dflt : L) (size : ℕ) : St α L → List (List α × List L) → Option (St α L)
  | st, [] => some st
  | st, (r, labs) :: ds =>
    match place p pad dflt size (2 * r.length + 1) st r labs with
    | none => none
    | some st' => placeAll p pad dflt size st' ds

/-- The last flattened sample (data_processing.py:656-663). -/
def flush (p : Params α) (pad : L) (st : St α L) : St α L := if st.flat = [] then st else emit p pad st

/-- `_process_batch_helper` (data_processing.py:406-669): the batches.  It raises if the separator is too long; running out of
rounds, which stands for not terminating, is the other error. -/
def process (p : Params α) (pad dflt : L) (size : ℕ) (data : List (List α × List L)) :
    Except Err (List (List (List α × List L))) :=
  if p.maxLen ≤ p.sep.length then .error .valueError
  else
    match placeAll p pad dflt size St.init data with
    | none => .error .exception
    | some st =>
      let st := flush p pad st
      .ok (if st.cur = [] then st.done else st.done ++ [st.cur])

/-! ### The model -/

/-- An array written from a position on; the rest stays. -/
def write (xs : List P) (at_ : ℕ) (ys : List P) : List P := xs.take at_ ++ ys ++ xs.drop (at_ + ys.length)

/-- The arrays of `predict` (character_level_cnn_model.py:842-848). -/
structure Arrays (P : Type) where
  preds : List (List P)
  lens : List ℕ
  next : ℕ

/-- A batch is predicted (character_level_cnn_model.py:852-887): the arrays double if needed, the predictions and the lengths
are written; NumPy refuses to write beyond the end. -/
def predictBatch (zero : List P) (net : List (List α) → List (List P)) (size : ℕ) (a : Arrays P) (i : ℕ)
    (batch : List (List α)) : Except Err (Arrays P) :=
  let idx := i * size
  let preds := if a.preds.length ≤ idx then a.preds ++ List.replicate a.preds.length zero else a.preds
  let lens := if a.preds.length ≤ idx then a.lens ++ List.replicate a.lens.length 0 else a.lens
  if preds.length < idx + batch.length ∨ lens.length < idx + batch.length ∨ (net batch).length ≠ batch.length then
    .error .valueError
  else .ok ⟨write preds idx (net batch), write lens idx (batch.map List.length), idx + batch.length⟩

/-- The loop over the batches. -/
def predictAll (zero : List P) (net : List (List α) → List (List P)) (size : ℕ) : Arrays P → ℕ → List (List (List α)) →
    Except Err (Arrays P)
  | a, _, [] => .ok a
  | a, i, b :: bs =>
    match predictBatch zero net size a i b with
    | .error e => .error e
    | .ok a' => predictAll zero net size a' (i + 1) bs

/-- `predict` (character_level_cnn_model.py:808-902): for each sample the predictions of its characters. -/
def predict (zero : List P) (net : List (List α) → List (List P)) (size : ℕ) (batches : List (List (List α))) :
    Except Err (List (List P)) :=
  match predictAll zero net size ⟨List.replicate size zero, List.replicate size 0, 0⟩ 0 batches with
  | .error e => .error e
  | .ok a => .ok ((a.preds.take a.next).zipWith (fun row n => row.take n) (a.lens.take a.next))

/-! ### Matching -/

/-- `np.cumsum` of the lengths. -/
def cums : ℕ → List (List P) → List ℕ
  | _, [] => []
  | a, x :: xs => (a + x.length) :: cums (a + x.length) xs

/-- The value of `curr_buffer_add_in` after the pops (data_processing.py:1256-1258). -/
def lastPopped (e : ℕ) (first : ℕ) (bounds : List ℕ) : ℕ := ((bounds.takeWhile (· ≤ e)).getLast?).getD first

/-- After a text that ends at `e` (data_processing.py:1247-1268). -/
def advance (s e : ℕ) : List ℕ → ℕ × List ℕ
  | [] => (e, [])
  | b :: bounds =>
    let curr := lastPopped e b (b :: bounds)
    (if curr < e ∨ s < curr - e then e + s else e, (b :: bounds).dropWhile (· ≤ e))

/-- The loop over the texts (data_processing.py:1229-1268), given their lengths. -/
def matchLoop (s : ℕ) (buf : List P) : ℕ → List ℕ → List ℕ → List (List P)
  | _, _, [] => []
  | pos, bounds, l :: ls =>
    if l < 1 then [] :: matchLoop s buf pos bounds ls
    else (buf.drop pos).take l :: matchLoop s buf (advance s (pos + l) bounds).1 (advance s (pos + l) bounds).2 ls

/-- `match_sentence_lengths` (data_processing.py:1196-1270) on predictions or on confidences. -/
def matchLengths (s : ℕ) (lens : List ℕ) (preds : List (List P)) : List (List P) :=
  matchLoop s preds.flatten 0 (cums 0 preds) lens

/-! ### The whole labeler -/

/-- `predict` of the labeler (dataprofiler/labelers/base_data_labeler.py:276-330) up to the matching: process, predict,
match. -/
def label (p : Params α) (size s : ℕ) (zero : List P) (net : List (List α) → List (List P)) (data : List (List α)) :
    Except Err (List (List P)) :=
  match process p () () size (data.map fun d => (d, d.map fun _ => ())) with
  | .error e => .error e
  | .ok batches =>
    match predict zero net size (batches.map fun b => b.map (·.1)) with
    | .error e => .error e
    | .ok preds => .ok (matchLengths s (data.map List.length) preds)

end Verif.CharProcess
