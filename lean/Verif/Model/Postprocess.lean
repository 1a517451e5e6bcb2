import Verif.Model.Counter
import Verif.Model.Basic
import Mathlib.Algebra.Order.Field.Rat
import Mathlib.Data.Rat.Defs

/-!
# From predictions of characters to entities, words and cells

Model of `CharPostprocessor._word_level_argmax` (dataprofiler/labelers/data_processing.py:1030-1128), `convert_to_NER_format`
(data_processing.py:1131-1193), `StructCharPostprocessor.convert_to_structured_analysis` (data_processing.py:1740-1805) and the
renaming in its `process` (data_processing.py:1843-1850).  Predicted labels are natural numbers; shares are exact.
-/

namespace Verif.Postprocess

open Verif

variable {K : Type}

/-! ### Entities -/

/-- `reverse_label_mapping` (data_processing.py:1152, 1845): of several names the last remains. -/
def reverse (mapping : List (K × ℕ)) (id : ℕ) : Option K := (mapping.reverse.find? fun x => x.2 == id).map (·.1)

/-- The loop over a sample (data_processing.py:1166-1188): where the entity began and with which label, the index, the label
seen last, the labels left. -/
def nerLoop (ignore : ℕ → Bool) : Option (ℕ × ℕ) → ℕ → ℕ → List ℕ → List (ℕ × ℕ × ℕ)
  | none, _, _, [] => []
  | some (b, _), i, last, [] => [(b, i, last)]
  | some (b, l), i, _, c :: rest =>
    if c ≠ l then (b, i, l) :: nerLoop ignore (if ignore c then none else some (i, c)) (i + 1) c rest
    else nerLoop ignore (some (b, l)) (i + 1) c rest
  | none, i, _, c :: rest =>
    if ignore c = false then nerLoop ignore (some (i, c)) (i + 1) c rest else nerLoop ignore none (i + 1) c rest

/-- The entities of a sample, as label numbers. -/
def spans (ignore : ℕ → Bool) (sample : List ℕ) : List (ℕ × ℕ × ℕ) := nerLoop ignore none 0 0 sample

/-- A label number gets its name; unknown ones raise. -/
def named (mapping : List (K × ℕ)) (s : ℕ × ℕ × ℕ) : Except Err (ℕ × ℕ × K) :=
  match reverse mapping s.2.2 with
  | some k => .ok (s.1, s.2.1, k)
  | none => .error .keyError

/-- `convert_to_NER_format` (data_processing.py:1131-1193). -/
def toNer (mapping : List (K × ℕ)) (dflt pad : Option ℕ) (predictions : List (List ℕ)) :
    Except Err (List (List (ℕ × ℕ × K))) :=
  match dflt, pad with
  | some d, some p => predictions.mapM fun sample => (spans (fun l => l == p || l == d) sample).mapM (named mapping)
  | _, _ => .error .keyError

/-! ### Words -/

/-- The share of a label (data_processing.py:1094-1096). -/
def share (count total : ℕ) : ℚ := (count : ℚ) / ((max total 1 : ℕ) : ℚ)

/-- One label against the dominating one so far (data_processing.py:1093-1102). -/
def better (minPct : ℚ) (total : ℕ) (best : ℕ × ℕ) (x : ℕ × ℕ) : ℕ × ℕ :=
  if minPct ≤ share x.2 total ∧ best.2 < x.2 then x else best

/-- The dominating label (data_processing.py:1087-1102). -/
def dominate (minPct : ℚ) (bg : ℕ) (counts : PyDict ℕ ℕ) : ℕ :=
  (counts.foldl (better minPct (counts.map (·.2)).sum) (bg, 1)).1

/-- The variables of the loop over a text (data_processing.py:1068-1070). -/
structure W where
  ents : List ℕ
  start : ℕ
  counts : PyDict ℕ ℕ

/-- `for i in range(start, idx): ents[i] = label` (data_processing.py:1105-1106). -/
def fill (ents : List ℕ) (start idx label : ℕ) : List ℕ :=
  if start < idx then ents.take start ++ List.replicate (idx - start) label ++ ents.drop idx else ents

/-- Background around (data_processing.py:1109-1116). -/
def around (ents : List ℕ) (bg start idx dom : ℕ) : List ℕ :=
  if dom = bg ∧ 0 < start ∧ ents[idx]? ≠ ents[start - 1]? then (ents.set (start - 1) bg).set idx bg else ents

/-- One character (data_processing.py:1071-1124); predictions are as many as characters. -/
def wordStep (minPct : ℚ) (bg n : ℕ) (st : W) (idx : ℕ) (sep : Bool) : W :=
  let counts := if sep then st.counts else Counter.bump st.counts (st.ents.getD idx 0) 1
  if sep = true ∨ (idx + 1 = n ∧ 0 < st.start) then
    let dom := dominate minPct bg counts
    ⟨around (fill st.ents st.start idx dom) bg st.start idx dom, idx + 1, [(bg, 0)]⟩
  else { st with counts := counts }

/-- The loop over a text. -/
def wordLoop (minPct : ℚ) (bg n : ℕ) : W → ℕ → List Bool → W
  | st, _, [] => st
  | st, idx, sep :: rest => wordLoop minPct bg n (wordStep minPct bg n st idx sep) (idx + 1) rest

/-- `_word_level_argmax` (data_processing.py:1030-1128) of one text: which characters are separators, and the predictions. -/
def wordLevel (minPct : ℚ) (bg : ℕ) (seps : List Bool) (preds : List ℕ) : List ℕ :=
  (wordLoop minPct bg seps.length ⟨preds, 0, [(bg, 0)]⟩ 0 seps).ents

/-! ### Cells -/

/-- The counts of the labels that are not padding (data_processing.py:1776-1777). -/
def cellCounts (pad : ℕ) (labels : List ℕ) (len : ℕ) : PyDict ℕ ℕ := PyDict.del (Counter.ofList (labels.take len)) pad

/-- The modes (data_processing.py:1778-1782). -/
def modes (counts : PyDict ℕ ℕ) : List ℕ :=
  ((Counter.mostCommon counts none).filter fun x =>
    match (Counter.mostCommon counts (some 1))[0]? with
    | some y => y.2 == x.2
    | none => false).map (·.1)

/-- The label of a cell (data_processing.py:1783-1791); `choice` is the random choice from a list. -/
def cellLabel (choice : List ℕ → ℕ) (dflt pad : ℕ) (labels : List ℕ) (len : ℕ) : Option ℕ :=
  match modes (cellCounts pad labels len) with
  | [] => none
  | [m] => some m
  | ms => some (choice (if dflt ∈ ms then ms.erase dflt else ms))

/-- The confidences of a cell (data_processing.py:1792-1795), as a row of length `num`; writing beyond it raises. -/
def cellConf (num pad : ℕ) (labels : List ℕ) (len : ℕ) : Except Err (List ℚ) :=
  let counts := cellCounts pad labels len
  if counts.any fun x => decide (num ≤ x.1) then .error .indexError
  else .ok ((List.range num).map fun l => ((Counter.at0 counts l : ℕ) : ℚ) / (((counts.map (·.2)).sum : ℕ) : ℚ))

/-- What a cell's name may be: a name, nothing, or the text of nothing. -/
inductive Name (K : Type)
  | name (k : K)
  | none
  | noneText
  deriving DecidableEq

/-- `np.vectorize` on the names (data_processing.py:1844-1849): nothing to map raises; the type of the result is that of the
first value, so that later missing names turn into text if the first is a name. -/
def vectorize (names : List (Option K)) : Except Err (List (Name K)) :=
  match names with
  | [] => .error .valueError
  | some _ :: _ => .ok (names.map fun n => match n with | some k => .name k | none => .noneText)
  | none :: _ => .ok (names.map fun n => match n with | some k => .name k | none => .none)

/-- `process` of `StructCharPostprocessor` (data_processing.py:1807-1850) after the matching, naming labels. -/
def cellNames (mapping : List (K × ℕ)) (choice : List ℕ → ℕ) (dflt pad : ℕ) (cells : List (List ℕ × ℕ)) :
    Except Err (List (Name K)) :=
  vectorize (cells.map fun c => (cellLabel choice dflt pad c.1 c.2).bind (reverse mapping))

end Verif.Postprocess
