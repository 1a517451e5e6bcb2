import Mathlib.Data.Rat.Floor
import Verif.Model.Counter
import Verif.Model.Basic

/-!
# Entities of unstructured text

Models `UnstructuredLabelerProfile` (dataprofiler/profilers/unstructured_labeler_profile.py:20-103, 155-195, 221-363).

Simplifications
* a prediction for a sample is its list of character labels, already looked up in the label mapping, and its list of
  entities `(begin, end, label)`; the labeler and the postprocessor that make them are not modelled;
* floats are exact; `times` and `metadata` are left out; both operands of a merge use the same labeler.
-/

namespace Verif.Entities

open Verif

/-- One entity found in a text. -/
structure Entity where
  first : ℕ
  last : ℕ
  label : String
deriving DecidableEq

/-- One text with what the labeler says about it. -/
structure Sample where
  text : List Char
  chars : List String
  entities : List Entity
deriving DecidableEq

/-- The profile. -/
structure Profile where
  words : PyDict String ℤ
  trueChars : PyDict String ℤ
  postChars : PyDict String ℤ
  charSize : ℤ
  wordSize : ℤ
  wordShares : PyDict String ℚ
  trueShares : PyDict String ℚ
  postShares : PyDict String ℚ
deriving DecidableEq

/-- A new profile (unstructured_labeler_profile.py:48-59). -/
def new : Profile := ⟨[], [], [], 0, 0, [], [], []⟩

/-- The separators (unstructured_labeler_profile.py:60). -/
def separators : List Char := [' ', ',', ';', '"', ':', '\n', '\t', '.', '!', '\'']

/-- `_get_percentages` (unstructured_labeler_profile.py:221-245). -/
def shares (counts : PyDict String ℤ) (total : ℤ) : PyDict String ℚ :=
  if 0 < total then counts.map fun kv => (kv.1, (kv.2 : ℚ) / (total : ℚ)) else []

/-- `_update_percentages` (unstructured_labeler_profile.py:247-261). -/
def Profile.withShares (p : Profile) : Profile :=
  { p with
    wordShares := shares p.words p.wordSize
    trueShares := shares p.trueChars p.charSize
    postShares := shares p.postChars p.charSize }

/-- Character labels of one sample (unstructured_labeler_profile.py:275-279). -/
def trueStep (st : PyDict String ℤ × ℤ) (s : Sample) : PyDict String ℤ × ℤ :=
  (s.chars.foldl (fun d l => Counter.bump d l 1) st.1, st.2 + s.chars.length)

/-- The body of the loop over the entities (unstructured_labeler_profile.py:301-308). -/
def postEntity (st : PyDict String ℤ × ℕ) (e : Entity) : PyDict String ℤ × ℕ :=
  (Counter.bump (Counter.bump st.1 "UNKNOWN" ((e.first : ℤ) - st.2)) e.label ((e.last : ℤ) - e.first), e.last)

/-- One sample (unstructured_labeler_profile.py:298-311). -/
def postStep (d : PyDict String ℤ) (s : Sample) : PyDict String ℤ :=
  let st := s.entities.foldl postEntity (d, 0)
  Counter.bump st.1 "UNKNOWN" ((s.text.length : ℤ) - st.2)

/-- One character of the background (unstructured_labeler_profile.py:338-346); the flag says that a word has begun. -/
def wordChar (st : PyDict String ℤ × Bool) (c : Char) : PyDict String ℤ × Bool :=
  if st.2 then
    if c ∈ separators then (Counter.bump st.1 "UNKNOWN" 1, false) else st
  else if c ∈ separators then st else (st.1, true)

/-- `while index < stop` over the text (unstructured_labeler_profile.py:337-346): `text[index]` beyond the end raises. -/
def wordScan (text : List Char) (st : PyDict String ℤ × Bool) (index stop : ℕ) : Except Err (PyDict String ℤ × Bool) :=
  if index < stop ∧ text.length < stop then .error .indexError
  else .ok (((text.drop index).take (stop - index)).foldl wordChar st)

/-- The loop over the entities and the rest of the text (unstructured_labeler_profile.py:335-358). -/
def wordEntities (text : List Char) : List Entity → ℕ → PyDict String ℤ × Bool → Except Err (PyDict String ℤ)
  | [], index, st => (wordScan text st index text.length).map (·.1)
  | e :: es, index, st =>
    match wordScan text st index e.first with
    | .error err => .error err
    | .ok st => wordEntities text es e.last st

/-- All samples (unstructured_labeler_profile.py:329-358). -/
def wordSamples : List Sample → PyDict String ℤ → Except Err (PyDict String ℤ)
  | [], d => .ok d
  | s :: ss, d =>
    match wordEntities s.text s.entities 0 (d, false) with
    | .error err => .error err
    | .ok d => wordSamples ss d

/-- `_update_word_label_counts` (unstructured_labeler_profile.py:314-363), counts only. -/
def wordCounts (ss : List Sample) (d : PyDict String ℤ) : Except Err (PyDict String ℤ) :=
  match wordSamples ss d with
  | .error err => .error err
  | .ok d => .ok ((ss.flatMap (·.entities)).foldl (fun d e => Counter.bump d e.label 1) d)

/-- `update` with `_update_helper` (unstructured_labeler_profile.py:155-195). -/
def update (p : Profile) (ss : List Sample) : Except Err Profile :=
  if ss = [] then .ok p
  else
    match wordCounts ss p.words with
    | .error err => .error err
    | .ok words =>
      let t := ss.foldl trueStep (p.trueChars, p.charSize)
      .ok { p with
            words := words
            wordSize := (PyDict.values words).sum
            trueChars := t.1
            charSize := t.2
            postChars := ss.foldl postStep p.postChars }.withShares

/-- `__add__` (unstructured_labeler_profile.py:64-103). -/
def merge (a b : Profile) : Profile :=
  Profile.withShares
    { words := Counter.addCounts a.words b.words
      trueChars := Counter.addCounts a.trueChars b.trueChars
      postChars := Counter.addCounts a.postChars b.postChars
      charSize := a.charSize + b.charSize
      wordSize := a.wordSize + b.wordSize
      wordShares := []
      trueShares := []
      postShares := [] }

/-- Everything that can happen to a profile. -/
inductive History where
  | new
  | update (h : History) (ss : List Sample)
  | merge (h1 h2 : History)

/-- The resulting profile. -/
def run : History → Except Err Profile
  | .new => .ok new
  | .update h ss => do
    let p ← run h
    update p ss
  | .merge h1 h2 => do
    let a ← run h1
    let b ← run h2
    pure (merge a b)

end Verif.Entities
