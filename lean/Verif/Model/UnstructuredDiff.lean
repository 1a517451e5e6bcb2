import Verif.Model.Unstructured
import Verif.Model.Entities
import Verif.Model.Diff

/-!
# Differences between profiles of unstructured text

Models `UnstructuredProfiler.diff` (dataprofiler/profilers/profile_builder.py:809-841, 1318-1357), `UnstructuredCompiler.diff`
(column_profile_compilers.py:144-161, 495-520), `TextProfiler.diff` (unstructured_text_profile.py:581-632) and
`UnstructuredLabelerProfile.diff` (unstructured_labeler_profile.py:115-150).

Simplifications: numbers are exact; both operands are profiles of text (the class checks do not fail); the formatting of the
final report is left out.
-/

namespace Verif.Unstructured

open Verif Words Diffs

/-- Result of `find_diff_of_dicts_with_diff_keys` on counts: a shared count is `none` if it is "unchanged", otherwise the
first minus the second. -/
inductive CountDiff (K : Type) where
  | unchanged
  | parts (only1 : PyDict K ℕ) (shared : PyDict K (Option ℤ)) (only2 : PyDict K ℕ)
deriving DecidableEq

variable {K : Type} [DecidableEq K]

/-- One key of the first dictionary that is in the second, too (profiler_utils.py:634-648, 443-448). -/
def sharedCount (d2 : PyDict K ℕ) (kv : K × ℕ) : Option (K × Option ℤ) :=
  (PyDict.get? d2 kv.1).map fun c => (kv.1, if kv.2 ≠ c then some ((kv.2 : ℤ) - c) else none)

/-- `find_diff_of_dicts_with_diff_keys` on counts (profiler_utils.py:614-665). -/
def countDiff (d1 d2 : PyDict K ℕ) : CountDiff K :=
  let only1 := d1.filter fun kv => !PyDict.has d2 kv.1
  let shared := d1.filterMap (sharedCount d2)
  let only2 := d2.filter fun kv => !PyDict.has d1 kv.1
  if only1.isEmpty && shared.isEmpty && only2.isEmpty then .unchanged else .parts only1 shared only2

/-- The differences of two text profiles. -/
structure TextDiff where
  vocab : Diff Char
  vocabCount : CountDiff Char
  words : Diff Word
  wordCount : CountDiff Word

/-- `{k.lower(): v for k, v in d.items()}`. -/
def lowerTable (ch : Chars) (d : PyDict Word ℕ) : PyDict Word ℕ :=
  d.foldl (fun acc kv => PyDict.set acc (ch.lower kv.1) kv.2) []

/-- `TextProfiler.diff` (unstructured_text_profile.py:581-632). -/
def textDiff (ch : Chars) (a b : Words.Profile) : TextDiff :=
  let lowA := a.opts.caseSensitive && !b.opts.caseSensitive
  let lowB := !a.opts.caseSensitive && b.opts.caseSensitive
  let wordsA := PyDict.keys a.words
  let wordsB := PyDict.keys b.words
  let countA := Counter.mostCommon a.words a.opts.topWords
  let countB := Counter.mostCommon b.words a.opts.topWords
  let wordsA := if lowA then wordsA.map ch.lower else wordsA
  let countA := if lowA then lowerTable ch countA else countA
  let wordsB := if lowB then wordsB.map ch.lower else wordsB
  let countB := if lowB then lowerTable ch countB else countB
  { vocab := diffLists (some (PyDict.keys a.vocab)) (some (PyDict.keys b.vocab))
    vocabCount := countDiff (Counter.mostCommon a.vocab a.opts.topChars) (Counter.mostCommon b.vocab a.opts.topChars)
    words := diffLists (some wordsA) (some wordsB)
    wordCount := countDiff countA countB }

/-- A dictionary of counts as report values. -/
def countVals (d : PyDict String ℤ) : List (String × PV String) := d.map fun kv => (kv.1, .num (.fin kv.2))

/-- A dictionary of shares as report values. -/
def shareVals (d : PyDict String ℚ) : List (String × PV String) := d.map fun kv => (kv.1, .num (.fin kv.2))

/-- The differences of two profiles of entities: counts and shares of words, characters and postprocessed characters. -/
structure LabelDiff where
  words : Diff String
  trueChars : Diff String
  postChars : Diff String
  wordShares : Diff String
  trueShares : Diff String
  postShares : Diff String

/-- `UnstructuredLabelerProfile.diff` (unstructured_labeler_profile.py:115-150). -/
def labelDiff (a b : Entities.Profile) : Except Err LabelDiff := do
  let s1 ← diffDicts (some (shareVals a.wordShares)) (some (shareVals b.wordShares))
  let c1 ← diffDicts (some (countVals a.words)) (some (countVals b.words))
  let s2 ← diffDicts (some (shareVals a.trueShares)) (some (shareVals b.trueShares))
  let c2 ← diffDicts (some (countVals a.trueChars)) (some (countVals b.trueChars))
  let s3 ← diffDicts (some (shareVals a.postShares)) (some (shareVals b.postShares))
  let c3 ← diffDicts (some (countVals a.postChars)) (some (countVals b.postChars))
  pure ⟨c1, c2, c3, s1, s2, s3⟩

/-- The profiles of a compiler that are compared. -/
structure Parts where
  text : Option Words.Profile
  labels : Option Entities.Profile

/-- What is compared of a profile. -/
structure Side where
  fileType : Option String
  encoding : Option String
  samplesUsed : ℕ
  emptyLines : ℕ
  memory : ℚ
  parts : Option Parts

/-- The report of differences. -/
structure SideDiff where
  fileType : Diff String
  encoding : Diff String
  samplesUsed : Diff String
  emptyLines : Diff String
  memory : Diff String
  dataLabel : Option LabelDiff
  statistics : Option TextDiff

/-- `if "data_labeler" in self._profiles and …` (column_profile_compilers.py:509-512). -/
def labelPart : Option Entities.Profile → Option Entities.Profile → Except Err (Option LabelDiff)
  | some p, some q => (labelDiff p q).map some
  | _, _ => .ok none

/-- `if "text" in self._profiles and …` (column_profile_compilers.py:514-517). -/
def textPart (ch : Chars) : Option Words.Profile → Option Words.Profile → Option TextDiff
  | some p, some q => some (textDiff ch p q)
  | _, _ => none

/-- `UnstructuredProfiler.diff` (profile_builder.py:1318-1357) with `BaseProfiler.diff` (profile_builder.py:809-841) and
`UnstructuredCompiler.diff` (column_profile_compilers.py:495-520). -/
def diff (ch : Chars) (a b : Side) : Except Err SideDiff := do
  let su ← diffNumbers (α := String) (.num (.fin a.samplesUsed)) (.num (.fin b.samplesUsed))
  let el ← diffNumbers (α := String) (.num (.fin a.emptyLines)) (.num (.fin b.emptyLines))
  let me ← diffNumbers (α := String) (.num (.fin a.memory)) (.num (.fin b.memory))
  match a.parts with
  | none => .error .attributeError
  | some p =>
    match b.parts with
    | none => .error .typeError
    | some q =>
      let dl ← labelPart p.labels q.labels
      .ok ⟨diffStrings a.fileType b.fileType, diffStrings a.encoding b.encoding, su, el, me, dl,
        textPart ch p.text q.text⟩

/-- What is compared of a profile without labels. -/
def State.side (s : State) : Side :=
  ⟨s.fileType, s.encoding, s.total, s.empty, s.memory, s.profile.map fun c => ⟨c.text, none⟩⟩

end Verif.Unstructured
