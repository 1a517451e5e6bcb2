import Verif.Model.Counter
import Verif.Model.Basic
import Mathlib.Data.Nat.Notation

/-!
# Words of unstructured text

Models `TextProfiler` (dataprofiler/profilers/unstructured_text_profile.py:20-60, 458-579, 635-765).

Simplifications
* words and texts are lists of characters; `str.lower`, `str.islower` and the whitespace of `str.split` are parameters;
* both calculations (vocabulary and words) are enabled; a set of stop words is a list, of which only membership and, in a
  union, the number of additions matter; names are equal; `times` and `metadata` are left out.
-/

namespace Verif.Words

open Verif

/-- A word or a text. -/
abbrev Word := List Char

/-- `str.lower`, `str.islower`, `str.isspace`. -/
structure Chars where
  lower : Word → Word
  islower : Word → Bool
  isSpace : Char → Bool

/-- `string.punctuation`. -/
def punctuation : List Char := "!\"#$%&'()*+,-./:;<=>?@[\\]^_`{|}~".toList

/-- The pieces between whitespace characters, some empty. -/
def pieces (isSpace : Char → Bool) : Word → List Word
  | [] => [[]]
  | c :: cs =>
    match pieces isSpace cs with
    | [] => []
    | p :: ps => if isSpace c then [] :: p :: ps else (c :: p) :: ps

/-- `w.strip(string.punctuation)`. -/
def strip (w : Word) : Word :=
  ((w.dropWhile fun c => decide (c ∈ punctuation)).reverse.dropWhile fun c => decide (c ∈ punctuation)).reverse

/-- `[w.strip(string.punctuation) for w in row.split()]`. -/
def split (isSpace : Char → Bool) (row : Word) : List Word :=
  ((pieces isSpace row).filter fun p => decide (p ≠ [])).map strip

/-- The options of a profile that matter here. -/
structure Opts where
  caseSensitive : Bool
  stop : List Word
  topChars : Option ℕ
  topWords : Option ℕ
deriving DecidableEq

/-- The profile. -/
structure Profile where
  opts : Opts
  size : ℕ
  vocab : PyDict Char ℕ
  words : PyDict Word ℕ
deriving DecidableEq

/-- `__init__` (unstructured_text_profile.py:34-60, 458-470). -/
def new (o : Opts) : Profile := ⟨o, 0, [], []⟩

/-- The words of the texts under the case option (unstructured_text_profile.py:709-716). -/
def rowWords (ch : Chars) (sensitive : Bool) (rows : List Word) : List Word :=
  if sensitive then rows.flatMap (split ch.isSpace) else rows.flatMap fun row => split ch.isSpace (ch.lower row)

/-- One item of the counter of a batch (unstructured_text_profile.py:719-721). -/
def addWord (ch : Chars) (stop : List Word) (d : PyDict Word ℕ) (wc : Word × ℕ) : PyDict Word ℕ :=
  if wc.1 ≠ [] ∧ ch.lower wc.1 ∉ stop then Counter.bump d wc.1 wc.2 else d

/-- `update` with `_update_vocab` and `_update_words` (unstructured_text_profile.py:668-765). -/
def update (ch : Chars) (p : Profile) (rows : List Word) : Profile :=
  if rows = [] then p
  else
    { p with
      size := p.size + rows.length
      vocab := Counter.plus p.vocab (Counter.ofList rows.flatten)
      words := (Counter.ofList (rowWords ch p.opts.caseSensitive rows)).foldl (addWord ch p.opts.stop) p.words }

/-- Union of two sets of stop words. -/
def union (s t : List Word) : List Word := s ++ t.filter fun w => decide (w ∉ s)

/-- Removal of stopped words (unstructured_text_profile.py:507-509). -/
def removeStopped (ch : Chars) (stop : List Word) (d : PyDict Word ℕ) : PyDict Word ℕ :=
  (PyDict.keys d).foldl (fun d w => if ch.lower w ∈ stop then PyDict.del d w else d) d

/-- Lower case keys (unstructured_text_profile.py:512-515): the items are listed before the loop. -/
def lowerKeys (ch : Chars) (items : List (Word × ℕ)) (d : PyDict Word ℕ) : PyDict Word ℕ :=
  items.foldl (fun d wc => if ch.islower wc.1 then d else Counter.bump (PyDict.del d wc.1) (ch.lower wc.1) wc.2) d

/-- `_merge_words` (unstructured_text_profile.py:490-515). -/
def mergeWords (ch : Chars) (a b : Profile) : PyDict Word ℕ :=
  let d := Counter.plus a.words b.words
  let stop := union a.opts.stop b.opts.stop
  let d := if stop.length ≠ a.opts.stop.length then removeStopped ch stop d else d
  if a.opts.caseSensitive ≠ b.opts.caseSensitive then lowerKeys ch d d else d

/-- The limits of the reported tables (unstructured_text_profile.py:556-562): zero counts as missing. -/
def mergeTop : Option ℕ → Option ℕ → Option ℕ
  | some (m + 1), some (n + 1) => some (max (m + 1) (n + 1))
  | _, _ => none

/-- `__add__` (unstructured_text_profile.py:517-579). -/
def merge (ch : Chars) (a b : Profile) : Profile :=
  { opts :=
      { caseSensitive := a.opts.caseSensitive && b.opts.caseSensitive
        stop := union a.opts.stop b.opts.stop
        topChars := mergeTop a.opts.topChars b.opts.topChars
        topWords := mergeTop a.opts.topWords b.opts.topWords }
    size := a.size + b.size
    vocab := Counter.plus a.vocab b.vocab
    words := mergeWords ch a b }

/-- The reported tables (unstructured_text_profile.py:654-666). -/
def report (p : Profile) : List (Char × ℕ) × List (Word × ℕ) :=
  (Counter.mostCommon p.vocab p.opts.topChars, Counter.mostCommon p.words p.opts.topWords)

/-- Everything that can happen to a profile. -/
inductive History where
  | new (o : Opts)
  | update (h : History) (rows : List Word)
  | merge (h1 h2 : History)

/-- The resulting profile. -/
def run (ch : Chars) : History → Profile
  | .new o => new o
  | .update h rows => update ch (run ch h) rows
  | .merge h1 h2 => merge ch (run ch h1) (run ch h2)

end Verif.Words
