import Verif.Model.UnstructuredDiff
import Verif.Spec.Words

/-! # What a report of differences of texts should say -/

namespace Verif.UnstructuredSpec

open Verif.Unstructured Verif.Diffs

variable {K : Type} [DecidableEq K]

/-- Two sets: "unchanged" exactly if equal, otherwise the elements of the first only, of both, and of the second only, each
once. -/
def ReportsSet (a b : K → Prop) (d : Diff K) : Prop :=
  ((∀ x, a x ↔ b x) → d = .unchanged) ∧
  (¬(∀ x, a x ↔ b x) → ∃ l s r, d = .lists l s r ∧ l.Nodup ∧ s.Nodup ∧ r.Nodup ∧
    ∀ x, (x ∈ l ↔ a x ∧ ¬b x) ∧ (x ∈ s ↔ a x ∧ b x) ∧ (x ∈ r ↔ ¬a x ∧ b x))

/-- Two tables of counts: "unchanged" if both are empty, otherwise the entries of the first only, for each shared key
"unchanged" or the first count minus the second, and the entries of the second only. -/
def ReportsCounts (t1 t2 : K → Option ℕ) (d : CountDiff K) : Prop :=
  ((∀ k, t1 k = none ∧ t2 k = none) → d = .unchanged) ∧
  ((∃ k, t1 k ≠ none ∨ t2 k ≠ none) → ∃ o1 sh o2, d = .parts o1 sh o2 ∧ ∀ k,
    (∀ x, t1 k = some x → t2 k = none →
      PyDict.get? o1 k = some x ∧ PyDict.get? sh k = none ∧ PyDict.get? o2 k = none) ∧
    (∀ y, t1 k = none → t2 k = some y →
      PyDict.get? o1 k = none ∧ PyDict.get? sh k = none ∧ PyDict.get? o2 k = some y) ∧
    (∀ x y, t1 k = some x → t2 k = some y →
      PyDict.get? o1 k = none ∧ PyDict.get? o2 k = none ∧ (x = y → PyDict.get? sh k = some none) ∧
        (x ≠ y → PyDict.get? sh k = some (some ((x : ℤ) - y)))) ∧
    (t1 k = none → t2 k = none → PyDict.get? o1 k = none ∧ PyDict.get? sh k = none ∧ PyDict.get? o2 k = none))

/-- `t` has the most frequent entries of `full`: all of them without a limit, else as many as it allows. -/
structure Top (limit : Option ℕ) (full t : K → Option ℕ) : Prop where
  sub : ∀ k x, t k = some x → full k = some x
  best : ∀ k x k' y, full k = some x → t k = none → t k' = some y → x ≤ y
  whole : limit = none → ∀ k, t k = full k
  size : ∀ n, limit = some n → ∀ ks : List K, ks.Nodup → (∀ k, k ∈ ks ↔ full k ≠ none) →
    ∃ ts : List K, ts.Nodup ∧ (∀ k, k ∈ ts ↔ t k ≠ none) ∧ ts.length = min n ks.length

/-- The number stored under a label, if any. -/
def numberOf (d : PyDict String ℚ) (k : String) : Option Num := (d.find? fun kv => kv.1 = k).map fun kv => .fin kv.2

open Verif.Words (Chars Word)

/-- The table of characters of the texts of a history. -/
def charTable (h : Words.History) (c : Char) : Option ℕ :=
  if c ∈ (WordsSpec.texts h).flatten then some ((WordsSpec.texts h).flatten.count c) else none

/-- The table of words of the texts of a history: those that occur, are not empty and not stopped. -/
noncomputable def wordTable (ch : Chars) (h : Words.History) (w : Word) : Option ℕ :=
  if w = [] ∨ ch.lower w ∈ WordsSpec.stops h ∨ WordsSpec.occurrences ch h w = 0 then none
  else some (WordsSpec.occurrences ch h w)

/-- `t'` is the table `t` with its words in lower case. -/
def Lowered (ch : Chars) (t t' : Word → Option ℕ) : Prop := ∀ w x, t' w = some x ↔ ∃ v, ch.lower v = w ∧ t v = some x

/-- No two words of a table have the same lower case. -/
def Apart (ch : Chars) (t : Word → Option ℕ) : Prop :=
  ∀ v w, t v ≠ none → t w ≠ none → ch.lower v = ch.lower w → v = w

end Verif.UnstructuredSpec
