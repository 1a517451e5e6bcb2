import Verif.Model.Words

/-!
# What the profile of words should report
-/

namespace Verif.WordsSpec

open Verif.Words

/-- All texts of a history. -/
def texts : History → List Word
  | .new _ => []
  | .update h rows => texts h ++ rows
  | .merge h1 h2 => texts h1 ++ texts h2

/-- All words to be stopped, by any profile of the history. -/
def stops : History → List Word
  | .new o => o.stop
  | .update h _ => stops h
  | .merge h1 h2 => stops h1 ++ stops h2

/-- Every profile of the history is case sensitive. -/
def Sensitive : History → Prop
  | .new o => o.caseSensitive = true
  | .update h _ => Sensitive h
  | .merge h1 h2 => Sensitive h1 ∧ Sensitive h2

/-- In no merge has the first profile all stop words of the second and more. -/
def Balanced : History → Prop
  | .new _ => True
  | .update h _ => Balanced h
  | .merge h1 h2 => Balanced h1 ∧ Balanced h2 ∧ ((∀ w ∈ stops h2, w ∈ stops h1) → ∀ w ∈ stops h1, w ∈ stops h2)

/-- The number of a limit, if every profile has one. -/
def limits (f : Opts → Option ℕ) : History → List (Option ℕ)
  | .new o => [f o]
  | .update h _ => limits f h
  | .merge h1 h2 => limits f h1 ++ limits f h2

/-- The printable ASCII characters that are neither letters nor digits nor blank. -/
def Punct (c : Char) : Prop :=
  33 ≤ c.toNat ∧ c.toNat < 127 ∧ ¬(48 ≤ c.toNat ∧ c.toNat ≤ 57) ∧ ¬(65 ≤ c.toNat ∧ c.toNat ≤ 90) ∧
    ¬(97 ≤ c.toNat ∧ c.toNat ≤ 122)

/-- `cs` is a maximal piece of `text` without whitespace, stripped of punctuation: all words of a text in order. -/
inductive WordsOf (isSpace : Char → Bool) : Word → List Word → Prop where
  | none {text : Word} : (∀ c ∈ text, isSpace c = true) → WordsOf isSpace text []
  | word {gap w rest : Word} {ws : List Word} {a b : Word} {core : Word} :
      (∀ c ∈ gap, isSpace c = true) → w ≠ [] → (∀ c ∈ w, isSpace c = false) →
      (∀ c cs, rest = c :: cs → isSpace c = true) →
      w = a ++ core ++ b → (∀ c ∈ a, Punct c) → (∀ c ∈ b, Punct c) →
      (∀ c cs, core = c :: cs → ¬Punct c) → (∀ c cs, core = cs ++ [c] → ¬Punct c) →
      WordsOf isSpace rest ws → WordsOf isSpace (gap ++ w ++ rest) (core :: ws)

/-- Assumptions on case mapping. -/
structure Sane (ch : Chars) : Prop where
  idem : ∀ w, ch.lower (ch.lower w) = ch.lower w
  empty : ∀ w, ch.lower w = [] ↔ w = []
  islower : ∀ w, ch.islower w = true → ch.lower w = w
  lowered : ∀ w, ch.lower w ≠ w → ch.islower (ch.lower w) = true
  split : ∀ row, split ch.isSpace (ch.lower row) = (split ch.isSpace row).map ch.lower

open scoped Classical in
/-- Number of times a word occurs in the texts: as such if all profiles are case sensitive, else with its case ignored. -/
noncomputable def occurrences (ch : Chars) (h : History) (w : Word) : ℕ :=
  ((texts h).flatMap (split ch.isSpace)).countP fun v => decide ((if Sensitive h then v else ch.lower v) = w)

end Verif.WordsSpec
