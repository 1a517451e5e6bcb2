import Mathlib.Algebra.Order.Field.Rat
import Mathlib.Data.Rat.Defs
import Mathlib.Data.Nat.Notation

/-!
# Entities, words and cells
-/

namespace Verif.Spec.Postprocess

/-- The entities of a sequence of labels are its maximal runs of labels that are not ignored, in order. -/
structure IsRuns (ignore : ℕ → Bool) (sample : List ℕ) (out : List (ℕ × ℕ × ℕ)) : Prop where
  sorted : out.Pairwise fun a b => a.2.1 ≤ b.1
  run : ∀ r ∈ out, r.1 < r.2.1 ∧ (∀ i, r.1 ≤ i → i < r.2.1 → sample[i]? = some r.2.2) ∧ ignore r.2.2 = false
  maximal : ∀ r ∈ out, (r.1 = 0 ∨ sample[r.1 - 1]? ≠ some r.2.2) ∧ sample[r.2.1]? ≠ some r.2.2
  all : ∀ i l, sample[i]? = some l → ignore l = false → ∃ r ∈ out, r.1 ≤ i ∧ i < r.2.1

/-- A label makes up enough of a word. -/
def Strong (minPct : ℚ) (xs : List ℕ) (l : ℕ) : Prop :=
  2 ≤ xs.count l ∧ minPct ≤ (xs.count l : ℚ) / ((max xs.length 1 : ℕ) : ℚ)

/-- The label of a word: a most frequent one among the strong ones, the background in doubt. -/
def IsWordLabel (minPct : ℚ) (bg : ℕ) (xs : List ℕ) (w : ℕ) : Prop :=
  (w = bg ∧ ∀ l, ¬ Strong minPct xs l) ∨
    (Strong minPct xs w ∧ (∀ l, Strong minPct xs l → xs.count l ≤ xs.count w) ∧
      (w ≠ bg → Strong minPct xs bg → xs.count bg < xs.count w))

/-- A word of a text: no separators, preceded by one or at the start, up to `b`. -/
def IsWord (seps : List Bool) (a b : ℕ) : Prop :=
  a ≤ b ∧ (∀ i, a ≤ i → i < b → seps[i]? = some false) ∧ (a = 0 ∨ seps[a - 1]? = some true)

/-- A separator may be given the background only beside a word with the background as its label. -/
def Beside (minPct : ℚ) (bg : ℕ) (seps : List Bool) (preds : List ℕ) (i : ℕ) : Prop :=
  ∃ a b, IsWord seps a b ∧ 0 < a ∧ (b = seps.length ∨ seps[b]? = some true) ∧ (a = i + 1 ∨ b = i) ∧
    IsWordLabel minPct bg ((preds.take b).drop a) bg

/-- The label of a cell: none without labels other than padding, else one of the most frequent of these, the default only if it
is the only one. -/
def IsCellLabel (dflt pad : ℕ) (labels : List ℕ) : Option ℕ → Prop
  | none => ∀ l ∈ labels, l = pad
  | some w => w ≠ pad ∧ w ∈ labels ∧ (∀ l, l ≠ pad → labels.count l ≤ labels.count w) ∧
      (w = dflt → ∀ l, l ≠ pad → l ≠ dflt → labels.count l < labels.count w)

end Verif.Spec.Postprocess
