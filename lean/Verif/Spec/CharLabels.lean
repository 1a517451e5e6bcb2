import Mathlib.Data.Int.Notation
import Mathlib.Data.Nat.Notation

/-!
# The label of a character
-/

namespace Verif.Spec.CharLabels

variable {α K L : Type}

/-- The last entity that covers the character names its label, otherwise it is the default. -/
def labelAt (dflt : K) (es : List (ℤ × ℤ × K)) (i : ℕ) : K :=
  match es.reverse.find? fun e => decide (e.1 ≤ (i : ℤ) ∧ (i : ℤ) < e.2.1) with
  | some e => e.2.2
  | none => dflt

/-- A text with the labels of its characters. -/
def labelled (f : K → L) (dflt : K) (text : List α) (es : List (ℤ × ℤ × K)) : List (α × L) :=
  text.zipIdx.map fun x => (x.1, f (labelAt dflt es x.2))

/-- A training row: the characters, their labels, and padding up to the length. -/
def row (maxLen : ℕ) (pad : L) (sample : List (α × L)) : List α × List L :=
  (sample.map (·.1), sample.map (·.2) ++ List.replicate (maxLen - sample.length) pad)

/-- Cells joined by a separator, with their labels. -/
def joined (pad : K) (sep : List α) : List (List α × K) → List (α × K)
  | [] => []
  | [(x, k)] => x.map fun c => (c, k)
  | (x, k) :: rest => x.map (fun c => (c, k)) ++ sep.map (fun c => (c, pad)) ++ joined pad sep rest

end Verif.Spec.CharLabels
