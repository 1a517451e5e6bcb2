import Verif.Model.F1Text

/-! # Specification of the printed table of scores -/

namespace Verif.Spec.F1Text

open Verif.F1Text

/-- A text stands at the right end of the `len` characters after the first `from` ones, with blanks before it. -/
def Cell (l : Text) (start len : ℕ) (s : Text) : Prop :=
  ∃ k, (l.drop start).take len = List.replicate k ' ' ++ s ∧ k + s.length = len

/-- The texts of the four cells of an entry. -/
def cells {α : Type} (fmt : α → Text) : Entry α → Text × Text × Text × Text
  | .row p r f s => (fmt p, fmt r, fmt f, s)
  | .num x => ([], [], fmt x, [])

/-- A line shows a name and four texts in columns. -/
def Shows (width : ℕ) (l key : Text) (c : Text × Text × Text × Text) : Prop :=
  l.length = width + 41 ∧ Cell l 0 width key ∧ Cell l (width + 2) 9 c.1 ∧ Cell l (width + 12) 9 c.2.1 ∧ Cell l (width + 22) 9 c.2.2.1 ∧
    Cell l (width + 32) 9 c.2.2.2

/-- The averages of a report. -/
def Average (key : Text) : Prop :=
  String.ofList key = "accuracy" ∨ String.ofList key = "macro avg" ∨ String.ofList key = "weighted avg" ∨ String.ofList key = "micro avg"

instance (key : Text) : Decidable (Average key) := by unfold Average; infer_instance

/-- Numbers and supports fit into nine characters. -/
def Fits {α : Type} (fmt : α → Text) (e : Entry α) : Prop :=
  (cells fmt e).1.length ≤ 9 ∧ (cells fmt e).2.1.length ≤ 9 ∧ (cells fmt e).2.2.1.length ≤ 9 ∧ (cells fmt e).2.2.2.length ≤ 9

/-- Entries as sklearn makes them: a number for the accuracy and scores for all others. -/
def Regular {α : Type} (key : Text) (e : Entry α) : Prop :=
  (String.ofList key = "accuracy" ∧ ∃ x, e = .num x) ∨ (String.ofList key ≠ "accuracy" ∧ ∃ p r f s, e = .row p r f s)

/-- The width of names: the longest label, and room for the averages. -/
def Width (labels : List Text) (w : ℕ) : Prop :=
  12 ≤ w ∧ (∀ l ∈ labels, l.length ≤ w) ∧ (w = 12 ∨ ∃ l ∈ labels, l.length = w)

end Verif.Spec.F1Text
