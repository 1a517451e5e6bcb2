import Verif.Model.Reservoir

/-!
# What sampling rows should give
-/

namespace Verif.Spec.Reservoir

open Verif Verif.Reservoir

variable {α : Type}

/-- A list consists of rows at distinct positions. -/
def Sample (rows out : List α) : Prop := ∃ ps : List ℕ, ps.Nodup ∧ out.map some = ps.map fun p => rows[p]?

/-- Draws as the random number generator may give them: no exception, and the replaced row is one of `n`. -/
def Proper (n : ℕ) (draws : ℕ → Draw) : Prop :=
  ∀ i, (∀ e, draws i ≠ .raise e) ∧ ∀ rows slot, draws i = .skip rows slot → slot < n

/-- Lines of a file: not empty, a line end only at the end. -/
def Line (l : List Char) : Prop := l ≠ [] ∧ '\n' ∉ l.dropLast

/-- A line without its end. -/
def content (l : List Char) : List Char := if l.getLast? = some '\n' then l.dropLast else l

/-- Text split into the contents of its lines, all of which are ended. -/
def linesOf : List Char → List (List Char)
  | [] => []
  | c :: cs =>
    if c = '\n' then [] :: linesOf cs
    else
      match linesOf cs with
      | [] => [[c]]
      | l :: ls => (c :: l) :: ls

end Verif.Spec.Reservoir
