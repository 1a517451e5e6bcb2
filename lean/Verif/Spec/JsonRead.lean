import Verif.Model.Json

/-!
# Lines of JSON
-/

namespace Verif.Spec.JsonRead

open Verif Verif.Json

variable {A : Type}

/-- The line counts as JSON: it has a colon or a bracket, and is a document. -/
def Counts (loads : List Char → Option (J A)) (l : List Char) : Prop := (':' ∈ l ∨ '[' ∈ l) ∧ (loads l).isSome = true

instance (loads : List Char → Option (J A)) : DecidablePred (Counts loads) := fun _ => by unfold Counts; infer_instance

/-- How many of the first thousand lines count as JSON. -/
def counted (loads : List Char → Option (J A)) (ls : List (List Char)) : ℕ := ((ls.take 1000).filter fun l => decide (Counts loads l)).length

/-- A text that cannot be encoded is the value, or an item of it, through lists only. -/
inductive Bare (bad : A → Bool) : J A → Prop where
  | val : bad a = true → Bare bad (.val a)
  | item : x ∈ xs → Bare bad x → Bare bad (.list xs)

/-- `read` gives the document of a line, unless a text that cannot be encoded is bare in it. -/
def Reads (bad : A → Bool) (loads read : List Char → Option (J A)) : Prop :=
  ∀ l j, read l = some j ↔ loads l = some j ∧ ¬ Bare bad j

/-- The documents of the lines, in order; lines that are no document are left out. -/
def documents (loads : List Char → Option (J A)) (ls : List (List Char)) : List (J A) := ls.filterMap loads

/-- The lines before the first empty one. -/
def upToBlank (ls : List (List Char)) : List (List Char) := ls.takeWhile fun l => decide (l ≠ [])

end Verif.Spec.JsonRead
