import Verif.Model.Json

/-!
# The leaves of a nested record
-/

namespace Verif.Spec.JsonNest

open Verif Verif.Json

variable {A : Type}

/-- The components of a key. -/
def parts (k : Key) : List Key := k.splitOn '.'

mutual
/-- The leaves of a record, each with the keys that lead to it. Keys are taken as they are. -/
def leaves : J A → List (List Key × J A)
  | .obj fields => leavesF fields
  | .val a => [([], .val a)]
  | .list xs => [([], .list xs)]
/-- The leaves below the fields of a dictionary. -/
def leavesF : List (Key × J A) → List (List Key × J A)
  | [] => []
  | (k, j) :: rest => (leaves j).map (fun x => (k :: x.1, x.2)) ++ leavesF rest
end

/-- No path leads to or through another. -/
def Apart (ps : List (List Key)) : Prop := ps.Pairwise fun p q => ¬ p <+: q ∧ ¬ q <+: p

/-- A scalar that may be replaced. -/
def blankJ (blank : A → Bool) : J A → Bool
  | .val a => blank a
  | _ => false

/-- The cells of a row, each with the components of its key. -/
def cells (row : PyDict Key (J A)) : List (List Key × J A) := row.map fun x => (parts x.1, x.2)

/-- The cells below which there is no other. -/
def outermost (row : PyDict Key (J A)) : List (List Key × J A) :=
  (cells row).filter fun e => (cells row).all fun e' => decide (e.1 <+: e'.1 → e'.1 = e.1)

/-- Cells above others are blank, and come first unless their keys have no dots. -/
def Nestable (blank : A → Bool) (row : PyDict Key (J A)) : Prop :=
  row.Pairwise fun x y => (parts x.1 <+: parts y.1 → blankJ blank x.2 = true) ∧
    (parts y.1 <+: parts x.1 → blankJ blank y.2 = true ∧ '.' ∉ y.1)

/-- A document as one row, whose keys are the paths. -/
def flat (doc : List (Key × J A)) : PyDict Key (J A) := (leavesF doc).map fun e => (List.intercalate ['.'] e.1, e.2)

/-- Keys without dots, each once, and no empty dictionaries. -/
inductive Document : J A → Prop where
  | val (a : A) : Document (.val a)
  | list (xs : List (J A)) : Document (.list xs)
  | obj (fields : List (Key × J A)) (ne : fields ≠ []) (once : (fields.map (·.1)).Nodup) (keys : ∀ x ∈ fields, '.' ∉ x.1)
      (sub : ∀ x ∈ fields, Document x.2) : Document (.obj fields)

end Verif.Spec.JsonNest
