import Verif.Model.Flat
import Mathlib.Data.List.Nodup

/-!
# Specification: flat names of the leaves of a report
-/

namespace Verif.FlatSpec

open Verif Flat

variable {V : Type}

mutual
/-- The leaves with their paths, in order. -/
def leaves : Tree V → List (List Key × V)
  | .leaf v => [([], v)]
  | .node items => leavesItems items

/-- The leaves of the items. -/
def leavesItems : List (Key × Tree V) → List (List Key × V)
  | [] => []
  | (k, t) :: rest => (leaves t).map (fun pv => (k :: pv.1, pv.2)) ++ leavesItems rest
end

mutual
/-- No dictionary has a key twice. -/
def Distinct : Tree V → Prop
  | .leaf _ => True
  | .node items => (items.map Prod.fst).Nodup ∧ DistinctItems items

/-- No dictionary in the items has a key twice. -/
def DistinctItems : List (Key × Tree V) → Prop
  | [] => True
  | (_, t) :: rest => Distinct t ∧ DistinctItems rest
end

/-- The text of a key with underscores for blanks. -/
def underscored : Key → List Char
  | .str s => s.map fun c => if c = ' ' then '_' else c
  | .int i => (toString i).toList.map fun c => if c = ' ' then '_' else c

/-- An empty or zero key leaves no trace in front of another one. -/
def Skipped : Key → Prop
  | .str s => s = []
  | .int i => i = 0

instance : DecidablePred Skipped := fun k => by
  cases k <;> unfold Skipped <;> infer_instance

/-- The flat name of a path: keys in front joined with underscores to the last key, which keeps its blanks. A key with
nothing in front of it stays as it is. -/
def name (path : List Key) : Key :=
  match path.getLast? with
  | none => .str []
  | some last =>
    if (path.dropLast.filter fun k => ¬Skipped k) = [] then last
    else .str (['_'].intercalate (((path.dropLast.filter fun k => ¬Skipped k).map underscored) ++ [last.text]))

/-- A key without special characters. -/
def Plain (k : Key) : Prop := ∃ s, k = .str s ∧ s ≠ [] ∧ '_' ∉ s ∧ ' ' ∉ s

end Verif.FlatSpec
