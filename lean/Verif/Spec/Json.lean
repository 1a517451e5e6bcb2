import Verif.Model.Json

/-!
# What flattening should keep
-/

namespace Verif.Spec.Json

open Verif Verif.Json

variable {A V : Type}

/-- A JSON object. -/
def record : J A → Bool
  | .obj _ => true
  | _ => false

mutual
/-- The leaves of a document with their key paths: scalars, and lists of something else than objects. -/
def leaves : J A → List (List Key × J A)
  | .val a => [([], .val a)]
  | .obj fields => fieldLeaves fields
  | .list xs => if xs.all record then allLeaves xs else [([], .list xs)]

/-- Those of the values of an object. -/
def fieldLeaves : List (Key × J A) → List (List Key × J A)
  | [] => []
  | (k, j) :: rest => (leaves j).map (fun l => (k :: l.1, l.2)) ++ fieldLeaves rest

/-- Those of the elements of a list. -/
def allLeaves : List (J A) → List (List Key × J A)
  | [] => []
  | j :: rest => leaves j ++ allLeaves rest
end

/-- Keys joined with a separator. -/
def joined (sep : Key) : List Key → Key
  | [] => []
  | [k] => k
  | k :: ks => k ++ sep ++ joined sep ks

/-- Usual keys: not empty, and not ending like the separator. -/
def Usual (sep k : Key) : Prop := k ≠ [] ∧ k.getLast? ≠ sep.getLast?

mutual
/-- Every key of a document is usual. -/
def UsualKeys (sep : Key) : J A → Prop
  | .val _ => True
  | .obj fields => UsualFields sep fields
  | .list xs => UsualAll sep xs

/-- Every key in the fields of an object is usual. -/
def UsualFields (sep : Key) : List (Key × J A) → Prop
  | [] => True
  | (k, j) :: rest => Usual sep k ∧ UsualKeys sep j ∧ UsualFields sep rest

/-- Every key in the elements of a list is usual. -/
def UsualAll (sep : Key) : List (J A) → Prop
  | [] => True
  | j :: rest => UsualKeys sep j ∧ UsualAll sep rest
end

/-- The leaves of a document under their flat names. -/
def columns (sep : Key) (j : J A) : List (Key × J A) := (leaves j).map fun l => (joined sep l.1, l.2)

/-- The values given for a key, in order. -/
def valuesOf (k : Key) (items : List (Key × V)) : List V := items.filterMap fun i => if i.1 = k then some i.2 else none

/-- The number of values given for a key. -/
def times (k : Key) (items : List (Key × V)) : ℕ := (valuesOf k items).length

end Verif.Spec.Json
