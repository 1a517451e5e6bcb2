import Verif.Model.Apart
import Mathlib.Data.List.Dedup

/-!
# What each profile was given

A profile is described by its hashing method and by the rows it was given, directly or by the operands it was merged from. No objects.
-/

namespace Verif.Spec.Apart

open Verif.Apart

variable {ρ η β ω : Type}

/-- The description of all profiles after one more operation. -/
def given (s : List (Bool × List ρ)) : Op ρ ω → List (Bool × List ρ)
  | .make h _ => s ++ [(h, [])]
  | .update i rows => s.modify i fun x => (x.1, x.2 ++ rows)
  | .merge i j =>
    match s[i]?, s[j]? with
    | some a, some b => if a.1 = b.1 then s ++ [(a.1, a.2 ++ b.2)] else s
    | _, _ => s
  | .set _ _ => s

/-- After a history. -/
def rowsGiven (ops : List (Op ρ ω)) : List (Bool × List ρ) := ops.foldl given []

/-- The hashing method of each profile and the profile it descends from: a merged profile descends from what its left operand descends
from. -/
def descend (s : List (Bool × ℕ)) : Op ρ ω → List (Bool × ℕ)
  | .make h _ => s ++ [(h, s.length)]
  | .merge i j =>
    match s[i]?, s[j]? with
    | some a, some b => if a.1 = b.1 then s ++ [a] else s
    | _, _ => s
  | _ => s

/-- After a history. -/
def families (ops : List (Op ρ ω)) : List (Bool × ℕ) := ops.foldl descend []

/-- The program names the profile. -/
def Names (i : ℕ) : Op ρ ω → Prop
  | .make _ _ => False
  | .update k _ => k = i
  | .merge k l => k = i ∨ l = i
  | .set k _ => k = i

/-- The profile has been the left operand of a merge. -/
def Spent (i : ℕ) (ops : List (Op ρ ω)) : Prop := ∃ j, Op.merge i j ∈ ops

/-- No operation uses a profile that was the left operand of a merge before. -/
def OnceLeft (ops : List (Op ρ ω)) : Prop :=
  ∀ pre op post, ops = pre ++ op :: post → ∀ i, Names i op → ¬ Spent i pre

/-- What is assumed of sketches: merging those of two lists of rows gives that of all rows. -/
def MergeLaw (lib : Lib ρ η β) : Prop :=
  ∀ a b : List ρ, lib.merge (a.foldl lib.add lib.empty) (b.foldl lib.add lib.empty) = (a ++ b).foldl lib.add lib.empty

end Verif.Spec.Apart
