import Mathlib.Data.Nat.Notation
import Verif.Model.Basic

/-! # Bracketings of a list, and admissible pool schedules -/

namespace Verif.MergeList

/-- A way of bracketing a sum. -/
inductive Bracket (α : Type) where
  | leaf (a : α)
  | node (l r : Bracket α)

/-- The summands of a bracketing, left to right. -/
def Bracket.leaves {α : Type} : Bracket α → List α
  | .leaf a => [a]
  | .node l r => l.leaves ++ r.leaves

/-- The value of a bracketing under a `+` that may raise. -/
inductive Bracket.Value {α : Type} (add : α → α → Except Err α) : Bracket α → α → Prop where
  | leaf (a : α) : Value add (.leaf a) a
  | node {l r : Bracket α} {a b c : α} :
      Value add l a → Value add r b → add a b = .ok c → Value add (.node l r) c

/-- In every round each task finishes exactly once, in some order. A round on `n` profiles has
`⌈n/2⌉` tasks, and leaves that many profiles for the next round. -/
def FairSchedule (sched : ℕ → List ℕ) : ℕ → ℕ → ℕ → Prop
  | 0, _, _ => True
  | fuel + 1, r, n =>
    n > 1 → (sched r).Perm (List.range ((n + 1) / 2)) ∧ FairSchedule sched fuel (r + 1) ((n + 1) / 2)

end Verif.MergeList
