import Mathlib.Order.Defs.LinearOrder
import Verif.Model.Order

/-!
# Specification vocabulary for column order
-/

namespace Verif.OrderSpec

open Verif.Order

variable {α : Type} [LinearOrder α]

/-- Never decreasing. -/
def Asc (l : List α) : Prop := l.Pairwise (· ≤ ·)

/-- Never increasing. -/
def Desc (l : List α) : Prop := l.Pairwise (· ≥ ·)

/-- At most one different value. -/
def Const (l : List α) : Prop := ∀ x ∈ l, ∀ y ∈ l, x = y

/-- The order a user expects to be told for data `l`. -/
def Expected (l : List α) : Kind → Prop
  | .constant => Const l
  | .ascending => Asc l ∧ ¬ Const l
  | .descending => Desc l ∧ ¬ Const l
  | .random => ¬ Asc l ∧ ¬ Desc l

/-- The batches a history saw, in order. -/
def batches : History α → List (List α)
  | .new => []
  | .update h b => batches h ++ [b]
  | .merge h1 h2 => batches h1 ++ batches h2

/-- All values a history saw. -/
def seen (h : History α) : List α := (batches h).flatten

/-- `x` is the smallest element. -/
def IsMin (x : α) (l : List α) : Prop := x ∈ l ∧ ∀ y ∈ l, x ≤ y

/-- `x` is the largest element. -/
def IsMax (x : α) (l : List α) : Prop := x ∈ l ∧ ∀ y ∈ l, y ≤ x

end Verif.OrderSpec
