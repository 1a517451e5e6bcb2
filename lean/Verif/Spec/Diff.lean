import Verif.Model.Diff

/-! # Vocabulary for comparing reports -/

namespace Verif.Diffs

variable {α : Type}

/-- The reported difference says "unchanged" everywhere. -/
inductive AllUnchanged : Diff α → Prop where
  | leaf : AllUnchanged .unchanged
  | dict {items : List (String × Diff α)} :
      (∀ kv ∈ items, AllUnchanged kv.2) → AllUnchanged (.dict items)
  | parts {shared : List (String × Diff α)} :
      (∀ kv ∈ shared, AllUnchanged kv.2) → AllUnchanged (.parts [] shared [])

/-- A report value without NaN, whose dictionaries have distinct keys (as all Python dicts do). -/
inductive Proper : PV α → Prop where
  | none : Proper .none
  | num (q : ℚ) : Proper (.num (.fin q))
  | bool (b : Bool) : Proper (.bool b)
  | str (s : String) : Proper (.str s)
  | list (l : List α) : Proper (.list l)
  | date (t : ℤ) : Proper (.date t)
  | dict {items : List (String × PV α)} :
      PyDict.WF items → (∀ kv ∈ items, Proper kv.2) → Proper (.dict items)

/-- Two report values agree: equal numbers (booleans counting as 0 and 1), strings and dates, lists
with the same elements and length, and dictionaries that agree at every key, where a missing key
counts as `None`. -/
inductive Same : PV α → PV α → Prop where
  | none : Same .none .none
  | num {a b : PV α} (q : ℚ) : a.asNum = some (.fin q) → b.asNum = some (.fin q) → Same a b
  | str (s : String) : Same (.str s) (.str s)
  | list {a b : List α} : (∀ x, x ∈ a ↔ x ∈ b) → a.length = b.length → Same (.list a) (.list b)
  | date (t : ℤ) : Same (.date t) (.date t)
  | dict {d1 d2 : List (String × PV α)} :
      (∀ k v, PyDict.get? d1 k = some v → Same v ((PyDict.get? d2 k).getD .none)) →
      (∀ k, PyDict.get? d1 k = Option.none → PyDict.get? d2 k = Option.none) →
      Same (.dict d1) (.dict d2)

/-- Negation of a number. -/
def Num.neg : Num → Num
  | .fin q => .fin (-q)
  | .nan => .nan

end Verif.Diffs
