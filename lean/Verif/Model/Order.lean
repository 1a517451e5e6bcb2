import Mathlib.Order.Lattice
import Mathlib.Order.Defs.LinearOrder
import Mathlib.Data.String.Basic
import Mathlib.Algebra.Order.Field.Rat
import Verif.Model.Basic

/-!
# Order of a column

Models `dataprofiler/profilers/order_column_profile.py` (`OrderColumn`).

Simplifications
* the core works over any linear order: floats are exact rationals without NaN, strings are compared by code
  points;
* `order`, `_first_value`, `_last_value` and `_piecewise` are one optional record, absent before the first batch;
* `_data_store_type` is modelled by the two constructors of `Column`; `astype(float)` is an arbitrary partial
  function on single values and `str(float)` an arbitrary function;
* `sample_size`, `times` and the (always empty) calculations are left out.
-/

namespace Verif.Order

/-- The reported orders. -/
inductive Kind where
  | ascending
  | descending
  | constant
  | random
  deriving DecidableEq, Repr

/-- What is stored once a batch was seen (order_column_profile.py:53-57). -/
structure Info (α : Type) where
  order : Kind
  first : α
  last : α
  piecewise : Bool
  deriving DecidableEq, Repr

section Core

variable {α : Type} [LinearOrder α]

/-- `_is_intersecting` (order_column_profile.py:63-99). -/
def isIntersecting (f1 l1 f2 l2 : α) : Bool :=
  let lo1 := min f1 l1
  let hi1 := max f1 l1
  let lo2 := min f2 l2
  let hi2 := max f2 l2
  decide ((lo2 < lo1 ∧ lo1 < hi2) ∨ (lo2 < hi1 ∧ hi1 < hi2) ∨ (lo1 < lo2 ∧ lo2 < hi1) ∨ (lo1 < hi2 ∧ hi2 < hi1) ∨
    (lo1 = lo2 ∧ hi1 = hi2))

/-- `_is_enveloping` (order_column_profile.py:102-131). -/
def isEnveloping (f1 l1 f2 l2 : α) : Bool :=
  decide (min f1 l1 < min f2 l2 ∧ max f2 l2 < max f1 l1)

/-- The decision about the merged order (order_column_profile.py:206-242). -/
def mergeKind (k1 k2 : Kind) (p1 p2 inter env12 env21 : Bool) : Kind :=
  if k1 = .random ∨ k2 = .random then .random
  else if k1 = k2 then
    if !inter || (p1 && p2) then k1
    else if p1 && env12 then k1
    else if p2 && env21 then k1
    else if k1 = .constant then k1
    else .random
  else if (k1 = .ascending ∧ k2 = .descending) ∨ (k1 = .descending ∧ k2 = .ascending) then .random
  else if !inter then
    if k1 = .ascending ∨ k2 = .ascending then .ascending else .descending
  else if k1 = .constant ∧ p2 then k2
  else if k2 = .constant ∧ p1 then k1
  else .random

/-- First and last value of the merged order (order_column_profile.py:244-253). -/
def mergeEnds (k : Kind) (f1 l1 f2 l2 : α) : α × α :=
  match k with
  | .ascending => (min f1 f2, max l1 l2)
  | .descending => (max f1 f2, min l1 l2)
  | _ => (min (min (min f1 f2) l1) l2, max (max (max f1 f2) l1) l2)

/-- `_merge_order` of two seen datasets (order_column_profile.py:181-262). -/
def mergeInfo (a b : Info α) : Info α :=
  let k := mergeKind a.order b.order a.piecewise b.piecewise (isIntersecting a.first a.last b.first b.last)
    (isEnveloping a.first a.last b.first b.last) (isEnveloping b.first b.last a.first a.last)
  let e := mergeEnds k a.first a.last b.first b.last
  ⟨k, e.1, e.2, !((k = .constant && decide (e.1 = e.2)) || k = .random)⟩

/-- `_merge_order` (order_column_profile.py:176-179 for the missing orders). -/
def merge (a b : Option (Info α)) : Option (Info α) :=
  match a, b with
  | none, b => b
  | some a, none => some a
  | some a, some b => some (mergeInfo a b)

/-- The loop of `_get_data_order` (order_column_profile.py:398-409): order so far and last value. -/
def orderLoop : Option Kind → α → List α → Option Kind × α
  | o, last, [] => (o, last)
  | o, last, v :: vs =>
    if v < last ∧ o = some .ascending then (some .random, last)
    else if v < last ∧ o = none then orderLoop (some .descending) v vs
    else if last < v ∧ o = some .descending then (some .random, last)
    else if last < v ∧ o = none then orderLoop (some .ascending) v vs
    else orderLoop o v vs

/-- `_get_data_order` of a non-empty batch (order_column_profile.py:388-413), with `piecewise2=False`
(line 461). -/
def dataOrder (v : α) (vs : List α) : Info α :=
  let r := orderLoop none v (v :: vs)
  ⟨r.1.getD .constant, v, r.2, false⟩

/-- `update` with `_update_order` (order_column_profile.py:415-462, 476-499), on values of one type. -/
def update (s : Option (Info α)) (batch : List α) : Option (Info α) :=
  match batch with
  | [] => s
  | v :: vs =>
    if s.map Info.order = some .random then s
    else merge s (some (dataOrder v vs))

/-- Everything that can happen to an order profile. -/
inductive History (α : Type) where
  | new
  | update (h : History α) (batch : List α)
  | merge (h1 h2 : History α)

/-- The resulting profile. -/
def run : History α → Option (Info α)
  | .new => none
  | .update h b => update (run h) b
  | .merge h1 h2 => merge (run h1) (run h2)

end Core

/-! ## Numbers and strings -/

section Mixed

variable (parse : String → Option ℚ) (render : ℚ → String)

/-- A column whose endpoints are numbers or strings (`_data_store_type`). -/
inductive Column where
  | num (s : Option (Info ℚ))
  | str (s : Option (Info String))
  deriving DecidableEq

/-- The reported order. -/
def Column.order : Column → Option Kind
  | .num s => s.map Info.order
  | .str s => s.map Info.order

/-- `df_series.astype(float)`: all values or a `ValueError` (order_column_profile.py:388-392). -/
def parseAll (batch : List String) : Option (List ℚ) := batch.mapM parse

/-- `str(first_value1)`, `str(last_value1)` (order_column_profile.py:182-187). -/
def toStr (s : Option (Info ℚ)) : Option (Info String) :=
  s.map fun i => ⟨i.order, render i.first, render i.last, i.piecewise⟩

/-- `update` of a column (order_column_profile.py:415-462, 476-499). -/
def updateColumn (c : Column) (batch : List String) : Column :=
  if batch = [] then c
  else if c.order = some .random then c
  else match c with
    | .str s => .str (update s batch)
    | .num s =>
      match parseAll parse batch with
      | some xs => .num (update s xs)
      | none => .str (update (toStr render s) batch)

/-- `__add__` of two columns (order_column_profile.py:264-305): an operand without order yields the other one
unchanged, otherwise one string operand makes both strings. -/
def mergeColumn (a b : Column) : Column :=
  match a, b with
  | .num none, b => b
  | .str none, b => b
  | a, .num none => a
  | a, .str none => a
  | .num x, .num y => .num (merge x y)
  | .str x, .str y => .str (merge x y)
  | .num x, .str y => .str (merge (toStr render x) y)
  | .str x, .num y => .str (merge x (toStr render y))

/-- The column that results from batches of texts and merges (order_column_profile.py:264-305, 415-462, 476-499). -/
def runColumn : History String → Column
  | .new => .num none
  | .update h b => updateColumn parse render (runColumn h) b
  | .merge h1 h2 => mergeColumn render (runColumn h1) (runColumn h2)

end Mixed

end Verif.Order
