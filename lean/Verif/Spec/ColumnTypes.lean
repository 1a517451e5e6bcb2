import Verif.Model.ColumnTypes

/-!
# What the data type of a column should be
-/

namespace Verif.ColumnTypesSpec

open Verif.ColumnTypes

/-- All values given to a history. -/
def values : History → List String
  | .new => []
  | .update h b => values h ++ b.values
  | .merge h1 h2 => values h1 ++ values h2

/-- How many of them were counted as dates. -/
def dates : History → ℕ
  | .new => 0
  | .update h b => dates h + b.dates
  | .merge h1 h2 => dates h1 + dates h2

/-- No batch has more dates than values. -/
def Sensible : History → Prop
  | .new => True
  | .update h b => Sensible h ∧ b.dates ≤ b.values.length
  | .merge h1 h2 => Sensible h1 ∧ Sensible h2

/-- The text is read as a number. -/
def IsNumber (toFloat : String → Option Flt) (x : String) : Prop := ∃ v, toFloat x = some v

/-- The text is read as a whole number. -/
def IsWhole (toFloat : String → Option Flt) (x : String) : Prop := ∃ z : ℤ, toFloat x = some (.fin z)

/-- Every value seen is of the given type. -/
def AllAre (toFloat : String → Option Flt) (h : History) : Ty → Prop
  | .datetime => dates h = (values h).length
  | .int => ∀ x ∈ values h, IsWhole toFloat x
  | .float => ∀ x ∈ values h, IsNumber toFloat x
  | .text => True

open Classical in
/-- How many values seen are of the given type. -/
noncomputable def howMany (toFloat : String → Option Flt) (h : History) : Ty → ℕ
  | .datetime => dates h
  | .int => (values h).countP fun x => decide (IsWhole toFloat x)
  | .float => (values h).countP fun x => decide (IsNumber toFloat x)
  | .text => (values h).length

/-- The rank of a type: dates first, then whole numbers, numbers, texts. -/
def rank : Ty → ℕ
  | .datetime => 0
  | .int => 1
  | .float => 2
  | .text => 3

/-- The first enabled type, by rank, that all values are of. -/
def IsFirst (toFloat : String → Option Flt) (enabled : Ty → Bool) (h : History) (t : Ty) : Prop :=
  enabled t = true ∧ AllAre toFloat h t ∧ ∀ t', rank t' < rank t → enabled t' = true → ¬ AllAre toFloat h t'

end Verif.ColumnTypesSpec
