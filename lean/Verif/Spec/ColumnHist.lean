import Verif.Model.ColumnHist
import Verif.Spec.Column
import Verif.Spec.HistColumn
import Verif.Spec.Precision

/-!
# What histograms and precision of a column profile should say
-/

namespace Verif.Spec.ColumnHist

open Verif Verif.Column Verif.Spec.Column

open Classical in
/-- The numbers a kind of profile is about, as rationals. -/
noncomputable def rationals (read : String → Option ℚ) (k : Kind) (xs : List String) : List ℚ :=
  xs.filterMap fun x => match k with
    | .int => (read x).bind fun q => if ∃ z : ℤ, q = z then some q else none
    | .float => read x
    | .text => some (x.length : ℚ)

/-- A profile that was only updated. -/
def Updated : History → Prop
  | .new _ => True
  | .update h _ => Updated h
  | .merge _ _ => False

/-- Some cell looked at has a number of the kind. -/
def Holds (isNull : String → Bool) (read : String → Option ℚ) (k : Kind) (h : History) : Prop :=
  ∃ cs, Looked isNull h cs ∧ rationals read k (cs.filter fun x => !isNull x) ≠ []

/-- No profile is updated after a merge, and numbers are not merged with none. -/
def Straight (isNull : String → Bool) (read : String → Option ℚ) (k : Kind) : History → Prop
  | .new _ => True
  | .update h _ => Updated h
  | .merge h1 h2 => Straight isNull read k h1 ∧ Straight isNull read k h2 ∧ (Holds isNull read k h1 ↔ Holds isNull read k h2)

/-- The histogram has the data between its ends, which are the extremes when `exact` holds. -/
structure Bars (g : Histogram.Hist) (data : List ℚ) (exact : Prop) : Prop where
  shape : g.edges.length = g.counts.length + 1
  total : g.counts.sum = data.length
  first : exact → ∃ lo, g.edges.head? = some lo ∧ Spec.HistColumn.Smallest lo data
  last : exact → ∃ hi, g.edges.getLast? = some hi ∧ Spec.HistColumn.Largest hi data

/-- The values drawn to look at their digits are different ones of the column: all up to 20000, then 20000 or a twentieth. -/
def Samples (e : Env) : Prop :=
  ∀ l, (e.sample l).Subperm l ∧ (e.sample l).length = if l.length ≤ 20000 then l.length else max 20000 (l.length / 20)

/-- Batches of at most 20000 cells. -/
def Small : History → Prop
  | .new _ => True
  | .update h b => Small h ∧ b.col.length ≤ 20000
  | .merge h1 h2 => Small h1 ∧ Small h2

/-- The texts that are numbers. -/
def written (read : String → Option ℚ) (xs : List String) : List String := xs.filter fun x => (read x).isSome

end Verif.Spec.ColumnHist
