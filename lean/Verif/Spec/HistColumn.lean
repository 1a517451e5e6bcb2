import Verif.Model.HistColumn

/-!
# What a histogram says about data

The vocabulary of the statements about the histogram of a column; it only uses the types of histograms and options.
-/

namespace Verif.Spec.HistColumn

open Verif.Histogram Verif.HistColumn

/-- `lo` is the smallest value. -/
def Smallest (lo : ℚ) (data : List ℚ) : Prop := lo ∈ data ∧ ∀ v ∈ data, lo ≤ v

/-- `hi` is the greatest value. -/
def Largest (hi : ℚ) (data : List ℚ) : Prop := hi ∈ data ∧ ∀ v ∈ data, v ≤ hi

/-- The histogram counts all of the data, from the smallest to the greatest. -/
structure Describes (g : Hist) (data : List ℚ) : Prop where
  shape : g.edges.length = g.counts.length + 1
  total : g.counts.sum = data.length
  first : ∃ lo, g.edges.head? = some lo ∧ Smallest lo data
  last : ∃ hi, g.edges.getLast? = some hi ∧ Largest hi data

/-- All values are the same. -/
def AllEqual (data : List ℚ) : Prop := ∀ x ∈ data, ∀ y ∈ data, x = y

/-- What a column has to estimate a number of bins from: as many values as the data, with the same smallest and greatest. -/
def Stands (vs data : List ℚ) : Prop :=
  vs.length = data.length ∧ (∀ lo, Smallest lo vs ↔ Smallest lo data) ∧ ∀ hi, Largest hi vs ↔ Largest hi data

/-- The binning methods that may be used under some options: those named, or numpy's seven. -/
def Offered : Option Options → String → Prop
  | none, m => m ∈ ["auto", "fd", "doane", "scott", "rice", "sturges", "sqrt"]
  | some o, m =>
    match o.bins with
    | .method x => m = x
    | .methods ms => m ∈ ms
    | .count _ => False

/-- The number of bins asked for. -/
def Wanted : Option Options → Option ℕ
  | none => none
  | some o =>
    match o.bins with
    | .count k => some k
    | _ => none

/-- The number of quantiles asked for. -/
def WantedQuantiles : Option Options → ℕ
  | none => 1000
  | some o => o.numQuantiles

end Verif.Spec.HistColumn
