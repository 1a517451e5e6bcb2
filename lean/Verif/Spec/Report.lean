import Verif.Model.Report

/-!
# Specification of reports of structured profiles

Which statistics a report of a column shows, stated from the column alone.
-/

namespace Verif.Report.Spec

open Verif Nested

variable {ν V : Type}

/-- The profile whose type is reported: the first one all values match. -/
def Selected (ps : List (Prim ν V)) (p : Prim ν V) : Prop :=
  ∃ l r, ps = l ++ p :: r ∧ p.ratio = some 1 ∧ ∀ q ∈ l, q.ratio ≠ some 1

/-- The statistics described for numbers. -/
def numeric : List String :=
  ["min", "max", "mode", "median", "sum", "mean", "variance", "stddev", "skewness", "kurtosis", "histogram", "quantiles",
    "median_abs_deviation"]

/-- The statistics of a data type. -/
def Offers : Ty → String → Prop
  | .datetime, k => k = "min" ∨ k = "max" ∨ k = "format" ∨ k = "histogram"
  | .int, k => k ∈ numeric ∨ k = "num_zeros" ∨ k = "num_negatives"
  | .float, k => k ∈ numeric ∨ k = "num_zeros" ∨ k = "num_negatives" ∨ k = "precision"
  | .text, k => k ∈ numeric ∨ k = "vocab"

/-- The value of a statistic of a data type; dates have no histogram. -/
def Value (p : Prim ν V) (k : String) (v : Val ν V) : Prop :=
  (p.ty = .datetime ∧ k = "histogram" → v = .leaf .none) ∧ (¬ (p.ty = .datetime ∧ k = "histogram") → v = p.stats k)

/-- The calculation a statistic of numbers comes from; `mean` comes from the sum, the median and the deviations from the
histogram. -/
def source : String → String
  | "mode" => "histogram_and_quantiles"
  | "median" => "histogram_and_quantiles"
  | "median_abs_deviation" => "histogram_and_quantiles"
  | "histogram" => "histogram_and_quantiles"
  | "quantiles" => "histogram_and_quantiles"
  | "mean" => "sum"
  | "stddev" => "variance"
  | k => k

/-- The statistic was calculated. -/
def Calculated (p : Prim ν V) (k : String) : Prop :=
  match p.ty with
  | .datetime => True
  | .int => source k ∈ p.calcs
  | .float => if k = "precision" then "precision" ∈ p.own else source k ∈ p.calcs
  | .text => if k = "vocab" then "vocab" ∈ p.own else source k ∈ p.calcs

/-- What the flag for removing disabled statistics does to the statistics of a data type: nothing to integers and dates,
while decimals keep nothing but the precision and texts nothing but the vocabulary. -/
def Left (flag : Bool) (p : Prim ν V) (k : String) : Prop :=
  flag = true → (p.ty = .float → k = "precision" ∧ "precision" ∈ p.own) ∧ (p.ty = .text → k = "vocab" ∧ "vocab" ∈ p.own)

/-- The statistics of a categorical column. -/
def CatOffers (c : CatCol ν V) (k : String) : Prop :=
  k = "unique_count" ∨ k = "unique_ratio" ∨
    (c.isMatch = true ∧ (k = "categories" ∨ k = "gini_impurity" ∨ k = "unalikeability" ∨ k = "categorical_count"))

/-- The statistics a column shows, besides the times and the shares of the data types. -/
inductive Shows (flag : Bool) (c : Col ν V) : String → Val ν V → Prop where
  | size : Shows flag c "sample_size" c.sampleSize
  | nulls : Shows flag c "null_count" c.nullCount
  | nullTypes : Shows flag c "null_types" c.nullTypes
  | nullRows : Shows flag c "null_types_index" c.nullRows
  | stat {K p k v} : c.comps = some K → Selected K.types p → Offers p.ty k → Left flag p k → Value p k v → Shows flag c k v
  | cat {K x k} : c.comps = some K → K.cat = some x → CatOffers x k → Shows flag c k (x.stats k)
  | average {K l} : c.comps = some K → K.label = some (some l) → Shows flag c "avg_predictions" l.average
  | shares {K l} : c.comps = some K → K.label = some (some l) → Shows flag c "data_label_representation" l.representation

/-- What a data type is called in reports. -/
def called : Ty → String
  | .datetime => "datetime"
  | .int => "int"
  | .float => "float"
  | .text => "text"

/-- The shares of values that match each data type. -/
def Shares (ps : List (Prim ν V)) (r : Dict ν V) : Prop :=
  ∀ t : Ty, ∀ v, PyDict.get? r (called t) = some v ↔
    ∃ p ∈ ps, p.ty = t ∧ ((∃ q, p.ratio = some q ∧ v = .leaf (.ratio q)) ∨ (p.ratio = none ∧ v = .leaf .none))

/-- The entries of a column's report besides the statistics. -/
structure Head (c : Col ν V) (K : Comps ν V) (d : Dict ν V) : Prop where
  name : PyDict.get? d "column_name" = some (.leaf (.name c.name))
  samples : PyDict.get? d "samples" = some c.samples
  type_of : ∀ p, Selected K.types p → PyDict.get? d "data_type" = some (.leaf (.type (called p.ty)))
  no_type : (∀ p ∈ K.types, p.ratio ≠ some 1) → PyDict.get? d "data_type" = some (.leaf .none)
  order_of : ∀ o, K.order = some o → PyDict.get? d "order" = some o.order
  no_order : K.order = none → PyDict.get? d "order" = some (.leaf .none)
  cat_of : ∀ x, K.cat = some x → PyDict.get? d "categorical" = some (.leaf (.bool x.isMatch))
  no_cat : K.cat = none → PyDict.get? d "categorical" = some (.leaf .none)
  label_of : ∀ l, K.label = some (some l) → PyDict.get? d "data_label" = some l.label
  no_label : K.label = some none → PyDict.get? d "data_label" = some (.leaf .none)
  unlabelled : K.label = none → PyDict.get? d "data_label" = none

/-- The positions of a name. -/
def Positions [DecidableEq ν] (names : List ν) (n : ν) (l : List ℕ) : Prop :=
  l.Pairwise (· < ·) ∧ ∀ i, i ∈ l ↔ names[i]? = some n

end Verif.Report.Spec
