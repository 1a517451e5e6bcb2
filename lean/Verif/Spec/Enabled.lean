import Verif.Model.Enabled
import Verif.Spec.Options

/-!
# Specification of what options make a column calculate (C93)

Which statistics need which, when two columns agree on statistics, when the options of a column have the declared form, and
numbers on which no calculation becomes infinite or undefined.
-/

namespace Verif.Spec.Enabled

open Verif Verif.Options Verif.Enabled

/-- The statistics of numeric columns that options switch, in the order of their calculation. -/
def statistics : List String :=
  ["min", "max", "sum", "variance", "skewness", "kurtosis", "histogram_and_quantiles", "num_zeros", "num_negatives"]

/-- A set of statistics contains what each of them needs. -/
structure Closed (l : List String) : Prop where
  variance : "variance" ∈ l → "sum" ∈ l
  skewness : "skewness" ∈ l → "sum" ∈ l ∧ "variance" ∈ l
  kurtosis : "kurtosis" ∈ l → "sum" ∈ l ∧ "variance" ∈ l ∧ "skewness" ∈ l

/-- Two columns have seen as many values and agree on the given statistics. -/
structure Agree {F H : Type} (l : List String) (s t : Col F H) : Prop where
  count : s.count = t.count
  min : "min" ∈ l → s.min = t.min
  max : "max" ∈ l → s.max = t.max
  sum : "sum" ∈ l → s.sum = t.sum
  var : "variance" ∈ l → s.var = t.var
  skew : "skewness" ∈ l → s.skew = t.skew
  kurt : "kurtosis" ∈ l → s.kurt = t.kurt
  hist : "histogram_and_quantiles" ∈ l → s.hist = t.hist
  zeros : "num_zeros" ∈ l → s.zeros = t.zeros
  negatives : "num_negatives" ∈ l → s.negatives = t.negatives

/-- The statistics outside of a set are still those of a new column. -/
structure Untouched {F H : Type} (l : List String) (s t : Col F H) : Prop where
  min : "min" ∉ l → s.min = t.min
  max : "max" ∉ l → s.max = t.max
  sum : "sum" ∉ l → s.sum = t.sum
  var : "variance" ∉ l → s.var = t.var
  skew : "skewness" ∉ l → s.skew = t.skew
  kurt : "kurtosis" ∉ l → s.kurt = t.kurt
  hist : "histogram_and_quantiles" ∉ l → s.hist = t.hist
  zeros : "num_zeros" ∉ l → s.zeros = t.zeros
  negatives : "num_negatives" ∉ l → s.negatives = t.negatives

/-- Options of this class have a flag: all but those of HyperLogLog and those of whole profilers. -/
def Flagged (c : Cls) : Prop := c ∉ [.hll, .structured, .unstructured, .profiler]

/-- The options of a numeric column have, for each of the given statistics, an option object with a flag. -/
def Shaped (o : Opt) (names : List String) : Prop :=
  ∃ cls fields, o = .obj cls fields ∧ ∀ n ∈ names, ∃ c fs, PyDict.get? fields n = some (.obj c fs) ∧ Flagged c

/-- A statistic is switched on. -/
def On (o : Opt) (name : String) : Prop := truthy (attr o [name, "is_enabled"]) = true

/-- A proper number: neither infinite nor NaN. -/
def Finite {F : Type} (A : Arith F) (x : F) : Prop := A.isInf x = false ∧ A.isNan x = false

/-- Arithmetic without overflow on data: sums and moments of finite values are finite. -/
structure NoOverflow {F : Type} (A : Arith F) : Prop where
  zero : Finite A A.zero
  nan : A.isInf A.nan = false
  total : ∀ l, l ≠ [] → (∀ x ∈ l, Finite A x) → Finite A (A.total l)
  add : ∀ x y, Finite A x → Finite A y → Finite A (A.add x y)
  over : ∀ x n, 0 < n → Finite A x → Finite A (A.over x n)
  var : ∀ l, l ≠ [] → (∀ x ∈ l, Finite A x) → Finite A (A.var l)
  skew : ∀ l, l ≠ [] → (∀ x ∈ l, Finite A x) → Finite A (A.skew l)
  kurt : ∀ l, l ≠ [] → (∀ x ∈ l, Finite A x) → Finite A (A.kurt l)
  mergeVar : ∀ c v m c' v' m', 0 < c' → (0 < c → Finite A v) → Finite A m → Finite A v' → Finite A m' →
    Finite A (A.mergeVar c v m c' v' m')
  mergeSkew : ∀ c k v m c' k' v' m', 0 < c' → (0 < c → Finite A k ∧ Finite A v) → Finite A m → Finite A k' → Finite A v' →
    Finite A m' → Finite A (A.mergeSkew c k v m c' k' v' m')
  mergeKurt : ∀ c u k v m c' u' k' v' m', 0 < c' → (0 < c → Finite A u ∧ Finite A k ∧ Finite A v) → Finite A m →
    Finite A u' → Finite A k' → Finite A v' → Finite A m' → Finite A (A.mergeKurt c u k v m c' u' k' v' m')

/-- What the calculations read before a batch is not missing: a statistic that is still calculated has the ones it needs still
calculated. -/
structure Ordered {F H : Type} (A : Arith F) (l : List String) (s : Col F H) : Prop where
  var : "variance" ∈ l → (A.isInf s.sum = true ∨ A.isNan s.sum = true ∧ 0 < s.count) →
    (A.isInf s.var = true ∨ A.isNan s.var = true ∧ 0 < s.count)
  skew : "skewness" ∈ l → (A.isInf s.var = true ∨ A.isNan s.var = true ∧ 0 < s.count) →
    (A.isInf s.skew = true ∨ A.isNan s.skew = true ∧ 0 < s.count)
  kurt : "kurtosis" ∈ l → (A.isInf s.skew = true ∨ A.isNan s.skew = true ∧ 0 < s.count) →
    (A.isInf s.kurt = true ∨ A.isNan s.kurt = true ∧ 0 < s.count)

end Verif.Spec.Enabled
