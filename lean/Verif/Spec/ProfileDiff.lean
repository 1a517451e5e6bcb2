import Verif.Model.ProfileDiff

/-! # What a report of differences should say -/

namespace Verif.ProfileDiff

open Verif Verif.Diffs Verif.Nested

/-- Two numbers, either possibly missing: "unchanged" if both are missing or equal, the pair if one is missing, otherwise
the first minus the second. -/
def ReportsNum : Option Num → Option Num → Diff String → Prop
  | none, none, d => d = .unchanged
  | some x, none, d => d = .pair (.num x) .none
  | none, some y, d => d = .pair .none (.num y)
  | some (.fin x), some (.fin y), d => (x = y → d = .unchanged) ∧ (x ≠ y → d = .num (.fin (x - y)))
  | some .nan, some _, d => d = .num .nan
  | some (.fin _), some .nan, d => d = .num .nan

/-- Two texts: "unchanged" exactly if equal, otherwise both. -/
def ReportsText (a b : Option String) (d : Diff String) : Prop :=
  (a = b → d = .unchanged) ∧
  (a ≠ b → ∃ x y, d = .pair x y ∧ x = (match a with | some s => PV.str s | none => .none) ∧
    y = (match b with | some s => PV.str s | none => .none))

/-- Two truth values: "unchanged" exactly if equal, otherwise both. -/
def ReportsBool (a b : Bool) (d : Diff String) : Prop :=
  (a = b → d = .unchanged) ∧ (a ≠ b → d = .pair (.bool a) (.bool b))

/-- Two dates: "unchanged" if equal or both missing, otherwise the signed distance, or the pair. -/
def ReportsDate : Option ℤ → Option ℤ → Diff String → Prop
  | some x, some y, d => (x = y → d = .unchanged) ∧ (y < x → d = .delta false (x - y).toNat) ∧
      (x < y → d = .delta true (y - x).toNat)
  | none, none, d => d = .unchanged
  | a, b, d => d = .dates a b

/-- Two lists: "unchanged" if they have the same elements and length, otherwise the elements of the first only, the shared
ones and those of the second only, with their multiplicities. -/
def ReportsList {α : Type} [DecidableEq α] (a b : List α) (d : Diff α) : Prop :=
  (((∀ x, x ∈ a ↔ x ∈ b) ∧ a.length = b.length) → d = .unchanged) ∧
  (¬ ((∀ x, x ∈ a ↔ x ∈ b) ∧ a.length = b.length) → ∃ l s r, d = .lists l s r ∧ ∀ x,
    l.count x = a.count x - b.count x ∧ s.count x = min (a.count x) (b.count x) ∧ r.count x = b.count x - a.count x)

/-- Two lists, either possibly missing. -/
def ReportsLists : Option (List String) → Option (List String) → Diff String → Prop
  | none, none, d => d = .unchanged
  | some a, none, d => d = .pair (.list a) .none
  | none, some b, d => d = .pair .none (.list b)
  | some a, some b, d => ReportsList a b d

/-- Two dictionaries of numbers: the difference of the numbers under each key of either. -/
def ReportsNums (a b : String → Option Num) (d : Diff String) : Prop :=
  ((∀ k, a k = none ∧ b k = none) → d = .unchanged) ∧
  ((∃ k, a k ≠ none ∨ b k ≠ none) → ∃ items, d = .dict items ∧
    ∀ k, ((a k = none ∧ b k = none) → PyDict.get? items k = none) ∧
      ((a k ≠ none ∨ b k ≠ none) → ∃ e, PyDict.get? items k = some e ∧ ReportsNum (a k) (b k) e))

variable {τ ν : Type}

/-- A dictionary shows under a key a difference described by `P`. -/
def Shows (d : PyDict String (NV (Leaf τ ν))) (key : String) (P : Diff String → Prop) : Prop :=
  ∃ e, PyDict.get? d key = some (.leaf (.diff e)) ∧ P e

/-- The statistics of numeric columns, all but the stability index. -/
structure NumShown (T : Tests τ) (a b : NumCol) (st : PyDict String (NV (Leaf τ ν))) : Prop where
  min : Shows st "min" (ReportsNum a.min b.min)
  max : Shows st "max" (ReportsNum a.max b.max)
  sum : Shows st "sum" (ReportsNum a.sum b.sum)
  mean : Shows st "mean" (ReportsNum a.mean b.mean)
  median : Shows st "median" (ReportsNum a.median b.median)
  mad : Shows st "median_absolute_deviation" (ReportsNum a.mad b.mad)
  variance : Shows st "variance" (ReportsNum a.variance b.variance)
  stddev : Shows st "stddev" (ReportsNum a.stddev b.stddev)
  mode : ∃ d, PyDict.get? st "mode" = some (.leaf (.modes d)) ∧ ReportsList a.mode b.mode d
  ttest : PyDict.get? st "t-test" = some (.leaf (.test (T.ttest a b)))

/-- The statistics of columns of floats: the precision in addition. -/
structure FloatShown (T : Tests τ) (a b : FloatCol) (st : PyDict String (NV (Leaf τ ν))) : Prop where
  num : NumShown T a.num b.num st
  precision : ∃ p, PyDict.get? st "precision" = some (.dict p) ∧ Shows p "min" (ReportsNum a.precMin b.precMin) ∧
    Shows p "max" (ReportsNum a.precMax b.precMax) ∧ Shows p "mean" (ReportsNum a.precMean b.precMean) ∧
    Shows p "var" (ReportsNum a.precVar b.precVar) ∧ Shows p "std" (ReportsNum a.precStd b.precStd) ∧
    Shows p "sample_size" (ReportsNum a.precSize b.precSize) ∧
    Shows p "margin_of_error" (ReportsNum a.precMargin b.precMargin) ∧ PyDict.get? p "confidence_level" = none

/-- The statistics of columns of texts: the characters in addition. -/
structure TextShown (T : Tests τ) (a b : TextCol) (st : PyDict String (NV (Leaf τ ν))) : Prop where
  num : NumShown T a.num b.num st
  vocab : Shows st "vocab" (ReportsLists a.vocab b.vocab)

/-- The statistics of columns of dates. -/
structure DateShown (a b : DateCol) (st : PyDict String (NV (Leaf τ ν))) : Prop where
  min : Shows st "min" (ReportsDate a.min b.min)
  max : Shows st "max" (ReportsDate a.max b.max)
  format : Shows st "format" (ReportsList a.formats b.formats)

/-- The number of values in a category, none of a category that was not seen. -/
def countOf (d : PyDict String ℕ) (k : String) : ℕ := (d.find? fun kv => kv.1 = k).elim 0 Prod.snd

/-- The statistics of two categorical profiles. -/
structure CatShown (T : Tests τ) (a b : CatCol) (st : PyDict String (NV (Leaf τ ν))) : Prop where
  count : Shows st "unique_count" (ReportsNum (some (.fin a.uniqueCount)) (some (.fin b.uniqueCount)))
  ratio : Shows st "unique_ratio" (ReportsNum (some a.uniqueRatio) (some b.uniqueRatio))
  gini : a.isMatch = true → b.isMatch = true → Shows st "gini_impurity" (ReportsNum a.gini b.gini)
  unalike : a.isMatch = true → b.isMatch = true → Shows st "unalikeability" (ReportsNum a.unalike b.unalike)
  categories : a.isMatch = true → b.isMatch = true → Shows st "categories" (ReportsList a.categories b.categories)
  chi2 : a.isMatch = true → b.isMatch = true → PyDict.get? st "chi2-test" = some (.leaf (.test (T.chi2 a b)))
  counts : a.isMatch = true → b.isMatch = true → Shows st "categorical_count" (ReportsNums
    (fun k => if k ∈ a.counts.map Prod.fst ∨ k ∈ b.counts.map Prod.fst then some (.fin (countOf a.counts k)) else none)
    (fun k => if k ∈ a.counts.map Prod.fst ∨ k ∈ b.counts.map Prod.fst then some (.fin (countOf b.counts k)) else none))
  only : ¬ (a.isMatch = true ∧ b.isMatch = true) → ∀ k ∈ ["gini_impurity", "unalikeability", "categories", "chi2-test",
    "categorical_count"], PyDict.get? st k = none

/-- The number stored under a label. -/
def numOf (d : PyDict String Num) (k : String) : Option Num := (d.find? fun kv => kv.1 = k).map Prod.snd

/-- The statistics of two columns of labels. -/
structure LabelShown (a b : LabelCol) (st : PyDict String (NV (Leaf τ ν))) : Prop where
  predictions : Shows st "avg_predictions" (ReportsNums (numOf a.avgPredictions) (numOf b.avgPredictions))
  representation : Shows st "label_representation" (ReportsNums (numOf a.representation) (numOf b.representation))

/-- The first type, in the order of preference, whose profile fits all the values. -/
def Selects (c : TypeComp) : Option String → Prop
  | some "datetime" => ∃ p, c.datetime = some p ∧ p.ratio = some (.fin 1)
  | some "int" => (∀ p, c.datetime = some p → p.ratio ≠ some (.fin 1)) ∧ ∃ p, c.int = some p ∧ p.ratio = some (.fin 1)
  | some "float" => (∀ p, c.datetime = some p → p.ratio ≠ some (.fin 1)) ∧
      (∀ p, c.int = some p → p.ratio ≠ some (.fin 1)) ∧ ∃ p, c.float = some p ∧ p.ratio = some (.fin 1)
  | some "text" => (∀ p, c.datetime = some p → p.ratio ≠ some (.fin 1)) ∧
      (∀ p, c.int = some p → p.ratio ≠ some (.fin 1)) ∧ (∀ p, c.float = some p → p.ratio ≠ some (.fin 1)) ∧
      ∃ p, c.text = some p ∧ p.ratio = some (.fin 1)
  | some _ => False
  | none => (∀ p, c.datetime = some p → p.ratio ≠ some (.fin 1)) ∧ (∀ p, c.int = some p → p.ratio ≠ some (.fin 1)) ∧
      (∀ p, c.float = some p → p.ratio ≠ some (.fin 1)) ∧ (∀ p, c.text = some p → p.ratio ≠ some (.fin 1))

/-- The type a column has, if it has one. -/
def HasType (c : Col ν) (ty : String) : Prop := ∃ t, c.types = some t ∧ Selects t (some ty)

/-- The positions of a name among the names of the columns. -/
def positions [DecidableEq ν] (n : ν) (names : List ν) : List ℕ :=
  (List.range names.length).filter fun i => names[i]? = some n

/-- The share of values that fit a type, compared: absent if neither profile has the type. -/
def RatioShown (d : PyDict String (NV (Leaf τ ν))) (ty : String) : Option (Option Num) → Option (Option Num) → Prop
  | none, none => PyDict.get? d ty = none
  | some x, some y => Shows d ty (ReportsNum x y)
  | some x, none => Shows d ty (· = .pair (match x with | some n => .num n | none => .none) .none)
  | none, some y => Shows d ty (· = .pair .none (match y with | some n => .num n | none => .none))

/-- Two matrices: nothing unless both are there with the same shape, "unchanged" if no two numbers at the same place
differ, otherwise the matrix of the differences. -/
def ReportsMatrix : Option Matrix → Option Matrix → MatDiff → Prop
  | some a, some b, d =>
    (a.map List.length ≠ b.map List.length → d = .none) ∧
    (a.map List.length = b.map List.length →
      ((∀ (i j : ℕ) (r r' : List Num) (x y : ℚ), a[i]? = some r → b[i]? = some r' → r[j]? = some (.fin x) →
          r'[j]? = some (.fin y) → x = y) → d = .unchanged) ∧
      ((∃ (i j : ℕ) (r r' : List Num) (x y : ℚ), a[i]? = some r ∧ b[i]? = some r' ∧ r[j]? = some (.fin x) ∧
          r'[j]? = some (.fin y) ∧ x ≠ y) →
        ∃ m, d = .diff m ∧ ∀ (i j : ℕ) (r r' : List Num) (x y : ℚ), a[i]? = some r → b[i]? = some r' →
          r[j]? = some (.fin x) → r'[j]? = some (.fin y) → ∃ r'', m[i]? = some r'' ∧ r''[j]? = some (.fin (x - y))))
  | _, _, d => d = .none

/-- The largest of some sizes, 0 if there is none. -/
def Largest (l : List ℕ) (m : ℕ) : Prop := (∀ x ∈ l, x ≤ m) ∧ (m ∈ l ∨ (l = [] ∧ m = 0))

/-- Positions of columns by name: names of the first only, shared names with what changed about their positions, names of
the second only. -/
def ReportsSchema [DecidableEq ν] (a b : List ν) (d : SchemaDiff ν) : Prop :=
  (a = [] ∧ b = [] → d = .unchanged) ∧
  (a ≠ [] ∨ b ≠ [] → ∃ l s r, d = .parts l s r ∧ ∀ n,
    PyDict.get? l n = (if n ∈ a ∧ n ∉ b then some (positions n a) else none) ∧
    PyDict.get? r n = (if n ∈ b ∧ n ∉ a then some (positions n b) else none) ∧
    (¬ (n ∈ a ∧ n ∈ b) → PyDict.get? s n = none) ∧
    (n ∈ a → n ∈ b → ∃ e, PyDict.get? s n = some e ∧ ReportsList (positions n a) (positions n b) e))

end Verif.ProfileDiff
