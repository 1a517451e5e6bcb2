import Verif.Model.Column
import Verif.Spec.Nulls
import Verif.Spec.Moments
import Verif.Spec.Order
import Verif.Spec.DateTime

/-!
# What a column profile should say
-/

namespace Verif.Spec.Column

open Verif Verif.Column

/-- The texts of all cells given to a column profile. -/
def texts : History → List String
  | .new _ => []
  | .update h b => texts h ++ b.col.map Prod.snd
  | .merge h1 h2 => texts h1 ++ texts h2

/-- Some data was given. -/
def Fed : History → Prop
  | .new _ => False
  | .update _ _ => True
  | .merge h1 h2 => Fed h1 ∨ Fed h2

/-- Accepted options, sensible batches, and no merging with a profile that has no data. -/
def Sensible : History → Prop
  | .new o => ∀ k, (o.calcs k).valid = true
  | .update h b => Sensible h ∧ NullsSpec.Valid b.toBatch ∧ ∀ c ∈ b.col, 0 ≤ c.1
  | .merge h1 h2 => Sensible h1 ∧ Sensible h2 ∧ Fed h1 ∧ Fed h2

/-- The values drawn to look for dates are fifty of the values, or all. -/
def Drawn : History → Prop
  | .new _ => True
  | .update h b => Drawn h ∧ ∀ l, (b.draw l).Subperm l ∧ (b.draw l).length = min 50 l.length
  | .merge h1 h2 => Drawn h1 ∧ Drawn h2

/-- Every batch is looked at completely. -/
def Whole : History → Prop
  | .new _ => True
  | .update h b => Whole h ∧ b.chunks.flatten.Perm (List.range b.col.length) ∧ b.col.length ≤ b.sampleSize
  | .merge h1 h2 => Whole h1 ∧ Whole h2

/-- Cells looked at, batch by batch: all of the column, or the first chunks of rows. -/
inductive Looked (isNull : String → Bool) : History → List String → Prop where
  | new (o : Opts) : Looked isNull (.new o) []
  | update {h : History} {cs : List String} {b : Batch} {k : ℕ} (hs : Looked isNull h cs)
      (ht : NullsSpec.Taken isNull b.toBatch k) : Looked isNull (.update h b) (cs ++ (NullsSpec.firstRows b.toBatch k).map Prod.snd)
  | merge {h1 h2 : History} {cs ds : List String} (h1s : Looked isNull h1 cs) (h2s : Looked isNull h2 ds) :
      Looked isNull (.merge h1 h2) (cs ++ ds)

/-- `f` is switched on for the given kind in every profile that was created. -/
def On (k : Kind) (f : Numeric.Calcs → Bool) : History → Prop
  | .new o => f (o.calcs k) = true
  | .update h _ => On k f h
  | .merge h1 h2 => On k f h1 ∧ On k f h2

/-- Bias is corrected in every profile that was created. -/
def Corrected (k : Kind) : History → Prop
  | .new o => o.bias k = true
  | .update h _ => Corrected k h
  | .merge h1 h2 => Corrected k h1 ∧ Corrected k h2

/-- No profile was asked to stop counting categories. -/
def NeverStops : History → Prop
  | .new o => o.stop.maxSample = none ∨ o.stop.ratio = none
  | .update h _ => NeverStops h
  | .merge h1 h2 => NeverStops h1 ∧ NeverStops h2

open Classical in
/-- The numbers a kind of profile is about: whole numbers, numbers, lengths. -/
noncomputable def numbers (read : String → Option ℚ) (k : Kind) (xs : List String) : List ℝ :=
  xs.filterMap fun x => match k with
    | .int => (read x).bind fun q => if ∃ z : ℤ, q = z then some (q : ℝ) else none
    | .float => (read x).map fun q => (q : ℝ)
    | .text => some (x.length : ℝ)

/-- The statistics `s` of one kind describe the numbers `xs`. -/
structure Describes (h : History) (k : Kind) (xs : List ℝ) (s : Numeric.State) : Prop where
  matched : s.matchCount = xs.length
  sum : On k Numeric.Calcs.sum h → s.sum = xs.sum ∧ s.mean = mean xs
  zeros : On k Numeric.Calcs.numZeros h → s.numZeros = xs.count 0
  negatives : On k Numeric.Calcs.numNegatives h → s.numNegatives = (xs.filter fun x => decide (x < 0)).length
  variance : On k Numeric.Calcs.variance h → xs ≠ [] → ¬ Corrected k h →
    s.variance = some (Spec.variance xs) ∧ s.stddev = some (Spec.stddev xs)
  sampleVariance : On k Numeric.Calcs.variance h → 2 ≤ xs.length → Corrected k h →
    s.variance = some (Spec.sampleVariance xs) ∧ s.stddev = some (Real.sqrt (Spec.sampleVariance xs))
  min : On k Numeric.Calcs.min h → (∀ m, s.min = some m → m ∈ xs) ∧ (s.min = none ↔ xs = [])
  max : On k Numeric.Calcs.max h → (∀ m, s.max = some m → m ∈ xs) ∧ (s.max = none ↔ xs = [])
  least : On k Numeric.Calcs.min h → 0 ∉ xs → ∀ m, s.min = some m → ∀ x ∈ xs, m ≤ x
  greatest : On k Numeric.Calcs.max h → 0 ∉ xs → ∀ m, s.max = some m → ∀ x ∈ xs, x ≤ m

/-- The category counts `c` are those of the texts `xs`. -/
structure Counts (xs : List String) (c : Categorical.Cat String) : Prop where
  distinct : (PyDict.keys c.cats).Nodup
  count : ∀ x n, PyDict.get? c.cats x = some n ↔ n = xs.count x ∧ 0 < n
  total : (c.cats.map Prod.snd).sum = xs.length
  size : c.sampleSize = xs.length

/-- The vocabulary `v` has the characters of the texts `xs`, each once. -/
structure Letters (xs : List String) (v : List Char) : Prop where
  distinct : v.Nodup
  mem : ∀ c, c ∈ v ↔ ∃ x ∈ xs, c ∈ x.toList

/-- The dates `c` are among the texts `xs`: those counted can be read by a supported format, the formats listed are theirs,
and minimum and maximum are the first and the last of them. -/
structure DatesOf (date : String → String → Option Moment) (isMay : Moment → Bool) (xs : List String)
    (c : DateTime.Col Moment) : Prop where
  size : c.sampleSize = xs.length
  readings : ∃ (as : List (DateTimeSpec.Reading Moment)) (rest : List String),
    (as.map (·.text) ++ rest).Perm xs ∧ c.matchCount = as.length ∧
    (∀ a ∈ as, DateTimeSpec.Proper date isMay DateTimeSpec.supported a) ∧ c.formats.Nodup ∧
    (∀ f, f ∈ c.formats ↔ ∃ a ∈ as, a.format = f) ∧
    DateTimeSpec.IsMin as c.minText ∧ DateTimeSpec.IsMax as c.maxText

/-- What the order `c` says of the texts `xs`: something if there are any, constant if all are the same number; if all are
numbers, a rising order comes with the smallest and the largest, a constant one tells by its two values whether they are
equal, and others are only given for different numbers. -/
structure Ordered (read : String → Option ℚ) (xs : List String) (c : Order.Column) : Prop where
  missing : c.order = none ↔ xs = []
  same : ∀ q, xs ≠ [] → (∀ x ∈ xs, read x = some q) → c = .num (some ⟨.constant, q, q, false⟩)
  numeric : (∀ x ∈ xs, read x ≠ none) → ∃ s, c = .num s
  rising : (∀ x ∈ xs, read x ≠ none) → ∀ i, c = .num (some i) → i.order = .ascending →
    OrderSpec.IsMin i.first (xs.filterMap read) ∧ OrderSpec.IsMax i.last (xs.filterMap read)
  level : (∀ x ∈ xs, read x ≠ none) → ∀ i, c = .num (some i) → i.order = .constant →
    (i.first = i.last ↔ OrderSpec.Const (xs.filterMap read))
  other : (∀ x ∈ xs, read x ≠ none) → ∀ i, c = .num (some i) → i.order = .random ∨ i.order = .descending →
    ¬ OrderSpec.Const (xs.filterMap read)

/-- The data type a numeric profile belongs to. -/
def typeOf : Kind → ColumnTypes.Ty
  | .int => .int
  | .float => .float
  | .text => .text

/-- The type every text of a list is of. -/
def AllOf (read : String → Option ℚ) (xs : List String) : ColumnTypes.Ty → Prop
  | .int => ∀ x ∈ xs, ∃ z : ℤ, read x = some (z : ℚ)
  | .float => ∀ x ∈ xs, ∃ q, read x = some q
  | _ => True

end Verif.Spec.Column
