import Verif.Spec.TableData
import Verif.Spec.Column
import Verif.Model.TableStats

/-!
# What a table profile should say about its columns
-/

namespace Verif.Spec.TableStats

open Verif Verif.Table Verif.Schema Verif.SchemaSpec Verif.Column Verif.TableStats Verif.Spec.Column

/-- The options of a profile: those of the first operand of a merge. -/
def optsOf : Hist → RowOpts
  | .new o => o
  | .update h _ _ => optsOf h
  | .merge h1 _ => optsOf h1

/-- The columns `dn` can be taken for the columns `pn`: each finds its partner, and the partner is spelled alike. -/
def SameCols (lower : String → String) (dn pn : List Key) : Prop :=
  Compatible (names lower dn) (names lower pn) ∧ ∀ p k, pn[p]? = some k → dn[sourceCol lower dn pn p]? = some k

/-- All data of a profile have the columns of the profile, and merged profiles have data and the same options. -/
def Agrees (lower : String → String) : Hist → Prop
  | .new _ => True
  | .update h _ u => Agrees lower h ∧ (u.data.rows ≠ [] → h.names ≠ [] → SameCols lower u.data.names h.names)
  | .merge h1 h2 => Agrees lower h1 ∧ Agrees lower h2 ∧ h1.names ≠ [] ∧ h2.names ≠ [] ∧ optsOf h1 = optsOf h2 ∧
      SameCols lower h2.names h1.names

/-- Column `c` has a profile of the given compiler and type, with statistics `s`. -/
def Shows (c : Col Stat) (kind type : String) (s : Stat) : Prop :=
  ∃ kc ∈ c.compilers, kc.1 = kind ∧ ∃ tp ∈ kc.2.profs, tp.1 = type ∧ tp.2.state = s

/-- The name of the profile of one kind of number. -/
def nameOf : Kind → String
  | .int => "int"
  | .float => "float"
  | .text => "text"

/-- All values are of the named type, and there is one. -/
def OfType (read : String → Option ℚ) (vals : List String) (type : String) : Prop :=
  vals ≠ [] ∧ ((type = "int" ∧ ∀ x ∈ vals, ∃ z : ℤ, read x = some (z : ℚ)) ∨ (type = "float" ∧ ∀ x ∈ vals, ∃ q, read x = some q) ∨
    type = "text")

/-- The values drawn to look for dates are fifty of the values, or all. -/
def DrawnFrom (draw : Draw) : Prop := ∀ c l, (draw c l).Subperm l ∧ (draw c l).length = min 50 l.length

/-- The names of the column profiles. -/
def Known (type : String) : Prop := (∃ k, type = nameOf k) ∨ type = "category" ∨ type = "order" ∨ type = "datetime"

/-- What the statistics `s` of a profile of the given type should say about the values `vals`. -/
structure Tells (w : World) (o : Opts) (draw : Draw) (vals : List String) (type : String) (s : Stat) : Prop where
  num : ∀ k, type = nameOf k → ∃ n v, s = .num n v ∧ n.sampleSize = vals.length ∧
    Describes (.new o) k (numbers w.number k vals) n ∧ (type = "text" → Letters vals v)
  cat : type = "category" → ∃ n, s = .cat n ∧ (n.stopped = false → Counts vals n) ∧ (NeverStops (.new o) → n.stopped = false)
  order : type = "order" → ∃ n, s = .order n ∧ Ordered w.number vals n
  date : type = "datetime" → ∃ n, s = .date n ∧ DatesOf w.date w.isMay vals n ∧
    (DrawnFrom draw → DateTimeSpec.NoMay w.date w.isMay vals → (∀ x ∈ vals, DateTimeSpec.IsDate w.date x) →
      n.matchCount = vals.length)

/-- The sets are listed in some order. -/
structure Lists (w : World) : Prop where
  labels : ∀ l, (w.setOrder l).Perm l
  chars : ∀ l, (w.charOrder l).Perm l
  formats : ∀ l, (w.formatOrder l).Perm l

/-- Every batch comes with the columns `ns`, and merged profiles have data and the same row options. -/
def Uniform (ns : List Key) : Hist → Prop
  | .new _ => True
  | .update h _ u => Uniform ns h ∧ (u.data.rows ≠ [] → u.data.names = ns)
  | .merge h1 h2 => Uniform ns h1 ∧ Uniform ns h2 ∧ h1.rows ≠ [] ∧ h2.rows ≠ [] ∧ optsOf h1 = optsOf h2

/-- Every batch comes with the columns `ns` in any order, and merged profiles have data and the same row options. -/
def Shuffled (ns : List Key) : Hist → Prop
  | .new _ => True
  | .update h _ u => Shuffled ns h ∧ (u.data.rows ≠ [] → u.data.names.Perm ns)
  | .merge h1 h2 => Shuffled ns h1 ∧ Shuffled ns h2 ∧ h1.rows ≠ [] ∧ h2.rows ≠ [] ∧ optsOf h1 = optsOf h2

/-- The numbers reported are the same. -/
structure SameStats (o : Opts) (k : Kind) (s t : Numeric.State) : Prop where
  size : s.sampleSize = t.sampleSize
  matched : s.matchCount = t.matchCount
  sum : (o.calcs k).sum = true → s.sum = t.sum ∧ s.mean = t.mean
  variance : (o.calcs k).variance = true → 2 ≤ s.matchCount → s.variance = t.variance ∧ s.stddev = t.stddev
  zeros : (o.calcs k).numZeros = true → s.numZeros = t.numZeros
  negatives : (o.calcs k).numNegatives = true → s.numNegatives = t.numNegatives

end Verif.Spec.TableStats
