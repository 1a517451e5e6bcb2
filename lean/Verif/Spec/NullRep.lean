import Verif.Model.NullRep

/-!
# What null replication metrics should be

For a target column `c` the rows seen are split in two classes, `c` null and `c` not null; the metrics are the share of
each class and, for every other column, the sum and the mean over each class.
-/

namespace Verif.NullRepSpec

open Verif.NullRep

/-- All rows a history was given. -/
def rows : History → List Row
  | .new => []
  | .update h b => rows h ++ b.rows
  | .merge h1 h2 _ => rows h1 ++ rows h2

/-- The rows in which column `c` is null (`true`) or not (`false`). -/
def cls (rs : List Row) (c : ℕ) (null : Bool) : List Row := rs.filter fun r => (r.cell c).isNone == null

/-- The number read in column `k` of a row, 0 if there is none. -/
def number (num : String → Option ℚ) (r : Row) (k : ℕ) : ℚ :=
  match r.cell k with
  | none => 0
  | some s => (num s).getD 0

/-- Sum of column `k` over a class. -/
def clsSum (num : String → Option ℚ) (rs : List Row) (c : ℕ) (null : Bool) (k : ℕ) : ℚ :=
  ((cls rs c null).map fun r => number num r k).sum

/-- The columns other than `c`. -/
def others (n c : ℕ) : List ℕ := (List.range n).filter (· ≠ c)

/-- The texts of column `k`. -/
def texts (rs : List Row) (k : ℕ) : List String := rs.filterMap fun r => r.cell k

/-- The sum which the profile reports for column `k` is the sum of its numbers. -/
def SumsNumbers (num : String → Option ℚ) (total : ℕ → List String → Option ℚ) (rs : List Row) (k : ℕ) : Prop :=
  total k (texts rs k) = some ((rs.map fun r => number num r k).sum)

/-- Column `k` is numeric at the last operation of the history. -/
def Numeric (num : String → Option ℚ) (total : ℕ → List String → Option ℚ) : History → ℕ → Prop
  | .new, _ => True
  | .update h b, k => SumsNumbers num total (rows h ++ b.rows) k
  | .merge h1 h2 _, k => SumsNumbers num total (rows h1) k ∧ SumsNumbers num total (rows h2) k

/-- A batch of a table with `n` columns: rows present, labels distinct and in range, columns in the order of the
profile. -/
structure Plain (n : ℕ) (b : Batch) : Prop where
  rows_ne : b.rows ≠ []
  nodup : (b.rows.map Row.label).Nodup
  range : ∀ r ∈ b.rows, b.lo ≤ r.label ∧ r.label ≤ b.hi
  order : b.order = List.range n

/-- Every batch is labelled from 0 on (the index pandas gives to a frame); merges pair columns by position. -/
def FromZero (n : ℕ) : History → Prop
  | .new => True
  | .update h b => FromZero n h ∧ Plain n b ∧ b.lo = 0 ∧ 0 ≤ b.hi
  | .merge h1 h2 perm => FromZero n h1 ∧ FromZero n h2 ∧ h1 ≠ .new ∧ h2 ≠ .new ∧ ∀ k, perm k = k

/-- The largest label of an update sequence. -/
def top : History → Option ℤ
  | .new => none
  | .update h b => some (match top h with | none => b.hi | some t => max t b.hi)
  | .merge _ _ _ => none

/-- A sequence of updates, each with labels above all earlier ones. -/
def Rising (n : ℕ) : History → Prop
  | .new => True
  | .update h b => Rising n h ∧ Plain n b ∧ b.lo ≤ b.hi ∧ ∀ t, top h = some t → t < b.lo
  | .merge _ _ _ => False

/-- The metrics of target column `c < n` after the rows `rs`; `numeric` tells for which other columns the class sums of
the non-null class have to be right. -/
structure Exact (num : String → Option ℚ) (n : ℕ) (rs : List Row) (c : ℕ) (numeric : ℕ → Prop) (m : Metric) :
    Prop where
  priorNull : m.priorNull = (cls rs c true).length / rs.length
  priorNot : m.priorNot = (cls rs c false).length / rs.length
  sumNull : m.sumNull = (others n c).map (clsSum num rs c true)
  meanNull : m.meanNull = (others n c).map fun k => clsSum num rs c true k / (cls rs c true).length
  sumNot : cls rs c false ≠ [] → ∃ f, m.sumNot = (others n c).map f ∧
    ∀ k ∈ others n c, numeric k → f k = some (clsSum num rs c false k)
  meanNot : cls rs c false ≠ [] → ∃ f, m.meanNot = (others n c).map f ∧
    ∀ k ∈ others n c, numeric k → f k = some (clsSum num rs c false k / (cls rs c false).length)
  noneNot : cls rs c false = [] →
    m.sumNot = (others n c).map (fun _ => none) ∧ m.meanNot = (others n c).map (fun _ => none)

/-! ## When nothing is raised -/

/-- Every batch has the columns of the table, in any order; merges pair columns by position. -/
def Regular (n : ℕ) : History → Prop
  | .new => True
  | .update h b => Regular n h ∧ b.order.Perm (List.range n)
  | .merge h1 h2 perm => Regular n h1 ∧ Regular n h2 ∧ ∀ k, perm k = k

/-- A row with a value. -/
def Live (n : ℕ) (r : Row) : Prop := ∃ j < n, r.cell j ≠ none

/-- The batch has a row with a value, there are columns other than `c`, and in every row with a value all of these hold a
text that is an integer. -/
def OthersWhole (w : World) (n : ℕ) (b : Batch) (c : ℕ) : Prop :=
  (∃ r ∈ b.rows, Live n r) ∧ (∃ k < n, k ≠ c) ∧
    ∀ k < n, k ≠ c → ∀ r ∈ b.rows, Live n r → ∃ s, r.cell k = some s ∧ w.whole s = true

/-- Column `c` has been null, and since then (or in that very batch) some batch with a value was not all integers in the
other columns, or profiles were merged. -/
def FloatSum (w : World) (n : ℕ) : History → ℕ → Prop
  | .new, _ => False
  | .update h b, c => (∃ r ∈ rows h ++ b.rows, r.cell c = none) ∧
      (((∃ r ∈ b.rows, Live n r) ∧ ¬ OthersWhole w n b c) ∨ FloatSum w n h c)
  | .merge h1 h2 _, c => ∃ r ∈ rows h1 ++ rows h2, r.cell c = none

/-- No batch is all integers next to a column whose sums are floats already, and no merge has a column of dates. -/
def Works (w : World) (n : ℕ) : History → Prop
  | .new => True
  | .update h b => Works w n h ∧ ∀ c < n, FloatSum w n h c → ¬ OthersWhole w n b c
  | .merge h1 h2 _ => Works w n h1 ∧ Works w n h2 ∧
      ∀ k < n, w.dated k (texts (rows h1) k) = false ∧ w.dated k (texts (rows h2) k) = false

end Verif.NullRepSpec
