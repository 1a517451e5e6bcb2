import Mathlib.Data.Rat.Defs
import Mathlib.Algebra.Order.Field.Rat
import Mathlib.Data.Nat.Notation

/-!
# Sums, means and variances in floating point

Models the same code as `Verif.Model.NumericStats` (dataprofiler/profilers/numerical_column_stats.py:290-315, 538-543, 569-576, 842-897,
1788-1838), with every operation on floats followed by a rounding.

Simplifications
* floats are the rationals that the rounding `fl` returns; there is no overflow, no underflow and no value that is not a number;
* counts are exact, as they are below 2^53;
* pandas and numpy add the numbers of a batch in some order and grouping, which is given from outside as a tree for each of the three sums of an
  update; batches without numbers change nothing (numerical_column_stats.py:1744-1745) and are left out.
-/

namespace Verif.FloatStats

/-- The order and grouping in which numbers are added. -/
inductive Tree where
  | leaf (x : ℚ)
  | node (l r : Tree)

/-- The numbers added. -/
def Tree.leaves : Tree → List ℚ
  | .leaf x => [x]
  | .node l r => l.leaves ++ r.leaves

/-- How many additions a number goes through at most. -/
def Tree.depth : Tree → ℕ
  | .leaf _ => 0
  | .node l r => max l.depth r.depth + 1

/-- The sum of `f` of the numbers, with every addition rounded. -/
def Tree.eval (fl : ℚ → ℚ) (f : ℚ → ℚ) : Tree → ℚ
  | .leaf x => f x
  | .node l r => fl (l.eval fl f + r.eval fl f)

/-- The numbers of a batch, in the orders in which they are added for the sum, for the mean inside `np.var` and for its squares. -/
structure Batch where
  sum : Tree
  mean : Tree
  squares : Tree
  same : mean.leaves.Perm sum.leaves
  same' : squares.leaves.Perm sum.leaves

/-- The number of numbers. -/
def Batch.count (b : Batch) : ℕ := b.sum.leaves.length

/-- `np.var(df_series)` (numerical_column_stats.py:1824), which pandas calculates from the mean. -/
def Batch.var (fl : ℚ → ℚ) (b : Batch) : ℚ :=
  let avg := fl (b.mean.eval fl id / b.count)
  fl (b.squares.eval fl (fun x => fl ((fl (avg - x)) ^ 2)) / b.count)

/-- `match_count`, `sum` and `_biased_variance` of a column. -/
structure Col where
  count : ℕ
  sum : ℚ
  var : ℚ

/-- A new column (numerical_column_stats.py:62-63); its variance is not a number and is never looked at. -/
def Col.new : Col := ⟨0, 0, 0⟩

/-- `mean` (numerical_column_stats.py:538-543). -/
def Col.mean (fl : ℚ → ℚ) (c : Col) : ℚ := if c.count = 0 then 0 else fl (c.sum / c.count)

/-- `_merge_biased_variance` (numerical_column_stats.py:842-880). -/
def mergeVar (fl : ℚ → ℚ) (n₁ : ℕ) (v₁ m₁ : ℚ) (n₂ : ℕ) (v₂ m₂ : ℚ) : ℚ :=
  if n₁ < 1 then v₂
  else if n₂ < 1 then v₁
  else
    let delta := fl (m₂ - m₁)
    let mCurr := fl (v₁ * n₁)
    let mBatch := fl (v₂ * n₂)
    let m2 := fl (fl (mCurr + mBatch) + fl (fl (fl (fl (delta ^ 2) * n₁) * n₂) / ((n₁ + n₂ : ℕ) : ℚ)))
    fl (m2 / ((n₁ + n₂ : ℕ) : ℚ))

/-- An update (numerical_column_stats.py:1788-1838). -/
def Col.update (fl : ℚ → ℚ) (c : Col) (b : Batch) : Col :=
  let s := b.sum.eval fl id
  ⟨c.count + b.count, fl (c.sum + s), mergeVar fl c.count c.var (c.mean fl) b.count (b.var fl) (fl (s / b.count))⟩

/-- A merge (numerical_column_stats.py:290-298, 313-314). -/
def Col.merge (fl : ℚ → ℚ) (c d : Col) : Col :=
  ⟨c.count + d.count, fl (c.sum + d.sum), mergeVar fl c.count c.var (c.mean fl) d.count d.var (d.mean fl)⟩

/-- How a column came about. -/
inductive Hist where
  | new
  | update (h : Hist) (b : Batch)
  | merge (h h' : Hist)

/-- The column. -/
def Hist.run (fl : ℚ → ℚ) : Hist → Col
  | .new => .new
  | .update h b => (h.run fl).update fl b
  | .merge h h' => (h.run fl).merge fl (h'.run fl)

/-- `_correct_bias_variance` (numerical_column_stats.py:882-897); not a number for fewer than two numbers. -/
def Col.corrected (fl : ℚ → ℚ) (c : Col) : Option ℚ :=
  if c.count < 2 then none else some (fl (fl ((c.count : ℚ) / ((c.count - 1 : ℕ) : ℚ)) * c.var))

end Verif.FloatStats
