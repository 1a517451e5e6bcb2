import Mathlib.Analysis.Real.Sqrt
import Mathlib.Algebra.BigOperators.Group.List.Basic
import Mathlib.Data.List.GetD
import Verif.Model.Basic

/-!
# The correlation matrix of a table profile

Mirrors `_get_correlation`, `_update_correlation`, `_merge_correlation`, `_get_correlation_dependent_properties` and
`_merge_correlation_helper` (profile_builder.py:2299-2550).

Simplifications:
* numbers are exact reals with a separate "not a number" value, which every operation passes on; dividing by zero gives
  it as well (numpy gives an infinity when the numerator is not zero);
* the mean and variance a column profile reports are those of all its values (properties C01 and C02);
* all values of a column reported as int or float are numbers;
* the `columns` option is not set, so that every column takes part;
* a cell is `none` when null. Cells of columns that are neither int nor float carry a number of no importance.
-/

namespace Verif.Correlation

noncomputable section

/-- A number or nan. -/
abbrev Num := Option ℝ

/-- Arithmetic with nan. -/
def lift (f : ℝ → ℝ → ℝ) : Num → Num → Num
  | some a, some b => some (f a b)
  | _, _ => none

instance : Add Num := ⟨lift (· + ·)⟩
instance : Sub Num := ⟨lift (· - ·)⟩
instance : Mul Num := ⟨lift (· * ·)⟩

/-- Division. -/
def div : Num → Num → Num
  | some a, some b => if b = 0 then none else some (a / b)
  | _, _ => none

instance : Div Num := ⟨div⟩

/-- `np.sqrt`; nan below zero. -/
def root : Num → Num
  | some a => if a < 0 then none else some (Real.sqrt a)
  | none => none

/-- A whole number. -/
def num (n : ℤ) : Num := some n

/-- A one dimensional array. -/
structure Vec where
  size : ℕ
  get : ℕ → Num

/-- A square array. -/
structure Mat where
  size : ℕ
  get : ℕ → ℕ → Num

/-! ## Statistics of lists of numbers -/

/-- The mean; nan for no values. -/
def mean (xs : List ℝ) : Num := div (some xs.sum) (num xs.length)

/-- Sum of squared deviations from the mean. -/
def sumSquares (xs : List ℝ) : ℝ := (xs.map fun x => (x - xs.sum / xs.length) ^ 2).sum

/-- `_biased_variance`; nan for no values. -/
def biasedVariance (xs : List ℝ) : Num := div (some (sumSquares xs)) (num xs.length)

/-- `stddev`: with the bias correction, nan for fewer than two values. -/
def stddev (xs : List ℝ) : Num := root (div (some (sumSquares xs)) (num (xs.length - 1)))

/-- `np.corrcoef` of two variables. -/
def corrcoef (xs ys : List ℝ) : Num :=
  let sxy := (List.zipWith (fun x y => (x - xs.sum / xs.length) * (y - ys.sum / ys.length)) xs ys).sum
  let cov (s : ℝ) : Num := div (some s) (num (xs.length - 1))
  cov sxy / (root (cov (sumSquares xs)) * root (cov (sumSquares ys)))

/-! ## A profile -/

/-- The part of a table profile that matters here. -/
structure Prof where
  /-- is the reported data type int or float? -/
  numeric : List Bool
  /-- all values seen in each column -/
  seen : List (List ℝ)
  /-- the values of each column in the last batch that had some (`_batch_history[-1]`, numerical_column_stats.py:1761-1763);
  none in a new profile -/
  lately : List (List ℝ)
  total : ℕ
  nullRows : ℕ
  matrix : Option Mat

/-- A fresh profile. -/
def Prof.new : Prof := ⟨[], [], [], 0, 0, none⟩

/-- Number of columns. -/
def Prof.width (p : Prof) : ℕ := p.seen.length

/-- `total_samples - row_is_null_count`. -/
def Prof.count (p : Prof) : ℤ := p.total - p.nullRows

/-- Is column `i` numeric? -/
def Prof.isNumeric (p : Prof) (i : ℕ) : Bool := p.numeric.getD i false

/-- The values seen in column `i`. -/
def Prof.values (p : Prof) (i : ℕ) : List ℝ := p.seen.getD i []

/-- Keep the value for numeric columns. -/
def Prof.whenNumeric (p : Prof) (f : ℕ → Num) : Vec := ⟨p.width, fun i => if p.isNumeric i then f i else none⟩

/-- Means of the previous data (profile_builder.py:2470-2473). -/
def prevMean (p : Prof) : Vec := p.whenNumeric fun i => mean (p.values i)

/-- Standard deviations of the previous data over all rows but the null rows (profile_builder.py:2474-2479). -/
def prevStd (p : Prof) : Vec :=
  p.whenNumeric fun i => root (biasedVariance (p.values i) * num (p.values i).length / num (p.count - 1))

/-- A batch: its rows, and which columns are reported numeric once it has been profiled. -/
structure Batch where
  rows : List (List (Option ℝ))
  numeric : List Bool

/-- The cell of a row in column `i`. -/
def cell (r : List (Option ℝ)) (i : ℕ) : Option ℝ := r.getD i none

/-- The values of column `i` that are not null. -/
def Batch.values (b : Batch) (i : ℕ) : List ℝ := b.rows.filterMap fun r => cell r i

/-- Is column `i` numeric? -/
def Batch.isNumeric (b : Batch) (i : ℕ) : Bool := b.numeric.getD i false

/-- `pd.DataFrame(clean_samples)` without the other columns: rows with a value in some numeric column
(profile_builder.py:2321-2331). -/
def Batch.kept (b : Batch) (k : ℕ) : List (List (Option ℝ)) :=
  b.rows.filter fun r => (List.range k).any fun i => b.isNumeric i && (cell r i).isSome

/-- The values `_batch_history[-1]` of column `i` is about once the batch has been profiled: a column that is empty in the
batch is not updated (int_column_profile.py:160-161, float_column_profile.py:442-443), so that an earlier batch is found. -/
def recent (p : Prof) (b : Batch) (i : ℕ) : List ℝ := if b.values i = [] then p.lately.getD i [] else b.values i

/-- Means of the batch (profile_builder.py:2482-2486). -/
def batchMean (p : Prof) (k : ℕ) (b : Batch) : Vec := ⟨k, fun i => if b.isNumeric i then mean (recent p b i) else none⟩

/-- Standard deviations of the batch, adjusted to the number of rows (profile_builder.py:2487-2489, 2335-2341). -/
def batchStd (p : Prof) (k : ℕ) (b : Batch) : Vec :=
  ⟨k, fun i => if b.isNumeric i then
      let s := root (biasedVariance (recent p b i) * num (recent p b i).length / num ((recent p b i).length - 1))
      root (s * s * num ((recent p b i).length - 1) / num ((b.kept k).length - 1))
    else none⟩

/-- A column with nulls replaced by the batch mean (profile_builder.py:2332-2333). -/
def filled (p : Prof) (k : ℕ) (b : Batch) (i : ℕ) : List ℝ :=
  (b.kept k).map fun r => (cell r i).getD ((recent p b i).sum / (recent p b i).length)

/-- `_get_correlation` (profile_builder.py:2299-2353). -/
def batchCorr (p : Prof) (k : ℕ) (b : Batch) : Mat :=
  ⟨k, fun i j => if b.isNumeric i && b.isNumeric j then corrcoef (filled p k b i) (filled p k b j) else none⟩

/-- The merged matrix (profile_builder.py:2528-2550). -/
def combine (c1 : Mat) (m1 s1 : Vec) (n1 : ℤ) (c2 : Mat) (m2 s2 : Vec) (n2 : ℤ) : Mat :=
  let n := n1 + n2
  let cov i j := (c1.get i j * (s1.get i * s1.get j) * num (n1 - 1) + c2.get i j * (s2.get i * s2.get j) * num (n2 - 1) +
    (m1.get i - m2.get i) * (m1.get j - m2.get j) * num (n1 * n2) / num n) / num (n - 1)
  let std i := root ((num (n1 - 1) * (s1.get i * s1.get i) + num (n2 - 1) * (s2.get i * s2.get i) +
    (m2.get i - m1.get i) * (m2.get i - m1.get i) * num n1 * num n2 / num n) / num (n - 1))
  ⟨c1.size, fun i j => cov i j / (std i * std j)⟩

/-- `_merge_correlation_helper` (profile_builder.py:2492-2550); arrays of different sizes cannot be multiplied. -/
def helper (c1 : Option Mat) (m1 s1 : Vec) (n1 : ℤ) (c2 : Option Mat) (m2 s2 : Vec) (n2 : ℤ) : Except Err (Option Mat) :=
  match c1, c2 with
  | none, _ => .ok c2
  | some _, none => .ok c1
  | some a, some b =>
    if m1.size = 0 then .ok c2
    else if m2.size = 0 then .ok c1
    else if a.size = s1.size ∧ b.size = s2.size ∧ m1.size = s1.size ∧ m2.size = s2.size ∧ s1.size = s2.size then
      .ok (some (combine a m1 s1 n1 b m2 s2 n2))
    else .error .valueError

/-- `_update_correlation` with the rest of the update (profile_builder.py:2855-2857, 2355-2378, 3018-3035). A numeric column
without history raises `IndexError` (profile_builder.py:2480). -/
def update (p : Prof) (b : Batch) : Except Err Prof :=
  if b.rows = [] then .ok p else
  let k := if p.width = 0 then b.numeric.length else p.width
  if (List.range k).any fun i => b.isNumeric i && (recent p b i).isEmpty then .error .indexError else
  match helper p.matrix (prevMean p) (prevStd p) p.count (some (batchCorr p k b)) (batchMean p k b) (batchStd p k b)
      (b.kept k).length with
  | .error e => .error e
  | .ok m => .ok ⟨b.numeric, (List.range k).map fun i => p.values i ++ b.values i, (List.range k).map (recent p b), p.total + b.rows.length,
      p.nullRows + b.rows.countP (fun r => (List.range k).all fun i => (cell r i).isNone), m⟩

open Classical in
/-- `np.where(~np.isnan(corr_mat).all(axis=0))[0]` (profile_builder.py:2400-2401). -/
def Mat.defined (m : Mat) : List ℕ :=
  (List.range m.size).filter fun j => decide (∃ i < m.size, m.get i j ≠ none)

/-- A statistic of the listed columns. -/
def pick (p : Prof) (f : List ℝ → Num) (ids : List ℕ) : Vec :=
  ⟨ids.length, fun k => match ids[k]? with
    | some i => f (p.values i)
    | none => none⟩

/-- `_merge_correlation` (profile_builder.py:2380-2439). -/
def mergeMatrix (p q : Prof) : Except Err (Option Mat) :=
  if p.count = 0 then .ok q.matrix
  else if q.count = 0 then .ok p.matrix
  else match p.matrix, q.matrix with
    | some a, some b =>
      if a.defined.length ≠ b.defined.length ∨ a.defined.length ≤ 1 then .ok none
      else if a.defined ≠ b.defined then .ok none
      else helper p.matrix (pick p mean a.defined) (pick p stddev a.defined) p.count
        q.matrix (pick q mean b.defined) (pick q stddev b.defined) q.count
    | _, _ => .ok none

/-- The merged profile: columns are merged by name, `π` giving the second profile's column for each of the first's
(profile_builder.py:1816-1827). Merged columns are new ones, without batch history. -/
def merge (π : ℕ → ℕ) (p q : Prof) : Except Err Prof :=
  match mergeMatrix p q with
  | .error e => .error e
  | .ok m => .ok ⟨(List.range p.width).map (fun i => p.isNumeric i && q.isNumeric (π i)),
      (List.range p.width).map (fun i => p.values i ++ q.values (π i)), [], p.total + q.total, p.nullRows + q.nullRows, m⟩

/-! ## Histories -/

/-- Updates and merges. -/
inductive Hist where
  | new
  | update (h : Hist) (b : Batch)
  | merge (h1 h2 : Hist)

/-- Running a history; merged profiles have the same column order. -/
def run : Hist → Except Err Prof
  | .new => .ok .new
  | .update h b => match run h with
    | .error e => .error e
    | .ok p => Correlation.update p b
  | .merge h1 h2 => match run h1, run h2 with
    | .ok p, .ok q => Correlation.merge id p q
    | .error e, _ => .error e
    | .ok _, .error e => .error e

end

end Verif.Correlation
