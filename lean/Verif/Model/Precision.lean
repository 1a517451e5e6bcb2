import Mathlib.Data.Rat.Floor
import Mathlib.Data.List.Perm.Subperm
import Verif.Model.NumericStats

/-!
# Precision of float columns

Models the precision statistics of `FloatColumn`: `_get_float_precision`, `_update_precision` and their merge
(dataprofiler/profilers/float_column_profile.py:65-123, 277-322, 343-395).

Simplifications
* numbers are exact reals; the random sample taken of the values (`df_series_clean.sample`) is an arbitrary list of the
  right length given with the batch;
* `\s` is whitespace in the sense of `Char.isWhitespace`, `\D` anything but the ASCII digits;
* rounding to significant figures is a parameter of the report; the calculation is enabled in every profile;
* `int(len_df * 0.05)` and `int(len_df * sample_ratio)` are exact.
-/

namespace Verif.Precision

open Verif

/-! ## Significant figures of one text -/

/-- `[+-.0\s]`; `+-.` is a range containing the comma (float_column_profile.py:298). -/
def isLead (c : Char) : Bool := c == '+' || c == ',' || c == '-' || c == '.' || c == '0' || c.isWhitespace

/-- `0+(\s|$)`: what is left after a match. -/
def zerosThenEnd (cs : List Char) : Option (List Char) :=
  if cs.head? = some '0' then
    match cs.dropWhile (· == '0') with
    | [] => some []
    | c :: rest => if c.isWhitespace then some rest else none
  else none

/-- `\.?0+(\s|$)`: what is left after a match. -/
def tailMatch (cs : List Char) : Option (List Char) :=
  match cs with
  | '.' :: rest => zerosThenEnd rest
  | _ => zerosThenEnd cs

/-- Removing all matches after the start of the text, with at most `fuel` characters left; `prevE` tells whether the
character before is an `e` (float_column_profile.py:296-298). -/
def scan : ℕ → Bool → List Char → List Char
  | 0, _, _ => []
  | _ + 1, _, [] => []
  | fuel + 1, prevE, c :: cs =>
    match tailMatch (c :: cs) with
    | some rest => scan fuel false rest
    | none =>
      if prevE && c != '\n' then scan fuel false ((c :: cs).dropWhile (· != '\n'))
      else if c.isDigit then c :: scan fuel false cs
      else scan fuel (c == 'e') cs

/-- Number of characters left (`.replace(to_replace=r, value="").map(len)`, float_column_profile.py:307-310). -/
def figures (s : List Char) : ℕ := (scan s.length false (s.dropWhile isLead)).length

/-! ## Statistics -/

/-- `sample_size` of a batch of `n` values (float_column_profile.py:300-305). -/
def sampleSize (n : ℕ) (ratio : Option ℚ) : ℕ :=
  match ratio with
  | some r => if 0 < r then ⌊n * r⌋₊ else min n (max 20000 ⌊(n * (1 / 20) : ℚ)⌋₊)
  | none => min n (max 20000 ⌊(n * (1 / 20) : ℚ)⌋₊)

/-- The dictionary `_precision` once filled (float_column_profile.py:43-51); `none` in a field is NaN. -/
structure Stats where
  min : Numeric.Flt
  max : Numeric.Flt
  biasedVar : Numeric.Flt
  sum : ℝ
  mean : Numeric.Flt
  size : ℕ

/-- Smallest of `m` and a list. -/
noncomputable def least : ℝ → List ℝ → ℝ
  | m, [] => m
  | m, x :: xs => least (Min.min m x) xs

/-- Largest of `m` and a list. -/
noncomputable def greatest : ℝ → List ℝ → ℝ
  | m, [] => m
  | m, x :: xs => greatest (Max.max m x) xs

/-- The statistics of a sample (float_column_profile.py:312-320); an empty sample has NaN everywhere except for its sum. -/
noncomputable def ofSample : List ℝ → Stats
  | [] => ⟨none, none, none, 0, none, 0⟩
  | l :: ls =>
    ⟨some (least l ls), some (greatest l ls), some (Numeric.npVar (l :: ls)), (l :: ls).sum,
      some ((l :: ls).sum / ((l :: ls).length : ℝ)), (l :: ls).length⟩

/-- One batch: the float values of the column and those drawn from them. -/
structure Batch where
  values : List String
  sample : List String

/-- The lengths of the sampled values after the replacement (float_column_profile.py:307-310). -/
def lengths (texts : List String) : List ℝ := texts.map fun t => (figures t.toList : ℝ)

/-- `_get_float_precision` (float_column_profile.py:277-322): nothing without values. -/
noncomputable def subset (b : Batch) : Option Stats :=
  if b.values.length = 0 then none else some (ofSample (lengths b.sample))

/-- Python's `min(a, b)`: the first one unless the second is smaller. -/
noncomputable def pyMin : Numeric.Flt → Numeric.Flt → Numeric.Flt
  | some a, some b => some (Min.min a b)
  | some a, none => some a
  | none, _ => none

/-- Python's `max(a, b)`: the first one unless the second is larger. -/
noncomputable def pyMax : Numeric.Flt → Numeric.Flt → Numeric.Flt
  | some a, some b => some (Max.max a b)
  | some a, none => some a
  | none, _ => none

/-- A sum over a count as numpy divides. -/
noncomputable def quotient (sum : ℝ) (n : ℕ) : Numeric.Flt := if n = 0 then none else some (sum / n)

/-- `_merge_biased_variance`; a missing mean comes with a missing variance, so its value is never used. -/
noncomputable def mergeVar (n1 : ℕ) (v1 m1 : Numeric.Flt) (n2 : ℕ) (v2 m2 : Numeric.Flt) : Numeric.Flt :=
  Numeric.mergeBiasedVariance n1 v1 (m1.getD 0) n2 v2 (m2.getD 0)

/-- The last branch of `_update_precision` (float_column_profile.py:374-395): the count is increased before the variances
are merged. -/
noncomputable def absorb (p s : Stats) : Stats :=
  { min := pyMin p.min s.min
    max := pyMax p.max s.max
    biasedVar := mergeVar (p.size + s.size) p.biasedVar p.mean s.size s.biasedVar s.mean
    sum := p.sum + s.sum
    mean := quotient (p.sum + s.sum) (p.size + s.size)
    size := p.size + s.size }

/-- The last branch of `__add__` (float_column_profile.py:96-121). -/
noncomputable def combine (p q : Stats) : Stats :=
  { min := pyMin p.min q.min
    max := pyMax p.max q.max
    biasedVar := mergeVar p.size p.biasedVar p.mean q.size q.biasedVar q.mean
    sum := p.sum + q.sum
    mean := quotient (p.sum + q.sum) (p.size + q.size)
    size := p.size + q.size }

/-- The precision part of a profile: the option `sample_ratio` and the dictionary. -/
structure State where
  ratio : Option ℚ
  prec : Option Stats

/-- `_update_precision` (float_column_profile.py:343-395). -/
noncomputable def update (s : State) (b : Batch) : State :=
  match subset b with
  | none => s
  | some t =>
    match s.prec with
    | none => { s with prec := some t }
    | some p => { s with prec := some (absorb p t) }

/-- What `precision` reports (float_column_profile.py:225-262). -/
structure Report where
  min : Numeric.Flt
  max : Numeric.Flt
  mean : Numeric.Flt
  sum : ℝ
  size : ℕ
  var : Numeric.Flt
  std : Numeric.Flt
  margin : Numeric.Flt

/-- `precision` (float_column_profile.py:225-262), `none` before any data. `fmt p` rounds to `p` significant figures;
`int` of NaN raises `ValueError`. -/
noncomputable def report (fmt : ℕ → Numeric.Flt → Numeric.Flt) (s : State) : Except Err (Option Report) :=
  match s.prec with
  | none => .ok none
  | some p =>
    match p.max with
    | none => .error .valueError
    | some m =>
      let var := Numeric.correctBiasVariance p.size p.biasedVar
      let std := var.map Real.sqrt
      let margin := std.map fun x => 3291 / 1000 * x / Real.sqrt p.size
      let f := fmt ⌊m⌋₊
      .ok (some ⟨p.min, p.max, f p.mean, p.sum, p.size, f var, f std, f margin⟩)

/-- The precision part of `__add__` (float_column_profile.py:65-123): the merged profile is made without options, and the
second operand is asked for its report. -/
noncomputable def merge (s t : State) : Except Err State :=
  match s.prec with
  | none => .ok ⟨none, t.prec⟩
  | some p => do
    let _ ← report (fun _ x => x) t
    match t.prec with
    | none => pure ⟨none, some p⟩
    | some q => pure ⟨none, some (combine p q)⟩

/-- Everything that can happen to the statistics. -/
inductive History where
  | new (ratio : Option ℚ)
  | update (h : History) (b : Batch)
  | merge (h1 h2 : History)

/-- The resulting statistics. -/
noncomputable def run : History → Except Err State
  | .new r => .ok ⟨r, none⟩
  | .update h b => do
    let s ← run h
    pure (update s b)
  | .merge h1 h2 => do
    let s ← run h1
    let t ← run h2
    merge s t

/-- The sampling option in force after a history: merging drops it. -/
def ratioOf : History → Option ℚ
  | .new r => r
  | .update h _ => ratioOf h
  | .merge _ _ => none

/-- Every sample is drawn without repetition from its batch and has the size the code asks for
(`df_series_clean.sample(sample_size)`, float_column_profile.py:300-308). -/
def Valid : History → Prop
  | .new _ => True
  | .update h b => Valid h ∧ List.Subperm b.sample b.values ∧ b.sample.length = sampleSize b.values.length (ratioOf h)
  | .merge h1 h2 => Valid h1 ∧ Valid h2

end Verif.Precision
