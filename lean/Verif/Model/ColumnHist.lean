import Verif.Model.Column
import Verif.Model.HistColumn
import Verif.Model.Precision

/-!
# Histograms and precision inside a column profile

Models what `Model/Column` leaves out: how the histogram of each numeric profile (`Model/HistColumn`) and the precision of the
profile of decimals (`Model/Precision`) are fed when a column profile is updated or merged
(dataprofiler/profilers/profile_builder.py:149-254, 480-517; int_column_profile.py:151-179, float_column_profile.py:65-123, 430-463,
text_column_profile.py:173-198, numerical_column_stats.py:345-354, 1734-1763).

Simplifications
* those of the parts; the histogram of one kind is followed at a time, because the profiles of different kinds share no dictionaries;
* histograms, minimum and maximum are enabled; the options for bins and for sampling are the same in all profiles;
* nothing is reported in between (`Model/HistColumn` has what that does).
-/

namespace Verif.Column

open Verif Verif.HistColumn

/-- What histograms and precision depend on: the options, the estimates of the number of bins for a batch and after a merge, and the
values drawn to look at their digits. -/
structure Env where
  bins : Kind → Option HistColumn.Options
  est : String → List ℚ → ℕ
  suggest : History → String → ℕ
  ratio : Option ℚ
  sample : List String → List String

/-- The number a profile sees in a text, as a rational (see `World.parse`). -/
def World.rational (w : World) : Kind → String → Option ℚ
  | .int, x => if ColumnTypes.isInt w.toFloat x then w.number x else none
  | .float, x => w.number x
  | .text, x => some x.length

open Classical in
/-- The same number as a rational. -/
noncomputable def asRat : Option ℝ → Option ℚ
  | none => none
  | some x => if h : ∃ q : ℚ, (q : ℝ) = x then some h.choose else none

/-- The histogram of a profile that may not have been created yet (column_profile_compilers.py:91-109). -/
def histOf (e : Env) (k : Kind) (heap : Heap) : Option Col → Heap × Col
  | some c => (heap, c)
  | none => newCol heap (decide (k = .float)) (e.bins k)

/-- `_update_helper` (numerical_column_stats.py:1734-1763): nothing happens without numbers. -/
def feed (e : Env) (r : Heap × Col) (nums : List ℚ) : Heap × Col :=
  if nums.isEmpty then r else HistColumn.update e.est r.1 r.2 nums

/-- The minimum of a numeric profile (numerical_column_stats.py:299-305). -/
noncomputable def minOf (k : Kind) (s : State) : Option ℚ := s.profs.bind fun p => asRat (p.num k).min

/-- The maximum of a numeric profile (numerical_column_stats.py:306-312). -/
noncomputable def maxOf (k : Kind) (s : State) : Option ℚ := s.profs.bind fun p => asRat (p.num k).max

/-- A column profile with the histogram of one kind, and the dictionaries in use (profile_builder.py:149-254, 480-517;
numerical_column_stats.py:237-343). -/
noncomputable def runHist (w : World) (e : Env) (k : Kind) : History → Heap → Except Err (State × Heap × Option Col)
  | .new o, heap => .ok (⟨o, .new, none⟩, heap, none)
  | .update h b, heap =>
    match runHist w e k h heap with
    | .error x => .error x
    | .ok (s, heap1, c) =>
      match Nulls.clean w.isNull w.setOrder b.col b.sampleSize b.minTrue b.given b.chunks, update w s b with
      | .error x, _ => .error x
      | .ok _, .error x => .error x
      | .ok (vals, _), .ok s' =>
        let r := feed e (histOf e k heap1 c) (vals.filterMap (w.rational k))
        .ok (s', r.1, some r.2)
  | .merge h1 h2, heap =>
    match runHist w e k h1 heap with
    | .error x => .error x
    | .ok (a, heap1, c1) =>
      match runHist w e k h2 heap1 with
      | .error x => .error x
      | .ok (b, heap2, c2) =>
        match merge w a b with
        | .error x => .error x
        | .ok s =>
          match c1, c2 with
          | some c1, some c2 =>
            match HistColumn.merge (e.suggest (.merge h1 h2)) heap2 c1 c2 (minOf k s) (maxOf k s) with
            | .error x => .error x
            | .ok r => .ok (s, r.1, some r.2)
          | _, _ => .ok (s, heap2, none)

/-- The texts that are decimals (float_column_profile.py:444-447). -/
def decimals (w : World) (vals : List String) : List String := vals.filter fun x => (w.number x).isSome

/-- The precision of the profile of decimals; nothing before the first data (float_column_profile.py:58-108, 430-463). -/
noncomputable def runPrec (w : World) (e : Env) : History → Except Err (Option Precision.State)
  | .new _ => .ok none
  | .update h b =>
    match runPrec w e h with
    | .error x => .error x
    | .ok p =>
      match Nulls.clean w.isNull w.setOrder b.col b.sampleSize b.minTrue b.given b.chunks with
      | .error x => .error x
      | .ok (vals, _) =>
        .ok (some (Precision.update (p.getD ⟨e.ratio, none⟩) ⟨decimals w vals, e.sample (decimals w vals)⟩))
  | .merge h1 h2 =>
    match runPrec w e h1 with
    | .error x => .error x
    | .ok p =>
      match runPrec w e h2 with
      | .error x => .error x
      | .ok q =>
        match p, q with
        | some p, some q => (Precision.merge p q).map some
        | _, _ => .ok none

end Verif.Column
