import Verif.Model.Table
import Verif.Model.Column

/-!
# A table profile with its column statistics

Fills the parametric table model of `Verif.Model.Table` with the column profiles themselves: the numeric statistics of
`int`, `float` and `text` profiles with the vocabulary of the latter, the counts of `category` profiles, the order and the
dates, each as in `Verif.Model.Column`
(dataprofiler/profilers/column_profile_compilers.py:58-65, 91-145, 163-222, 225-232, 304-317; profile_builder.py:163-192).

Simplifications
* those of `Verif.Model.Table`, `Verif.Model.NumericStats`, `Verif.Model.Categorical`, `Verif.Model.Order`,
  `Verif.Model.DateTime` and `Verif.Model.Vocab`;
* the class for labels is not among the classes: a compiler told to create it leaves it out, as it does when a constructor
  raises (`Verif.Model.TableMore` adds labels, and the precision of decimals);
* the values drawn to look for dates depend on the values and on the statistics of dates so far, not on the column;
* the options are the same for all columns.
-/

namespace Verif.TableStats

open Verif Verif.Table Verif.Column

/-- The statistics of one column profile; `vocab` is used for texts only. -/
inductive Stat where
  | num (s : Numeric.State) (vocab : List Char)
  | cat (c : Categorical.Cat String)
  | order (c : Order.Column)
  | date (c : DateTime.Col Moment)

/-- The class of a column profile. -/
inductive Cls where
  | num (k : Kind)
  | cat
  | order
  | date
deriving DecidableEq

/-- The classes by name: `type` of int_column_profile.py:21, float_column_profile.py:25, text_column_profile.py:24,
categorical_column_profile.py:27, order_column_profile.py:38, datetime_column_profile.py:23. -/
def clsOf (t : String) : Option Cls :=
  if t = "int" then some (.num .int)
  else if t = "float" then some (.num .float)
  else if t = "text" then some (.num .text)
  else if t = "category" then some .cat
  else if t = "order" then some .order
  else if t = "datetime" then some .date
  else none

/-- The constructors (column_profile_compilers.py:100-109). -/
noncomputable def initStat (o : Opts) (t : String) : Except Err Stat :=
  match clsOf t with
  | some (.num k) => .ok (.num (.init (o.calcs k) (o.bias k)) [])
  | some .cat => .ok (.cat (Categorical.init o.stop o.topK))
  | some .order => .ok (.order (.num none))
  | some .date => .ok (.date DateTime.new)
  | none => .error .keyError

/-- How the values to look for dates are drawn, given the statistics so far. -/
abbrev Draw := DateTime.Col Moment → List String → List String

/-- `update` (column_profile_compilers.py:180-183). -/
noncomputable def updateStat (w : World) (draw : Draw) (t : String) (s : Stat) (vals : List String) : Except Err Stat :=
  match clsOf t, s with
  | some (.num k), .num s v => match Numeric.update (w.parse k) s vals with
    | .error e => .error e
    | .ok s' => .ok (.num s' (if k = .text then Vocab.update w.charOrder v vals else v))
  | some .cat, .cat c => .ok (.cat (Categorical.update c vals))
  | some .order, .order c => .ok (.order (Order.updateColumn w.number w.render c vals))
  | some .date, .date c => .ok (.date (DateTime.update w.formatOrder w.date w.isMay c ⟨vals, draw c vals⟩))
  | _, _ => .error .attributeError

/-- `__add__` (column_profile_compilers.py:138-143). -/
noncomputable def mergeStat (w : World) (t : String) (a b : Stat) : Except Err Stat :=
  match clsOf t, a, b with
  | some (.num k), .num a v, .num b u => .ok (.num (Numeric.add a b) (if k = .text then Vocab.merge w.charOrder v u else v))
  | some .cat, .cat a, .cat b => .ok (.cat (Categorical.merge a b))
  | some .order, .order a, .order b => .ok (.order (Order.mergeColumn w.render a b))
  | some .date, .date a, .date b => .ok (.date (DateTime.merge w.formatOrder a b))
  | _, _, _ => .error .typeError

/-- What a table profile depends on besides the column statistics. -/
structure Around (η : Type) where
  hll : HllOps η
  lower : String → String
  hash : List String → ℤ
  kinds : Kinds
  safe : String → Bool
  draw : Draw

/-- The column profile classes. -/
noncomputable def statOps (w : World) (o : Opts) (draw : Draw) (safe : String → Bool) : Ops Stat :=
  ⟨fun t _ => initStat o t, updateStat w draw, mergeStat w, safe⟩

/-- The table profiler. -/
noncomputable def tableEnv {η : Type} (w : World) (o : Opts) (a : Around η) : Env Stat η :=
  ⟨statOps w o a.draw a.safe, a.hll, a.lower, fun _ _ => w.isNull, w.setOrder, a.hash, a.kinds⟩

/-- How much of the column is of the type of a profile: `data_type_ratio`
(int_column_profile.py:104-113, float_column_profile.py:265-274, text_column_profile.py:121-130: every text matches;
datetime_column_profile.py:171-181). -/
noncomputable def ratio : Stat → Option ℝ
  | .num s _ => s.dataTypeRatio
  | .date c => if c.sampleSize = 0 then none else some (c.matchCount / c.sampleSize)
  | _ => none

open Classical in
/-- `ColumnPrimitiveTypeProfileCompiler.selected_data_type`: the first profile all of whose values match
(column_profile_compilers.py:304-317). -/
noncomputable def selected (c : Compiler Stat) : Option String :=
  (c.profs.find? fun tp => decide (ratio tp.2.state = some 1)).map Prod.fst

end Verif.TableStats
