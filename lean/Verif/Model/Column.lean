import Verif.Model.Nulls
import Verif.Model.NumericStats
import Verif.Model.Categorical
import Verif.Model.ColumnTypes
import Verif.Model.Order
import Verif.Model.DateTime
import Verif.Model.Vocab

/-!
# A whole column profile

Models how `StructuredColProfiler` puts its parts together: cells are cleaned, the base statistics take the nulls into
account, everything else is given the remaining values (dataprofiler/profilers/profile_builder.py:123-163, 163-192,
193-254, 480-517; column_profile_compilers.py:74-145, 163-222).  The parts are the models of `Verif.Model.Nulls`,
`Verif.Model.NumericStats`, `Verif.Model.Categorical`, `Verif.Model.ColumnTypes`, `Verif.Model.Order`, `Verif.Model.DateTime` and
`Verif.Model.Vocab`.

Simplifications
* those of the parts; in addition no text is read as an infinity or as NaN;
* histograms and precision are in `Model/ColumnHist`, labels in `Model/ColumnLabel`; the statistics of the profiles for dates, numbers and
  texts are kept even when the type is disabled;
* dates are microseconds since the first day Python knows; time zones are left out;
* the name of the column does not change and no pool is used;
* the constructor given data is a fresh profile that is updated: it does the same two steps in the other order
  (profile_builder.py:146-147), which can only be told apart by the state left behind an exception.
-/

namespace Verif.Column

open Verif

/-- The numeric profiles of a column. -/
inductive Kind where
  | int | float | text
deriving DecidableEq

/-- What a profile is created with. -/
structure Opts where
  calcs : Kind → Numeric.Calcs
  bias : Kind → Bool
  stop : Categorical.StopOpts
  topK : Option ℕ

/-- A date: microseconds since the beginning of the year 1, up to the end of the year 9999. -/
abbrev Moment := Fin 315537897600000000

/-- What is read into a column and how: nulls, numbers and how they are written, dates by format, dates in May, enabled
types, and the orders in which sets of labels, of characters and of formats are iterated over. -/
structure World where
  isNull : String → Bool
  number : String → Option ℚ
  render : ℚ → String
  date : String → String → Option Moment
  isMay : Moment → Bool
  enabled : ColumnTypes.Ty → Bool
  setOrder : List ℤ → List ℤ
  charOrder : List Char → List Char
  formatOrder : List String → List String

/-- A batch of cells, together with the values that are drawn to see whether it has dates. -/
structure Batch extends Nulls.Batch where
  draw : List String → List String

/-- `float(x)`. -/
def World.toFloat (w : World) (x : String) : Option ColumnTypes.Flt := (w.number x).map .fin

/-- The number a profile sees in a text (int_column_profile.py:163-166, float_column_profile.py:444-447,
text_column_profile.py:183). -/
noncomputable def World.parse (w : World) : Kind → String → Option ℝ
  | .int, x => if ColumnTypes.isInt w.toFloat x then (w.number x).map fun q => (q : ℝ) else none
  | .float, x => (w.number x).map fun q => (q : ℝ)
  | .text, x => some x.length

/-- How many values of a batch are counted as dates: none if the sample has too few (datetime_column_profile.py:368-403). -/
def World.dates (w : World) (b : DateTime.Batch) : ℕ :=
  if DateTime.isDateColumn w.date w.isMay b then (DateTime.batchProfile w.date w.isMay b.values).count else 0

/-- The compilers of a column (profile_builder.py:170-192). -/
structure Profs where
  num : Kind → Numeric.State
  cats : Categorical.Cat String
  types : ColumnTypes.Compiler
  order : Order.Column
  vocab : List Char
  dates : DateTime.Col Moment

/-- A column profile; its compilers are created when the first data arrives. -/
structure State where
  opts : Opts
  base : Nulls.ColState
  profs : Option Profs

/-- Compilers that have seen nothing (column_profile_compilers.py:91-109). -/
noncomputable def Profs.new (w : World) (o : Opts) : Profs :=
  ⟨fun k => .init (o.calcs k) (o.bias k), Categorical.init o.stop o.topK, ColumnTypes.create w.enabled, .num none, [], DateTime.new⟩

/-- The three numeric profiles, one after the other. -/
def eachKind {α : Type} (f : Kind → Except Err α) : Except Err (Kind → α) :=
  match f .int with
  | .error e => .error e
  | .ok i => match f .float with
    | .error e => .error e
    | .ok x => match f .text with
      | .error e => .error e
      | .ok t => .ok fun | .int => i | .float => x | .text => t

/-- `update_profile` of the compilers (column_profile_compilers.py:163-222). -/
noncomputable def Profs.update (w : World) (p : Profs) (draw : List String → List String) (vals : List String) : Except Err Profs :=
  match eachKind fun k => Numeric.update (w.parse k) (p.num k) vals with
  | .error e => .error e
  | .ok num => .ok ⟨num, Categorical.update p.cats vals, ColumnTypes.update w.toFloat p.types ⟨vals, w.dates ⟨vals, draw vals⟩⟩,
      Order.updateColumn w.number w.render p.order vals, Vocab.update w.charOrder p.vocab vals,
      DateTime.update w.formatOrder w.date w.isMay p.dates ⟨vals, draw vals⟩⟩

/-- `update_profile` and `update_column_profilers` (profile_builder.py:149-192, 480-517). -/
noncomputable def update (w : World) (s : State) (b : Batch) : Except Err State :=
  match Nulls.clean w.isNull w.setOrder b.col b.sampleSize b.minTrue b.given b.chunks with
  | .error e => .error e
  | .ok (vals, base) => match Nulls.updateBase s.base base with
    | .error e => .error e
    | .ok base' => match (s.profs.getD (Profs.new w s.opts)).update w b.draw vals with
      | .error e => .error e
      | .ok p => .ok ⟨s.opts, base', some p⟩

/-- `__add__` of the compilers (column_profile_compilers.py:114-145). -/
noncomputable def Profs.merge (w : World) (p q : Profs) : Except Err Profs :=
  match ColumnTypes.merge p.types q.types with
  | .error e => .error e
  | .ok t => .ok ⟨fun k => Numeric.add (p.num k) (q.num k), Categorical.merge p.cats q.cats, t,
      Order.mergeColumn w.render p.order q.order, Vocab.merge w.charOrder p.vocab q.vocab,
      DateTime.merge w.formatOrder p.dates q.dates⟩

/-- `__add__` (profile_builder.py:193-254). -/
noncomputable def merge (w : World) (a b : State) : Except Err State :=
  if a.profs.isSome ≠ b.profs.isSome then .error .valueError
  else match Nulls.mergeState a.base b.base with
    | .error e => .error e
    | .ok base => match a.profs, b.profs with
      | some p, some q => match p.merge w q with
        | .error e => .error e
        | .ok r => .ok ⟨a.opts, base, some r⟩
      | _, _ => .ok ⟨a.opts, base, none⟩

/-- Everything that can happen to a column profile. -/
inductive History where
  | new (o : Opts)
  | update (h : History) (b : Batch)
  | merge (h1 h2 : History)

/-- The resulting profile. -/
noncomputable def run (w : World) : History → Except Err State
  | .new o => .ok ⟨o, .new, none⟩
  | .update h b => match run w h with
    | .error e => .error e
    | .ok s => update w s b
  | .merge h1 h2 => match run w h1 with
    | .error e => .error e
    | .ok a => match run w h2 with
      | .error e => .error e
      | .ok b => merge w a b

end Verif.Column
