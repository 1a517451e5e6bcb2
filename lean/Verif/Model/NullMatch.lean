import Mathlib.Data.Nat.Notation
import Mathlib.Data.Int.Notation
import Verif.Model.PyDict
import Verif.Model.Nulls

/-!
# Which cells are null

Models the null values of a column (`StructuredColProfiler.__init__`, dataprofiler/profilers/profile_builder.py:105-122; the
options null_values and column_null_values, profiler_options.py:1433-1434, 1487-1488), the choice of null values when a
table is profiled (profile_builder.py:2915-2921, 2962-2967, 2987-2989) and the test of a cell
(profile_builder.py:584-585, 621-633): the texts of the null values are joined into one regular expression, which the
whole cell has to match.

Regular expressions are those of the module `re`, restricted to characters, `.`, `|` and the repetitions `*`, `+`, `?` of
one character; what other expressions match is left to a parameter (`other`), and so is which characters are the same up to
case (`same`).

Simplification: `None`, `nan` and the missing values of pandas are represented by `Value`; other values by their text.
-/

namespace Verif.NullMatch

open Verif

/-- A flag of `re` as a number (`0`, `re.IGNORECASE = 2`, …). -/
abbrev Flag := ℕ

/-- Null values with their flags. -/
abbrev NullValues := PyDict String Flag

/-- The default null values (profile_builder.py:107-115). -/
def defaults : NullValues :=
  [("", 0), ("nan", 2), ("none", 2), ("null", 2), ("  *", 0), ("--*", 0), ("__*", 0)]

/-- `options.null_values` and `options.column_null_values`. -/
structure NullOpts where
  general : Option NullValues
  columns : Option (PyDict ℕ NullValues)

/-- `d.update(e)`. -/
def update (d e : NullValues) : NullValues := e.foldl (fun d kv => PyDict.set d kv.1 kv.2) d

/-- `options.column_null_values.get(i, {})`, nothing without the option. -/
def columnValues (o : NullOpts) (i : ℕ) : NullValues :=
  match o.columns with
  | some c => PyDict.getD c i []
  | none => []

/-- `_null_values` of a column profile (profile_builder.py:106-122): the merged profile of two columns is made without an
index (profile_builder.py:217-223). -/
def own (o : NullOpts) (index : Option ℕ) : NullValues :=
  match index with
  | some i => update (o.general.getD defaults) (columnValues o i)
  | none => o.general.getD defaults

/-- The null values with which a column of a table is cleaned: those of the profile of the column and those for the
position of the column in the data (profile_builder.py:2987-2989). -/
def used (o : NullOpts) (index : Option ℕ) (position : ℕ) : NullValues :=
  update (own o index) (columnValues o position)

/-- What stands for one character. -/
inductive Atom where
  | chr (c : Char)
  | any
  deriving DecidableEq

/-- How often. -/
inductive Times where
  | once | star | plus | opt
  deriving DecidableEq

/-- A repeated atom. -/
structure Item where
  atom : Atom
  times : Times
  deriving DecidableEq

/-- `*`, `+`, `?`. -/
def timesOf (c : Char) : Option Times :=
  if c = '*' then some .star else if c = '+' then some .plus else if c = '?' then some .opt else none

/-- Characters with a meaning that is not modelled. -/
def foreign (c : Char) : Bool := c ∈ ['\\', '^', '$', '{', '[', '(', ')']

/-- `.` or the character itself. -/
def atomOf (c : Char) : Atom := if c = '.' then .any else .chr c

/-- The outcome of reading an expression: it is understood, it is refused by `re` (nothing to repeat, multiple repeat), or
it is beyond the model. -/
inductive Parsed (α : Type) where
  | ok (a : α)
  | bad
  | other

/-- Reads a sequence; the items read so far come first, the last one at the head (library `re`). -/
def parseFrom : List Item → List Char → Parsed (List Item)
  | cur, [] => .ok cur.reverse
  | cur, c :: cs =>
    match timesOf c with
    | some t => match cur with
      | [] => .bad
      | ⟨a, .once⟩ :: rest => parseFrom (⟨a, t⟩ :: rest) cs
      | _ :: _ => if c = '*' then .bad else .other
    | none => if foreign c then .other else parseFrom (⟨atomOf c, .once⟩ :: cur) cs

/-- Reads the alternatives from left to right. -/
def parseAll : List (List Char) → Parsed (List (List Item))
  | [] => .ok []
  | a :: as => match parseFrom [] a with
    | .bad => .bad
    | .other => .other
    | .ok items => match parseAll as with
      | .bad => .bad
      | .other => .other
      | .ok rest => .ok (items :: rest)

/-- Does the atom match the character? `.` does not match a line end. -/
def atomOk (same : Char → Char → Bool) : Atom → Char → Bool
  | .chr p, c => same p c
  | .any, c => decide (c ≠ '\n')

/-- A repeated character, followed by `next`. -/
def starMatch (ok : Char → Bool) (next : List Char → Bool) : List Char → Bool
  | [] => next []
  | c :: s => next (c :: s) || (ok c && starMatch ok next s)

/-- One character, followed by `next`. -/
def oneMatch (ok : Char → Bool) (next : List Char → Bool) : List Char → Bool
  | [] => false
  | c :: s => ok c && next s

/-- Does the sequence match up to `$`, that is, up to the end or to a line end that ends the cell? -/
def seqMatch (same : Char → Char → Bool) : List Item → List Char → Bool
  | [], s => decide (s = [] ∨ s = ['\n'])
  | ⟨a, .once⟩ :: r, s => oneMatch (atomOk same a) (seqMatch same r) s
  | ⟨a, .star⟩ :: r, s => starMatch (atomOk same a) (seqMatch same r) s
  | ⟨a, .plus⟩ :: r, s => oneMatch (atomOk same a) (starMatch (atomOk same a) (seqMatch same r)) s
  | ⟨a, .opt⟩ :: r, s => seqMatch same r s || oneMatch (atomOk same a) (seqMatch same r) s

/-- The functions of the library: equality up to case, and what expressions beyond the model match, given the query. -/
structure Re where
  same : Char → Char → Bool
  other : List Char → Except Err (String → Bool)

/-- `"|".join(null_values.keys())` (profile_builder.py:621). -/
def query (d : NullValues) : List Char := ['|'].intercalate ((PyDict.keys d).map String.toList)

/-- The test made by `df_subset.str.match(f"^(?:{query})$", flags=re.IGNORECASE)` (profile_builder.py:621-630); an expression
that `re` refuses raises `re.error`. -/
def test (re : Re) (d : NullValues) : Except Err (String → Bool) :=
  match parseAll ((query d).splitOn '|') with
  | .bad => .error .exception
  | .other => re.other (query d)
  | .ok alts => .ok fun cell => alts.any fun r => seqMatch re.same r cell.toList

/-- A value of a table. -/
inductive Value where
  | none
  | nan
  | nat
  | na
  | text (s : String)

/-- `str(value)` (profile_builder.py:584-585): of `None`, of the float `nan`, of `pandas.NaT` and of `pandas.NA`. -/
def Value.str : Value → String
  | .none => "None"
  | .nan => "nan"
  | .nat => "NaT"
  | .na => "<NA>"
  | .text s => s

/-- `clean_data_and_get_base_stats` with null values (profile_builder.py:536-676): the cleaning of `Verif.Model.Nulls` with the
test above.  A refused expression raises in the first chunk (627-630). -/
def clean (re : Re) (d : NullValues) (setOrder : List ℤ → List ℤ) (col : List Nulls.Cell) (sampleSize minTrue : ℕ) (given : Bool)
    (chunks : List (List ℕ)) : Except Err (List String × Nulls.Base) :=
  match test re d with
  | .ok p => Nulls.clean p setOrder col sampleSize minTrue given chunks
  | .error e =>
    if col = [] then .ok ([], ⟨0, 0, [], none⟩)
    else match chunks with
      | [] => .error .zeroDivision
      | ps :: _ => match Nulls.iloc col ps with
        | .error e' => .error e'
        | .ok _ => .error e

end Verif.NullMatch
