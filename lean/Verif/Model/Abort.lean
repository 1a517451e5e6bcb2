import Verif.Model.Basic
import Mathlib.Data.Nat.Notation

/-!
# Updates that raise

Models in which order `BaseProfiler.update_profile` (dataprofiler/profilers/profile_builder.py:939-997) and
`StructuredProfiler._update_profile_from_chunk` (2789-3039) check their input and change the parts of a profile, so that what an exception
(of a null pattern, of a data labeler, a `KeyboardInterrupt`, …) leaves behind can be described.

Simplifications
* a column is known by its name in lower case and names are different (the matching of columns in general is C19); one process (C21);
* parts of a profile are the lists of batches that went into them; what they calculate is modelled elsewhere;
* a step that raises changes nothing; every other step changes its part.
-/

namespace Verif.Abort

open Verif

variable {β : Type}

/-- A batch: the names of its columns in order, its number of rows, and its content. -/
structure Batch (β : Type) where
  names : List String
  rows : ℕ
  data : β

/-- A column: the batches in its base statistics (`sample_size`, nulls) and those in each of its profiles. -/
structure Col (β : Type) where
  counted : List β
  parts : List (List β)

/-- A profile. -/
structure Prof (β : Type) where
  cols : List (String × Col β)
  total : ℕ
  corr : List β
  rowStats : List β
  nullRep : List β
  fileType : Option β

/-- What is calculated: the number of profiles of a column and the statistics of the table. -/
structure Opts where
  parts : ℕ
  corr : Bool
  chi2 : Bool
  rows : Bool
  nullRep : Bool

/-- The steps that change a profile. -/
inductive Stage where
  | clean (col : String)
  | part (col : String) (k : ℕ)
  | corr
  | chi2
  | total
  | rows
  | nullRep
  deriving DecidableEq

/-- The steps in order: cleaning and base statistics of all columns (2981-3000, without a pool), profiles of each column (3012-3015),
correlation and chi-squared (3021-3025), the number of rows (3028), row statistics (3030-3035), null replication (3038-3039). -/
def stages (o : Opts) (names : List String) : List Stage :=
  names.map .clean ++ names.flatMap (fun n => (List.range o.parts).map (.part n)) ++
    ((if o.corr then [.corr] else []) ++ (if o.chi2 then [.chi2] else []) ++ [.total] ++
      (if o.rows then [.rows] else []) ++ (if o.nullRep then [.nullRep] else []))

/-- Change one column. -/
def onCol (p : Prof β) (n : String) (f : Col β → Col β) : Prof β :=
  { p with cols := p.cols.map fun x => if x.1 = n then (x.1, f x.2) else x }

/-- What a step does. The chi-squared matrix is made anew from the columns and holds no batches. -/
def effect (b : Batch β) (p : Prof β) : Stage → Prof β
  | .clean n => onCol p n fun c => { c with counted := c.counted ++ [b.data] }
  | .part n k => onCol p n fun c => { c with parts := c.parts.modify k (· ++ [b.data]) }
  | .corr => { p with corr := p.corr ++ [b.data] }
  | .chi2 => p
  | .total => { p with total := p.total + b.rows }
  | .rows => { p with rowStats := p.rowStats ++ [b.data] }
  | .nullRep => { p with nullRep := p.nullRep ++ [b.data] }

/-- Steps one after the other up to the first that raises; whether all were done. Adding to the number of rows does not raise. -/
def perform (raises : Stage → Bool) (b : Batch β) (p : Prof β) : List Stage → Prof β × Bool
  | [] => (p, true)
  | s :: ss => if raises s && !decide (s = .total) then (p, false) else perform raises b (effect b p s) ss

/-- The names agree with those of the profile (`_get_and_validate_schema_mapping`, 1972-2043, for names that are different); data without
columns are not refused. -/
def fits (p : Prof β) (names : List String) : Bool :=
  p.cols.isEmpty || names.isEmpty || (decide (names.length = p.cols.length) && names.all fun n => (p.cols.map Prod.fst).contains n)

/-- What is passed to `update_profile`. -/
inductive Input (β : Type) where
  | other
  | badMin
  | batch (b : Batch β)

/-- How a call ends. -/
inductive Outcome where
  | done
  | warned
  | refused (e : Err)
  | failed
  deriving DecidableEq

/-- New columns at the first update (profile_builder.py:2862-2875). -/
def setUp (o : Opts) (p : Prof β) (names : List String) : Prof β :=
  if p.cols.isEmpty then { p with cols := names.map fun n => (n, ⟨[], List.replicate o.parts []⟩) } else p

/-- `update_profile`: wrong arguments (964-977), empty data (979-983), the schema (2821-2823), the steps, the type of the file (994-997). -/
def update (o : Opts) (raises : Stage → Bool) (p : Prof β) : Input β → Prof β × Outcome
  | .badMin => (p, .refused .valueError)
  | .other => (p, .refused .typeError)
  | .batch b =>
    if b.rows = 0 then (p, .warned)
    else if !fits p b.names then (p, .refused .valueError)
    else
      match perform raises b (setUp o p b.names) (stages o b.names) with
      | (p', true) => ({ p' with fileType := some b.data }, .done)
      | (p', false) => (p', .failed)

/-- A new profile. -/
def new : Prof β := ⟨[], 0, [], [], [], none⟩

/-- The column of a name. -/
def Prof.col (p : Prof β) (n : String) : Option (Col β) := (p.cols.find? fun x => decide (x.1 = n)).map Prod.snd

/-- Calls one after the other, each with what raises in it. -/
def run (o : Opts) (p : Prof β) (calls : List ((Stage → Bool) × Input β)) : Prof β :=
  calls.foldl (fun p c => (update o c.1 p c.2).1) p

end Verif.Abort
