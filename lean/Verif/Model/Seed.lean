import Verif.Model.Nulls
import Verif.Model.Reservoir

/-!
# Seeds and sampling

Models `set_seed` (dataprofiler/__init__.py:26-30), `get_random_number_generator` (dataprofiler/rng_utils.py:10-20) and where random
numbers come from: the shuffle of rows (profilers/profiler_utils.py:112-123), the values kept for display
(profilers/profile_builder.py:662-671, 248-249, 1310-1311, 1531), reservoir sampling of lines (data_readers/data_utils.py:322-340),
sampling of Parquet rows (data_readers/data_utils.py:506) and batches (data_readers/base_data.py:152-162).

The generators of NumPy are parameters: their states, how a seed makes one and what they return.  The generators of the modules
`random` and `np.random`, which all of a process share, are one state.  The rows of a table are cleaned and counted by the model of
`Model/Nulls`.  Worker processes are left out: columns are cleaned one after the other.
-/

namespace Verif.Seed

open Verif Verif.Nulls

variable {G R : Type}

/-- The generators: `default_rng`, `Generator.integers`, `Generator.choice` without replacement, a round of reservoir sampling, and
`random.sample` as positions. -/
structure Lib (G R : Type) where
  seeded : ℕ → G
  integers : G → List ℕ → ℕ → List ℕ × G
  choice : G → List String → ℕ → List String
  round : G → ℕ → Reservoir.Draw × G
  sample : R → ℕ → ℕ → List ℕ × R

/-- What random numbers depend on: the setting, the variable `DATAPROFILER_SEED` (with what `int` makes of it, `none` if it raises),
what the system gives for new generators without a seed, and the shared generators. -/
structure World (G R : Type) where
  setting : Option ℕ
  env : Option (Option ℤ)
  entropy : ℕ → G
  used : ℕ
  shared : R

/-- Arguments of `set_seed`. -/
inductive Arg where
  | none
  | int (z : ℤ)
  | bool (b : Bool)
  | other

/-- `set_seed` (__init__.py:26-30); truth values are integers. -/
def setSeed (w : World G R) : Arg → Except Err (World G R)
  | .none => .ok { w with setting := Option.none }
  | .int z => if z < 0 then .error .valueError else .ok { w with setting := some z.toNat }
  | .bool b => .ok { w with setting := some (if b then 1 else 0) }
  | .other => .error .valueError

/-- `get_random_number_generator` (rng_utils.py:10-20): the generator, whether a warning is given, and the world afterwards.
A negative seed in the environment makes `default_rng` raise the same error as a text that is no integer. -/
def getRng (lib : Lib G R) (w : World G R) : G × Bool × World G R :=
  match w.setting with
  | some n => (lib.seeded n, false, w)
  | none =>
    match w.env with
    | none => (w.entropy w.used, false, { w with used := w.used + 1 })
    | some none => (w.entropy w.used, true, { w with used := w.used + 1 })
    | some (some z) =>
      if z < 0 then (w.entropy w.used, true, { w with used := w.used + 1 })
      else (lib.seeded z.toNat, false, { w with used := w.used + 1 })

/-- The random integers of all chunks (profiler_utils.py:118-126), one call for every chunk. -/
def drawList (lib : Lib G R) (n c : ℕ) : List ℕ → ℕ → G → List ℕ
  | [], _, _ => []
  | ind :: rest, j, g =>
    let size := min c (n - c * ind)
    (lib.integers g (List.range' j size) n).1 ++ drawList lib n c rest (j + size) (lib.integers g (List.range' j size) n).2

/-- The random integer for each position. -/
def draws (lib : Lib G R) (g : G) (n c : ℕ) (j : ℕ) : ℕ :=
  (drawList lib n c (List.range (max ((n + c - 1) / c) 1)) 0 g).getD j 0

/-- A batch: its columns, all of the same length. -/
structure Table where
  rows : ℕ
  cols : List (List Cell)
  sampleSize : ℕ
  minTrue : ℕ

/-- The positions that are sampled and the world afterwards (profile_builder.py:2842-2848). -/
def positions (lib : Lib G R) (w : World G R) (t : Table) : List ℕ × World G R :=
  (sharedIds t.rows t.sampleSize t.minTrue (draws lib (getRng lib w).1 t.rows t.rows), (getRng lib w).2.2)

/-- A column of a profile: its statistics and the values kept for display. -/
structure Col where
  stats : ColState
  sample : List String

/-- One column of a batch (profile_builder.py:500-517, 662-676, 430-434): cleaning, five values for display, statistics. -/
def updateCol (lib : Lib G R) (isNull : String → Bool) (setOrder : List ℤ → List ℤ) (t : Table) (chunks : List (List ℕ))
    (w : World G R) (old : Col) (col : List Cell) : Except Err Col × World G R :=
  match clean isNull setOrder col t.sampleSize t.minTrue true chunks with
  | .error e => (.error e, w)
  | .ok (values, base) =>
    match updateBase old.stats base with
    | .error e => (.error e, (getRng lib w).2.2)
    | .ok s => (.ok ⟨s, lib.choice (getRng lib w).1 values (min values.length 5)⟩, (getRng lib w).2.2)

/-- The loop over the columns. -/
def updateCols (lib : Lib G R) (isNull : String → Bool) (setOrder : List ℤ → List ℤ) (t : Table) (chunks : List (List ℕ)) :
    World G R → List (Col × List Cell) → Except Err (List Col) × World G R
  | w, [] => (.ok [], w)
  | w, (old, col) :: rest =>
    match updateCol lib isNull setOrder t chunks w old col with
    | (.error e, w1) => (.error e, w1)
    | (.ok c, w1) =>
      match updateCols lib isNull setOrder t chunks w1 rest with
      | (.error e, w2) => (.error e, w2)
      | (.ok cs, w2) => (.ok (c :: cs), w2)

/-- An update with a table (profile_builder.py:2842-2990); a table without rows has no list of positions. -/
def update (lib : Lib G R) (isNull : String → Bool) (setOrder : List ℤ → List ℤ) (t : Table) (w : World G R) (p : List Col) :
    Except Err (List Col) × World G R :=
  if t.rows = 0 then (.error .indexError, (getRng lib w).2.2)
  else
    match Chunks.partition (positions lib w t).1 t.sampleSize with
    | .error e => (.error e, (positions lib w t).2)
    | .ok chunks => updateCols lib isNull setOrder t chunks (positions lib w t).2 (p.zip t.cols)

/-- `list(dict.fromkeys(a + b))`. -/
def distinct (l : List String) : List String := l.foldl (fun s x => if x ∈ s then s else s ++ [x]) []

/-- Values for display of a merged column (profile_builder.py:248-249). -/
def mergeSample (lib : Lib G R) (w : World G R) (a b : List String) : List String × World G R :=
  let all := distinct (a ++ b)
  let r := lib.sample w.shared all.length (min all.length 5)
  (r.1.filterMap fun i => all[i]?, { w with shared := r.2 })

/-- Merging the columns of two profiles, paired by position here. -/
def mergeCols (lib : Lib G R) : World G R → List (Col × Col) → Except Err (List Col) × World G R
  | w, [] => (.ok [], w)
  | w, (a, b) :: rest =>
    match mergeState a.stats b.stats with
    | .error e => (.error e, w)
    | .ok s =>
      match mergeCols lib (mergeSample lib w a.sample b.sample).2 rest with
      | (.error e, w2) => (.error e, w2)
      | (.ok cs, w2) => (.ok (⟨s, (mergeSample lib w a.sample b.sample).1⟩ :: cs), w2)

/-- What a user can do with profiles of tables with a number of columns. -/
inductive Prog where
  | new (columns : ℕ)
  | update (p : Prog) (t : Table)
  | merge (p q : Prog)

/-- Running it. -/
def run (lib : Lib G R) (isNull : String → Bool) (setOrder : List ℤ → List ℤ) : Prog → World G R → Except Err (List Col) × World G R
  | .new n, w => (.ok (List.replicate n ⟨.new, []⟩), w)
  | .update p t, w =>
    match run lib isNull setOrder p w with
    | (.error e, w1) => (.error e, w1)
    | (.ok cs, w1) => update lib isNull setOrder t w1 cs
  | .merge p q, w =>
    match run lib isNull setOrder p w with
    | (.error e, w1) => (.error e, w1)
    | (.ok cs, w1) =>
      match run lib isNull setOrder q w1 with
      | (.error e, w2) => (.error e, w2)
      | (.ok ds, w2) => mergeCols lib w2 (cs.zip ds)

/-- The rounds of reservoir sampling with one generator (data_utils.py:322-336). -/
def rounds (lib : Lib G R) (n : ℕ) : ℕ → G → Reservoir.Draw
  | 0, g => (lib.round g n).1
  | i + 1, g => rounds lib n i (lib.round g n).2

/-- `rsample` (data_utils.py:346-367) with the generator it makes. -/
def sampleLines (lib : Lib G R) (w : World G R) (header : Option ℕ) (n : ℕ) (lines : List (List Char)) :
    Except Err (List Char × Option ℕ) := Reservoir.rsample (fun i => rounds lib n i (getRng lib w).1) header n lines

/-- Rows sampled of a Parquet file (data_utils.py:500-506). -/
def sampleRows {α : Type} (lib : Lib G R) (w : World G R) (n : ℕ) (rows : List α) : List α :=
  Reservoir.sampleParquet (lib.sample w.shared rows.length n).1 n rows

/-- Lines of unstructured text kept for display (profile_builder.py:1531). -/
def sampleText (lib : Lib G R) (w : World G R) (lines : List String) : List String :=
  (lib.sample w.shared lines.length (min lines.length 5)).1.filterMap fun i => lines[i]?

end Verif.Seed
