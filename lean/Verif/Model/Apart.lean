import Verif.Model.Basic
import Mathlib.Data.Nat.Notation

/-!
# Profiles that are merged, as objects

Models which objects `StructuredProfiler.__init__` (dataprofiler/profilers/profile_builder.py:1666-1686), `_update_row_statistics`
(2222-2250), `BaseProfiler.__add__` (768-807) and `StructuredProfiler.__add__` (1771-1857) make, change in place and hand on: the
object with the hashes of the rows, the options, and one more object that is filled in place by updates and made anew by merges.  This
one stands for each of the rows of null values of a column (`null_types_index`, 233, 243 and 476), its categories
(categorical_column_profile.py:139-141), the vocabulary (text_column_profile.py:69-70), the formats of dates
(datetime_column_profile.py:117-119) and the times (profile_builder.py:803-805).

Simplifications
* row statistics are enabled, and the schemas of profiles that are merged agree (see C20 for what is refused otherwise);
* the options are a value; the hashing method is fixed when a profile is made and the registers and seeds of sketches agree;
* histograms are objects of their own, see C75.
-/

namespace Verif.Apart

open Verif

/-- What is not modelled: `ρ` are rows, `η` sketches, `β` what a row adds to the other object. -/
structure Lib (ρ η β : Type) where
  /-- `hash_pandas_object` of a row -/
  hash : ρ → ℕ
  empty : η
  add : η → ρ → η
  merge : η → η → η
  card : η → ℕ
  pieces : ρ → List β

/-- `hashed_row_object`: a dictionary with hashes as keys, or a sketch. -/
inductive Store (η : Type) where
  | full (keys : List ℕ)
  | hll (sketch : η)

/-- A profile: the addresses of its objects, and `total_samples`. -/
structure Prof where
  store : ℕ
  acc : ℕ
  opts : ℕ
  total : ℕ
  deriving DecidableEq

/-- All objects there are. -/
structure World (η β ω : Type) where
  stores : List (Store η)
  accs : List (List β)
  options : List ω
  profs : List Prof

variable {ρ η β ω : Type}

/-- No objects. -/
def World.none : World η β ω := ⟨[], [], [], []⟩

/-- `dict.update` with one key. -/
def insertKey (keys : List ℕ) (k : ℕ) : List ℕ := if k ∈ keys then keys else keys ++ [k]

/-- The store after some rows (profile_builder.py:2222-2250). -/
def Store.feed (lib : Lib ρ η β) (rows : List ρ) : Store η → Store η
  | .full keys => .full (rows.foldl (fun ks r => insertKey ks (lib.hash r)) keys)
  | .hll s => .hll (rows.foldl lib.add s)

/-- The new store of the constructor (profile_builder.py:1671, 1680-1685). -/
def Store.new (lib : Lib ρ η β) (hll : Bool) : Store η := if hll then .hll lib.empty else .full []

/-- A new profile with new options. -/
def make (lib : Lib ρ η β) (w : World η β ω) (hll : Bool) (o : ω) : World η β ω :=
  ⟨w.stores ++ [Store.new lib hll], w.accs ++ [[]], w.options ++ [o],
    w.profs ++ [⟨w.stores.length, w.accs.length, w.options.length, 0⟩]⟩

/-- `update_profile`: the objects of the profile are changed in place. -/
def update (lib : Lib ρ η β) (w : World η β ω) (i : ℕ) (rows : List ρ) : World η β ω :=
  match w.profs[i]? with
  | none => w
  | some p =>
    { w with
      stores := w.stores.modify p.store (Store.feed lib rows)
      accs := w.accs.modify p.acc (· ++ rows.flatMap lib.pieces)
      profs := w.profs.set i { p with total := p.total + rows.length } }

/-- The new profile of a merge with its objects. -/
def joined (w : World η β ω) (p q : Prof) (fresh : Store η) (store : ℕ) : World η β ω :=
  { w with
    stores := w.stores ++ [fresh]
    accs := w.accs ++ [w.accs.getD p.acc [] ++ w.accs.getD q.acc []]
    profs := w.profs ++ [⟨store, w.accs.length, p.opts, p.total + q.total⟩] }

/-- `p + q` (profile_builder.py:787-805, 1783-1857): the constructor makes a store and keeps the options of the left operand. Dictionaries
are copied into the new one; a sketch of the left operand is changed in place and becomes that of the merged profile (1808-1809). -/
def merge (lib : Lib ρ η β) (w : World η β ω) (i j : ℕ) : World η β ω :=
  match w.profs[i]?, w.profs[j]? with
  | some p, some q =>
    match w.stores[p.store]?, w.stores[q.store]? with
    | some (.full a), some (.full b) => joined w p q (.full (b.foldl insertKey (a.foldl insertKey []))) w.stores.length
    | some (.hll a), some (.hll b) =>
      joined { w with stores := w.stores.set p.store (.hll (lib.merge a b)) } p q (.hll lib.empty) p.store
    | _, _ => w
  | _, _ => w

/-- `profile.options.set(…)`. -/
def setOptions (w : World η β ω) (i : ℕ) (o : ω) : World η β ω :=
  match w.profs[i]? with
  | none => w
  | some p => { w with options := w.options.set p.opts o }

/-- What a program can do; profiles are numbered as they are made. -/
inductive Op (ρ ω : Type) where
  | make (hll : Bool) (o : ω)
  | update (i : ℕ) (rows : List ρ)
  | merge (i j : ℕ)
  | set (i : ℕ) (o : ω)

/-- One step. -/
def step (lib : Lib ρ η β) (w : World η β ω) : Op ρ ω → World η β ω
  | .make h o => make lib w h o
  | .update i rows => update lib w i rows
  | .merge i j => merge lib w i j
  | .set i o => setOptions w i o

/-- A history. -/
def run (lib : Lib ρ η β) (ops : List (Op ρ ω)) : World η β ω := ops.foldl (step lib) World.none

/-- The number of different rows a profile reports, and of how many: `_get_unique_row_ratio` (profile_builder.py:2155-2158). -/
def unique (lib : Lib ρ η β) (w : World η β ω) (i : ℕ) : Option (ℕ × ℕ) :=
  match w.profs[i]? with
  | none => none
  | some p =>
    match w.stores[p.store]? with
    | none => none
    | some (.full keys) => some (keys.length, p.total)
    | some (.hll s) => some (lib.card s, p.total)

/-- The content of the other object of a profile. -/
def content (w : World η β ω) (i : ℕ) : Option (List β) :=
  match w.profs[i]? with
  | none => none
  | some p => w.accs[p.acc]?

/-- The options of a profile. -/
def optionsOf (w : World η β ω) (i : ℕ) : Option ω :=
  match w.profs[i]? with
  | none => none
  | some p => w.options[p.opts]?

end Verif.Apart
