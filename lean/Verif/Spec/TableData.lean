import Mathlib.Data.List.Count
import Verif.Spec.Table
import Verif.Spec.Schema
import Verif.Spec.Shuffle

/-!
# Specification vocabulary for table profiles: the data described

Column names are matched with upper and lower case identified; a name that occurs once is found anywhere, a repeated
name only at its own place.
-/

namespace Verif.Table

open Verif.Schema Verif.SchemaSpec

variable {σ η : Type}

/-- Where the data for column `p` of a table with names `pn` are found in a table with names `dn`. -/
def sourceCol (lower : String → String) (dn pn : List Key) (p : ℕ) : ℕ :=
  match pn[p]? with
  | none => p
  | some k => if (names lower dn).count (folded lower k) = 1 then (names lower dn).idxOf (folded lower k) else p

/-- A row of a table with names `dn`, rearranged for a table with names `pn`. -/
def align (lower : String → String) (dn pn : List Key) (row : List String) : List String :=
  (List.range pn.length).map fun p => row.getD (sourceCol lower dn pn p) ""

/-- The column names of a profile: those of its first batch. -/
def Hist.names : Hist → List Key
  | .new _ => []
  | .update h _ u => if u.data.rows = [] ∨ h.names ≠ [] then h.names else u.data.names
  | .merge h1 _ => h1.names

/-- All rows given to a profile, as they were given. -/
def Hist.rows : Hist → List (List String)
  | .new _ => []
  | .update h _ u => h.rows ++ u.data.rows.map Prod.snd
  | .merge h1 h2 => h1.rows ++ h2.rows

/-- The rows at the given positions. -/
def rowsAt (d : Data) (ids : List ℕ) : List (ℤ × List String) := ids.filterMap (d.rows[·]?)

/-- A sample of `min s n` row positions, in order. -/
structure SampleIds (n s : ℕ) (ids : List ℕ) : Prop where
  sorted : ids.Pairwise (· < ·)
  bound : ∀ i ∈ ids, i < n
  length : ids.length = min s n

/-- The rows sampled during a history, rearranged for the columns of the profile. -/
inductive Sampled (lower : String → String) : Hist → List (List String) → Prop where
  | new (o : RowOpts) : Sampled lower (.new o) []
  | nothing {h : Hist} {rs : List (List String)} {pool : Option TableSched} {u : Upd} (he : u.data.rows = [])
      (hs : Sampled lower h rs) : Sampled lower (.update h pool u) rs
  | update {h : Hist} {rs : List (List String)} {pool : Option TableSched} {u : Upd} {ids : List ℕ} (he : u.data.rows ≠ [])
      (hs : Sampled lower h rs) (hi : SampleIds u.data.rows.length u.sampleSize ids) :
      Sampled lower (.update h pool u)
        (rs ++ (rowsAt u.data ids).map fun r => align lower u.data.names (Hist.update h pool u).names r.2)
  | merge {h1 h2 : Hist} {rs ss : List (List String)} (s1 : Sampled lower h1 rs) (s2 : Sampled lower h2 ss) :
      Sampled lower (.merge h1 h2) (rs ++ ss.map (align lower h2.names h1.names))

/-- A sensible batch: at least one column, distinct non-negative row labels, a positive sample size, no minimum of true
samples, possible random draws. -/
structure Upd.Sensible (u : Upd) : Prop where
  names : u.data.names ≠ []
  labels : (u.data.rows.map Prod.fst).Nodup
  nonneg : ∀ r ∈ u.data.rows, 0 ≤ r.1
  sample : 0 < u.sampleSize
  minTrue : u.minTrue = 0
  draws : Shuffle.ValidDraws u.data.rows.length u.draws

/-- All non-empty batches are sensible. -/
def Hist.Sensible : Hist → Prop
  | .new _ => True
  | .update h _ u => h.Sensible ∧ (u.data.rows ≠ [] → u.Sensible)
  | .merge h1 h2 => h1.Sensible ∧ h2.Sensible

/-- `P type state values`: the profile state describes the values.  Profiles obey it when it holds for no values after
construction, for more values after an update, and for all values after a merge. -/
structure Law (ops : Ops σ) (P : String → σ → List String → Prop) : Prop where
  init : ∀ t name s, ops.init t name = .ok s → P t s []
  update : ∀ t s vs ws s', P t s vs → ops.update t s ws = .ok s' → P t s' (vs ++ ws)
  merge : ∀ t s1 s2 vs ws s', P t s1 vs → P t s2 ws → ops.merge t s1 s2 = .ok s' → P t s' (vs ++ ws)

/-- Column `c` describes the cells `cells`: counts, null positions aside, and every profile describes exactly the
non-null cells, in some order. -/
structure ColDescribes (isNull : String → Bool) (P : String → σ → List String → Prop) (c : Col σ) (cells : List String) :
    Prop where
  sampleSize : c.base.sampleSize = cells.length
  nullCount : c.base.nullCount = cells.countP isNull
  nullTypes : ∀ t, t ∈ PyDict.keys c.base.index ↔ t ∈ cells ∧ isNull t
  nullRows : ∀ t, isNull t → (PyDict.getD c.base.index t []).length = cells.count t
  profs : ∀ kc ∈ c.compilers, ∀ tp ∈ kc.2.profs, ∃ vs, vs.Perm (cells.filter fun t => !isNull t) ∧ P tp.1 tp.2.state vs

end Verif.Table
