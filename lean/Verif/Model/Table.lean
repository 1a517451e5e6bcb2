import Verif.Model.Schema
import Verif.Model.Nulls

/-!
# A table profile: one profile per column

Models `BaseCompiler` (dataprofiler/profilers/column_profile_compilers.py:55-222), `StructuredColProfiler`
(dataprofiler/profilers/profile_builder.py:145-254) and the `StructuredProfiler` operations `update_profile`,
`_update_profile_from_chunk`, `_update_row_statistics`, `_add_error_checks`, `__add__` and the row getters
(dataprofiler/profilers/profile_builder.py:768-807, 939-997, 1689-1856, 2146-2297, 2789-3039), serially and with a
worker pool.

Simplifications
* the statistics kept by a column profile are an arbitrary type `σ` with arbitrary, possibly raising operations `Ops`;
* a table is a list of rows with integer labels and texts; row hashes are an arbitrary function of the row;
* the HyperLogLog sketch is an arbitrary type `η`;
* null values per column are an arbitrary predicate on profile index, data index and text, the same for merged columns
  although those are made without an index (the actual predicates, with and without one, are in `Verif.Model.NullMatch`);
* correlation, chi-squared and null replication matrices are treated in their own modules; encodings, file types,
  times and displayed samples are left out.
-/

namespace Verif.Table

open Verif Verif.Schema Verif.Nulls

/-! ## Column profile compilers -/

/-- Operations of the column profile classes, by profile type. -/
structure Ops (σ : Type) where
  /-- the constructor -/
  init : String → Key → Except Err σ
  /-- `update(df_series)` -/
  update : String → σ → List String → Except Err σ
  /-- `__add__` -/
  merge : String → σ → σ → Except Err σ
  /-- initial value of `thread_safe` -/
  safe : String → Bool

/-- A column profile with its `thread_safe` flag. -/
structure Prof (σ : Type) where
  state : σ
  safe : Bool

/-- A column profile compiler: class, column name, profiles by type. -/
structure Compiler (σ : Type) where
  kind : String
  name : Key
  profs : PyDict String (Prof σ)

variable {σ η : Type}

/-- `self._profiles[profile_type].update(df_series)` for the selected profiles, in order. -/
def updateWhere (ops : Ops σ) (vals : List String) (sel : String → Prof σ → Bool) :
    PyDict String (Prof σ) → Except Err (PyDict String (Prof σ))
  | [] => .ok []
  | (t, p) :: rest =>
    if sel t p then
      match ops.update t p.state vals with
      | .error e => .error e
      | .ok s => match updateWhere ops vals sel rest with
        | .error e => .error e
        | .ok rest' => .ok ((t, { p with state := s }) :: rest')
    else match updateWhere ops vals sel rest with
      | .error e => .error e
      | .ok rest' => .ok ((t, p) :: rest')

/-- The single process branch of `update_profile` (column_profile_compilers.py:180-183). -/
def updateSerial (ops : Ops σ) (vals : List String) (c : Compiler σ) : Except Err (Compiler σ) :=
  match updateWhere ops vals (fun _ _ => true) c.profs with
  | .error e => .error e
  | .ok ps => .ok { c with profs := ps }

/-- What the operating system decides about a pool run: which submissions raise, which results are lost on their way
back, and in which order the workers finish. -/
structure Sched (α : Type) where
  refuses : α → Bool
  loses : α → Bool
  order : List α → List α

/-- Result slots filled by the workers in completion order. -/
def slots {α β : Type} [DecidableEq α] (s : Sched α) (task : α → Except Err β) (submitted : List α) :
    PyDict α (Except Err β) :=
  (s.order submitted).foldl (fun d a => PyDict.set d a (if s.loses a then .error .exception else task a)) []

/-- `multi_process_dict[x].get()`. -/
def getSlot {α β : Type} [DecidableEq α] (d : PyDict α (Except Err β)) (a : α) : Except Err β :=
  match PyDict.get? d a with
  | some r => r
  | none => .error .exception

/-- What a worker computes: `update` on a copy of the profile. -/
def profTask (ops : Ops σ) (vals : List String) (ps : PyDict String (Prof σ)) (t : String) : Except Err σ :=
  match PyDict.get? ps t with
  | some p => ops.update t p.state vals
  | none => .error .keyError

/-- Submission: profiles whose submission raises become unsafe (column_profile_compilers.py:190-199). -/
def flagRefused (s : Sched String) (ps : PyDict String (Prof σ)) : PyDict String (Prof σ) :=
  ps.map fun tp => (tp.1, if tp.2.safe && s.refuses tp.1 then { tp.2 with safe := false } else tp.2)

/-- The submitted profile types. -/
def submitted (s : Sched String) (ps : PyDict String (Prof σ)) : List String :=
  (ps.filter fun tp => tp.2.safe && !s.refuses tp.1).map Prod.fst

/-- Collecting a result: replace the profile, or mark it unsafe (column_profile_compilers.py:209-217). -/
def collectOne (sub : List String) (sl : PyDict String (Except Err σ)) (tp : String × Prof σ) : String × Prof σ :=
  if tp.1 ∈ sub then
    match getSlot sl tp.1 with
    | .ok s => (tp.1, { tp.2 with state := s })
    | .error _ => (tp.1, { tp.2 with safe := false })
  else tp

/-- Was the result lost or an exception? -/
def failedSlot (sub : List String) (sl : PyDict String (Except Err σ)) (t : String) : Bool :=
  decide (t ∈ sub) && match getSlot sl t with
    | .ok _ => false
    | .error _ => true

/-- The multiprocess branch of `update_profile` (column_profile_compilers.py:185-222).  Every `update` returns the
profile itself, so a returned `None` does not occur. -/
def updatePool (ops : Ops σ) (s : Sched String) (vals : List String) (c : Compiler σ) : Except Err (Compiler σ) :=
  let sub := submitted s c.profs
  let ps1 := flagRefused s c.profs
  let sl := slots s (profTask ops vals ps1) sub
  match updateWhere ops vals (fun _ p => !p.safe) ps1 with
  | .error e => .error e
  | .ok ps2 =>
    match updateWhere ops vals (fun t _ => failedSlot sub sl t) (ps2.map (collectOne sub sl)) with
    | .error e => .error e
    | .ok ps3 => .ok { c with profs := ps3 }

/-- `update_profile` of a compiler. -/
def updateCompiler (ops : Ops σ) (pool : Option (Sched String)) (vals : List String) (c : Compiler σ) :
    Except Err (Compiler σ) :=
  match pool with
  | none => updateSerial ops vals c
  | some s => updatePool ops s vals c

/-- `_create_profile` without the final update: profiles whose constructor raises are left out with a warning
(column_profile_compilers.py:93-109). -/
def createProfs (ops : Ops σ) (name : Key) (types : List String) : PyDict String (Prof σ) :=
  types.foldl (fun d t => match ops.init t name with
    | .ok s => PyDict.set d t ⟨s, ops.safe t⟩
    | .error _ => d) []

/-- Merging the values of one dictionary with those of the other under the same keys. -/
def mergeDict {α : Type} (f : String → α → α → Except Err α) (d2 : PyDict String α) :
    PyDict String α → Except Err (PyDict String α)
  | [] => .ok []
  | (t, a) :: rest =>
    match PyDict.get? d2 t with
    | none => .error .keyError
    | some b => match f t a b with
      | .error e => .error e
      | .ok r => match mergeDict f d2 rest with
        | .error e => .error e
        | .ok rest' => .ok ((t, r) :: rest')

/-- `set(d1) != set(d2)`. -/
def sameKeys {α β : Type} (d1 : PyDict String α) (d2 : PyDict String β) : Bool :=
  (PyDict.keys d1).all (fun k => PyDict.has d2 k) && (PyDict.keys d2).all (fun k => PyDict.has d1 k)

/-- `__add__` of a profile. -/
def mergeProf (ops : Ops σ) (t : String) (p q : Prof σ) : Except Err (Prof σ) :=
  match ops.merge t p.state q.state with
  | .error e => .error e
  | .ok s => .ok ⟨s, ops.safe t⟩

/-- `BaseCompiler.__add__` (column_profile_compilers.py:114-145). -/
def mergeCompiler (ops : Ops σ) (a b : Compiler σ) : Except Err (Compiler σ) :=
  if a.kind ≠ b.kind then .error .typeError
  else if a.name ≠ b.name then .error .valueError
  else if sameKeys a.profs b.profs = false then .error .valueError
  else match mergeDict (mergeProf ops) b.profs a.profs with
    | .error e => .error e
    | .ok ps => .ok { a with profs := ps }

/-! ## Columns -/

/-- A column profile: name, base statistics, the last index shift and batch size, compilers. -/
structure Col (σ : Type) where
  name : Option Key
  base : ColState
  shift : Option ℤ
  lastBatch : Option ℕ
  compilers : PyDict String (Compiler σ)

/-- A fresh column profile. -/
def Col.new : Col σ := ⟨none, .new, none, none, []⟩

/-- `self._index_shift` after an update of the base statistics (profile_builder.py:446-452). -/
def newShift (old : Option ℤ) (mine theirs : Option (ℤ × ℤ)) : Option ℤ :=
  if overlap mine theirs then some (shiftOf mine theirs) else old

/-- The column profile after its base statistics became `s` through `b`. -/
def Col.withBase (c : Col σ) (s : ColState) (b : Base) : Col σ :=
  { c with base := s, shift := newShift c.shift c.base.ids b.ids, lastBatch := some b.sampleSize }

/-- Updating all compilers in turn (profile_builder.py:188-191). -/
def updateCompilers (ops : Ops σ) (pool : Option (Sched String)) (vals : List String) :
    PyDict String (Compiler σ) → Except Err (PyDict String (Compiler σ))
  | [] => .ok []
  | (k, c) :: rest =>
    match updateCompiler ops pool vals c with
    | .error e => .error e
    | .ok c' => match updateCompilers ops pool vals rest with
      | .error e => .error e
      | .ok rest' => .ok ((k, c') :: rest')

/-- The compilers of a new column: which kinds, and the enabled profile types of each (profile_builder.py:164-187). -/
abbrev Kinds := List (String × List String)

/-- The compilers to update: on the first run they are created (profile_builder.py:163-187). -/
def startComps (ops : Ops σ) (kinds : Kinds) (name : Key) (cs : PyDict String (Compiler σ)) :
    PyDict String (Compiler σ) :=
  if cs = [] then kinds.map fun kt => (kt.1, ⟨kt.1, name, createProfs ops name kt.2⟩) else cs

/-- `update_column_profilers` (profile_builder.py:145-191). -/
def updateCol (ops : Ops σ) (kinds : Kinds) (pool : Option (Sched String)) (name : Key) (vals : List String) (c : Col σ) :
    Except Err (Col σ) :=
  if c.name ≠ none ∧ c.name ≠ some name then .error .valueError
  else match updateCompilers ops pool vals (startComps ops kinds name c.compilers) with
    | .error e => .error e
    | .ok cs' => .ok { c with name := some name, compilers := cs' }

/-- `StructuredColProfiler.__add__` (profile_builder.py:193-254). -/
def mergeCol (ops : Ops σ) (a b : Col σ) : Except Err (Col σ) :=
  if a.name ≠ b.name then .error .valueError
  else if sameKeys a.compilers b.compilers = false then .error .valueError
  else match mergeState a.base b.base with
    | .error e => .error e
    | .ok s => match mergeDict (fun _ => mergeCompiler ops) b.compilers a.compilers with
      | .error e => .error e
      | .ok cs => .ok ⟨a.name, s, newShift none a.base.ids b.base.ids, some b.base.sampleSize, cs⟩

/-! ## Tables -/

/-- How rows are hashed. -/
inductive Hashing where
  | full
  | hll (registers seed : ℕ)
  deriving DecidableEq

/-- The row statistics options. -/
structure RowOpts where
  enabled : Bool
  unique : Bool
  nulls : Bool
  hashing : Hashing
  deriving DecidableEq

/-- `hashed_row_object`. -/
inductive Rows (η : Type) where
  | full (hashes : List ℤ)
  | hll (sketch : η)

/-- The HyperLogLog operations. -/
structure HllOps (η : Type) where
  empty : ℕ → ℕ → η
  add : η → ℤ → η
  merge : η → η → η
  card : η → ℕ

/-- A table profile. -/
structure TableProf (σ η : Type) where
  opts : RowOpts
  total : ℕ
  hasNull : ℕ
  isNull : ℕ
  rows : Rows η
  cols : List (Col σ)
  schema : NameMap

/-- The initial `hashed_row_object` (profile_builder.py:1671, 1681-1686). -/
def Rows.new (hll : HllOps η) : Hashing → Rows η
  | .full => .full []
  | .hll r s => .hll (hll.empty r s)

/-- A profile that has seen no data. -/
def TableProf.new (hll : HllOps η) (o : RowOpts) : TableProf σ η := ⟨o, 0, 0, 0, .new hll o.hashing, [], []⟩

/-- A table of data: column names; rows with label and texts. -/
structure Data where
  names : List Key
  rows : List (ℤ × List String)

/-- `data.iloc[:, j]`. -/
def Data.column (d : Data) (j : ℕ) : List Cell := d.rows.map fun r => (r.1, r.2.getD j "")

/-- Everything fixed for a profiler. -/
structure Env (σ η : Type) where
  ops : Ops σ
  hll : HllOps η
  lower : String → String
  /-- is the text null for this profile index and data index? -/
  isNull : ℕ → ℕ → String → Bool
  setOrder : List ℤ → List ℤ
  hash : List String → ℤ
  kinds : Kinds

/-- The arguments of one update, after defaults are filled in, and the shuffle's draws. -/
structure Upd where
  data : Data
  sampleSize : ℕ
  minTrue : ℕ
  draws : ℕ → ℕ

/-- `clean_data_and_get_base_stats` for data column `j` and profile column `p`. -/
def cleanCol (env : Env σ η) (u : Upd) (p j : ℕ) : Except Err (List String × Base) :=
  match tableChunks u.data.rows.length u.sampleSize u.minTrue u.draws with
  | .error e => .error e
  | .ok chunks => clean (env.isNull p j) env.setOrder (u.data.column j) u.sampleSize u.minTrue true chunks

/-- Columns and cleaned values by profile index. -/
structure Phase1 (σ : Type) where
  cols : List (Col σ)
  cleaned : PyDict ℕ (List String)

/-- `self._profile[prof_idx]._update_base_stats(base_stats)` with `clean_sampled_dict[prof_idx] = …`. -/
def useClean (st : Phase1 σ) (p : ℕ) (r : List String × Base) : Except Err (Phase1 σ) :=
  match st.cols[p]? with
  | none => .error .indexError
  | some c => match updateBase c.base r.2 with
    | .error e => .error e
    | .ok b => .ok ⟨st.cols.set p (c.withBase b r.2), PyDict.set st.cleaned p r.1⟩

/-- Profile index of a data column. -/
def target (m : PyDict ℕ ℕ) (j : ℕ) : Except Err ℕ :=
  match PyDict.get? m j with
  | some p => .ok p
  | none => .error .keyError

/-- Cleaning of data column `j`, as a task. -/
def cleanTask (env : Env σ η) (u : Upd) (m : PyDict ℕ ℕ) (j : ℕ) : Except Err (List String × Base) :=
  match target m j with
  | .error e => .error e
  | .ok p => cleanCol env u p j

/-- Cleaning and accounting for one data column in this process (profile_builder.py:2949-2960, 2969-2986). -/
def oneCol (env : Env σ η) (u : Upd) (m : PyDict ℕ ℕ) (st : Phase1 σ) (j : ℕ) : Except Err (Phase1 σ) :=
  match target m j with
  | .error e => .error e
  | .ok p => match cleanCol env u p j with
    | .error e => .error e
    | .ok r => useClean st p r

/-- A loop over data columns. -/
def allCols (env : Env σ η) (u : Upd) (m : PyDict ℕ ℕ) : Phase1 σ → List ℕ → Except Err (Phase1 σ)
  | st, [] => .ok st
  | st, j :: js => match oneCol env u m st j with
    | .error e => .error e
    | .ok st' => allCols env u m st' js

/-- Collecting the results of the pool (profile_builder.py:2926-2936): columns in submission order; those that raise
are noted. -/
def collect (m : PyDict ℕ ℕ) (sl : PyDict ℕ (Except Err (List String × Base))) :
    Phase1 σ → List ℕ → Phase1 σ × List ℕ
  | st, [] => (st, [])
  | st, j :: js =>
    match target m j, getSlot sl j with
    | .ok p, .ok r => match useClean st p r with
      | .ok st' => collect m sl st' js
      | .error _ =>
        let q := collect m sl { st with cleaned := PyDict.set st.cleaned p r.1 } js
        (q.1, j :: q.2)
    | _, _ => let q := collect m sl st js
      (q.1, j :: q.2)

/-- What the system decides about a table update: the pool runs of both phases and the iteration order of the Python set
of failed columns. -/
structure TableSched where
  clean : Sched ℕ
  retry : List ℕ → List ℕ
  profs : Sched String

/-- First phase: null detection in all columns (profile_builder.py:2893-2986). -/
def phase1 (env : Env σ η) (pool : Option TableSched) (u : Upd) (m : PyDict ℕ ℕ) (cols : List (Col σ)) :
    Except Err (Phase1 σ) :=
  let js := List.range u.data.names.length
  match pool with
  | none => allCols env u m ⟨cols, []⟩ js
  | some s =>
    let sub := js.filter fun j => !s.clean.refuses j
    let sl := slots s.clean (cleanTask env u m) sub
    let q := collect m sl ⟨cols, []⟩ sub
    allCols env u m q.1 (s.retry (js.filter (fun j => s.clean.refuses j) ++ q.2))

/-- Second phase: the column profiles (profile_builder.py:2999-3002), `src` being the name of the data column. -/
def phase2 (env : Env σ η) (pool : Option (Sched String)) (src : ℕ → Option Key) (cleaned : PyDict ℕ (List String)) :
    List (Col σ) → List ℕ → Except Err (List (Col σ))
  | cols, [] => .ok cols
  | cols, p :: ps =>
    match cols[p]?, PyDict.get? cleaned p, src p with
    | some c, some vals, some name =>
      match updateCol env.ops env.kinds pool name vals c with
      | .error e => .error e
      | .ok c' => phase2 env pool src cleaned (cols.set p c') ps
    | _, _, _ => .error .keyError

/-- The name of the data column feeding a profile column. -/
def sourceName (d : Data) (m : PyDict ℕ ℕ) (p : ℕ) : Option Key :=
  (m.find? fun jp => jp.2 = p).bind fun jp => d.names[jp.1]?

/-- All row indices where the column is null: `set.union(*null_types_index.values())` (profile_builder.py:2256-2258). -/
def nullIds (c : ColState) : List ℤ := (PyDict.values c.index).foldl unionSet []

/-- Intersection and union over the columns (profile_builder.py:2277-2287). -/
def nullRows : List (List ℤ) → List ℤ × List ℤ
  | [] => ([], [])
  | x :: xs => xs.foldl (fun q ids => (q.1.filter (· ∈ ids), unionSet q.2 ids)) (x, x)

/-- `_min_sampled_from_batch` (profile_builder.py:1963-1972). -/
def minSampledFromBatch (cols : List (Col σ)) : ℕ :=
  match cols.filterMap (·.lastBatch) with
  | [] => 0
  | n :: ns => ns.foldl min n

/-- The null rows of a column counted by the row statistics: all of them, or only those in the given labels, shifted
(profile_builder.py:2254-2275). -/
def countedNulls (labels : Option (List ℤ)) (c : Col σ) : List ℤ :=
  match labels with
  | none => nullIds c.base
  | some ls => match c.shift with
    | none => (nullIds c.base).filter (· ∈ ls)
    | some k => (nullIds c.base).filter (· ∈ ls.map (· + k))

/-- `data.index[sample_ids[:self._min_sampled_from_batch]]`, only with a minimum of true samples
(profile_builder.py:2266-2275, 3028-3032). -/
def sampledLabels (u : Upd) (cols : List (Col σ)) : Option (List ℤ) :=
  if u.minTrue = 0 then none
  else some (((sharedIds u.data.rows.length u.sampleSize u.minTrue u.draws).take (minSampledFromBatch cols)).filterMap
    fun i => (u.data.rows[i]?).map Prod.fst)

/-- `hashed_row_object` after a batch (profile_builder.py:2221-2249). -/
def addHashes (env : Env σ η) (u : Upd) : Rows η → Rows η
  | .full hs => .full (unionSet hs (u.data.rows.map fun r => env.hash r.2))
  | .hll s => .hll ((u.data.rows.map fun r => env.hash r.2).foldl env.hll.add s)

/-- `_update_row_statistics` (profile_builder.py:2202-2297). -/
def rowStats (env : Env σ η) (u : Upd) (t : TableProf σ η) : TableProf σ η :=
  let rows := if t.opts.unique then addHashes env u t.rows else t.rows
  let q := nullRows (t.cols.map (countedNulls (sampledLabels u t.cols)))
  if t.opts.nulls = false then { t with rows := rows }
  else if u.minTrue = 0 then { t with rows := rows, isNull := q.1.length, hasNull := q.2.length }
  else { t with rows := rows, isNull := t.isNull + q.1.length, hasNull := t.hasNull + q.2.length }

/-- `update_profile` and `_update_profile_from_chunk` (profile_builder.py:939-997, 2789-3039). -/
def updateTable (env : Env σ η) (pool : Option TableSched) (u : Upd) (t : TableProf σ η) : Except Err (TableProf σ η) :=
  if u.data.rows = [] then .ok t
  else match getMapping env.lower (schemaOf env.lower u.data.names) t.schema false with
    | .error e => .error e
    | .ok m =>
      let schema := if t.cols = [] then schemaOf env.lower u.data.names else t.schema
      let cols := if t.cols = [] then u.data.names.map fun _ => Col.new else t.cols
      match phase1 env pool u m cols with
      | .error e => .error e
      | .ok st =>
        match phase2 env (pool.map (·.profs)) (sourceName u.data m) st.cleaned st.cols (PyDict.keys st.cleaned) with
        | .error e => .error e
        | .ok cols' =>
          let t' := { t with cols := cols', schema := schema, total := t.total + u.data.rows.length }
          .ok (if t.opts.enabled then rowStats env u t' else t')

/-- `_add_error_checks` (profile_builder.py:1689-1769). -/
def addChecks (env : Env σ η) (a b : TableProf σ η) : Except Err Unit :=
  match getMapping env.lower a.schema b.schema true with
  | .error e => .error e
  | .ok _ =>
    if a.opts.enabled ≠ b.opts.enabled then .error .valueError
    else if a.opts.unique ≠ b.opts.unique then .error .valueError
    else if a.opts.nulls ≠ b.opts.nulls then .error .valueError
    else if a.opts.hashing ≠ b.opts.hashing then .error .valueError
    else .ok ()

/-- Merging the row hashes: the new object and the first operand's object afterwards (profile_builder.py:1792-1811). -/
def mergeRows (hll : HllOps η) (o : RowOpts) (x y : Rows η) : Rows η × Rows η :=
  if o.enabled && o.unique then
    match x, y with
    | .full h1, .full h2 => (.full (unionSet (unionSet [] h1) h2), x)
    | .hll s1, .hll s2 => (.hll (hll.merge s1 s2), .hll (hll.merge s1 s2))
    | _, _ => (Rows.new hll o.hashing, x)
  else (Rows.new hll o.hashing, x)

/-- Merging the columns (profile_builder.py:1816-1822). -/
def mergeCols (ops : Ops σ) (m : PyDict ℕ ℕ) (bcols : List (Col σ)) : ℕ → List (Col σ) → Except Err (List (Col σ))
  | _, [] => .ok []
  | i, c :: cs =>
    match target m i with
    | .error e => .error e
    | .ok j => match bcols[j]? with
      | none => .error .indexError
      | some d => match mergeCol ops c d with
        | .error e => .error e
        | .ok r => match mergeCols ops m bcols (i + 1) cs with
          | .error e => .error e
          | .ok rs => .ok (r :: rs)

/-- `__add__` (profile_builder.py:768-807, 1771-1856): the result, and the first operand afterwards. -/
def mergeTable (env : Env σ η) (a b : TableProf σ η) : Except Err (TableProf σ η) × TableProf σ η :=
  match addChecks env a b with
  | .error e => (.error e, a)
  | .ok () =>
    let q := mergeRows env.hll a.opts a.rows b.rows
    let a' := { a with rows := q.2 }
    match getMapping env.lower a.schema b.schema false with
    | .error e => (.error e, a')
    | .ok m => match mergeCols env.ops m b.cols 0 a.cols with
      | .error e => (.error e, a')
      | .ok cs =>
        (.ok ⟨a.opts, a.total + b.total, if a.opts.enabled then a.hasNull + b.hasNull else 0,
          if a.opts.enabled then a.isNull + b.isNull else 0, q.1, cs, a.schema⟩, a')

/-- `_get_unique_row_ratio` (profile_builder.py:2146-2159). -/
def uniqueRatio (hll : HllOps η) (t : TableProf σ η) : Option ℚ :=
  if t.opts.enabled = false ∨ t.opts.unique = false then none
  else if t.total = 0 then some 0
  else match t.rows with
    | .full hs => some (hs.length / t.total)
    | .hll s => some (hll.card s / t.total)

/-- `_get_duplicate_row_count` (profile_builder.py:2185-2199). -/
def duplicates (hll : HllOps η) (t : TableProf σ η) : Option ℤ :=
  if t.opts.enabled = false ∨ t.opts.unique = false then none
  else match t.rows with
    | .full hs => some (t.total - hs.length)
    | .hll s => some (max 0 (t.total - hll.card s))

/-- `_min_col_samples_used` (profile_builder.py:1953-1961). -/
def minColSamples (t : TableProf σ η) : ℕ :=
  match t.cols with
  | [] => 0
  | c :: cs => cs.foldl (fun m c => min m c.base.sampleSize) c.base.sampleSize

/-- `_get_row_is_null_ratio`, `_get_row_has_null_ratio` (profile_builder.py:2161-2183). -/
def nullRatio (count : ℕ) (t : TableProf σ η) : Option ℚ :=
  if t.opts.enabled = false ∨ t.opts.nulls = false then none
  else if minColSamples t = 0 then some 0
  else some (count / minColSamples t)

end Verif.Table
