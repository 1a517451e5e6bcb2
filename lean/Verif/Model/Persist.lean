import Verif.Model.Basic
import Verif.Model.PyDict
import Verif.Model.Schema

/-!
# Saving and loading profilers

Models `_remove_data_labelers`, `_restore_data_labelers`, `_pkl_save_helper`, `_json_save_helper`,
`load`, the two `save` methods and the `load_from_dict` of structured profilers
(dataprofiler/profilers/profile_builder.py:891-921, 999-1232, 1594-1622, 2111-2144, 3041-3072), the
encoder (json_encoder.py:22-72) and the parts of a structured report read from the saved attributes
(profile_builder.py:2054-2108).

Attribute values the code only carries around are of an arbitrary type `A`; pickling and JSON keep
them.  Data labelers are of an arbitrary type `L`.  A column is its data label compiler and an
arbitrary rest.  Disk contents are what was dumped.  Dictionary keys that are neither strings nor
integers are not modelled.
-/

namespace Verif.Persist

open Verif
open Verif.Schema (Key)

variable {L A : Type}

/-- The data labeler options and what else the options hold: whether null replication metrics are
enabled, the null values of individual columns and the rest. -/
structure Opts (L A : Type) where
  enabled : Bool
  object : Option L
  dirpath : Option String
  nullRep : Bool
  columnNull : PyDict Key A
  rest : A
  deriving DecidableEq

/-- Where a data labeler may sit in a profile: no compiler, a compiler without a data labeler profile,
or a compiler with one and its labeler (`None` possible). -/
inductive Slot (L : Type) where
  | absent
  | bare
  | labelled (l : Option L)
  deriving DecidableEq

/-- Which profiler. -/
inductive Kind where
  | structured
  | unstructured
  deriving DecidableEq

/-! ### Taking the data labelers out and putting them back -/

/-- The loop of `_remove_data_labelers` (profile_builder.py:1037-1053): the profiles afterwards and the
labeler found or the exception. -/
def removeSlots (repl : L) (use : Bool) : Option L → List (Slot L) → List (Slot L) × Except Err (Option L)
  | found, [] => ([], .ok found)
  | found, .absent :: rest =>
    let r := removeSlots repl use found rest
    (.absent :: r.1, r.2)
  | found, .bare :: rest =>
    if use ∧ found.isNone then (.bare :: rest, .error .keyError)
    else
      let r := removeSlots repl use found rest
      (.bare :: r.1, r.2)
  | found, .labelled l :: rest =>
    let found' := if use ∧ found.isNone then l else found
    let r := removeSlots repl use found' rest
    (.labelled (some repl) :: r.1, r.2)

/-- `_remove_data_labelers` (profile_builder.py:999-1054). -/
def remove (repl : L) (o : Opts L A) (ss : List (Slot L)) : (Opts L A × List (Slot L)) × Except Err (Option L) :=
  let found := if o.enabled then o.object else none
  let o' := if o.enabled ∧ o.object.isSome then { o with object := some repl } else o
  let r := removeSlots repl o.enabled found ss
  ((o', r.1), r.2)

/-- The loop of `_restore_data_labelers` (profile_builder.py:1093-1110): the profiles afterwards and the
exception. -/
def restoreSlots (kind : Kind) (l : Option L) : List (Slot L) → List (Slot L) × Option Err
  | [] => ([], none)
  | .absent :: rest =>
    (.absent :: rest, some (match kind with | .structured => .keyError | .unstructured => .attributeError))
  | .bare :: rest => (.bare :: rest, some .keyError)
  | .labelled _ :: rest =>
    let r := restoreSlots kind l rest
    (.labelled l :: r.1, r.2)

/-- `_restore_data_labelers` (profile_builder.py:1056-1110). `mk` is `DataLabeler(...)` for a
directory. `warn_on_profile` raises a `ValueError` again (profiler_utils.py:159-160). -/
def restore (mk : Option String → Except Err L) (kind : Kind) (given : Option L) (o : Opts L A) (ss : List (Slot L)) :
    (Opts L A × List (Slot L)) × Option Err :=
  if o.enabled then
    let made := match given with
      | some l => Except.ok l
      | none => mk o.dirpath
    match made with
    | .ok l =>
      let r := restoreSlots kind (some l) ss
      (({ o with object := some l }, r.1), r.2)
    | .error .valueError => ((o, ss), some .valueError)
    | .error _ =>
      let r := restoreSlots kind none ss
      (({ o with enabled := false, object := none }, r.1), r.2)
  else ((o, ss), none)

/-! ### Structured profilers -/

/-- A column. -/
structure Col (L A : Type) where
  slot : Slot L
  rest : A
  deriving DecidableEq

/-- `hashed_row_object`: row hashes, or a HyperLogLog sketch. -/
inductive Rows (A : Type) where
  | hashes (d : PyDict Key A)
  | hll (a : A)
  deriving DecidableEq

/-- The attributes of a `StructuredProfiler` (profile_builder.py:722-734, 1668-1678). -/
structure Prof (L A : Type) where
  encoding : A
  fileType : A
  samplesPerUpdate : A
  minTrueSamples : A
  totalSamples : A
  times : A
  samplingRatio : A
  minSampleSize : A
  rowHasNull : A
  rowIsNull : A
  rows : Rows A
  names : PyDict Key (List ℕ)
  correlation : A
  chi2 : A
  nullRep : Option (PyDict Key A)
  options : Opts L A
  columns : List (Col L A)
  deriving DecidableEq

/-- The dictionary pickled by `save` (profile_builder.py:3052-3066). -/
structure Pickle (L A : Type) where
  totalSamples : A
  encoding : A
  fileType : A
  rowHasNull : A
  rowIsNull : A
  rows : Rows A
  samplesPerUpdate : A
  minTrueSamples : A
  options : Opts L A
  chi2 : A
  columns : List (Col L A)
  names : PyDict Key (List ℕ)
  times : A
  deriving DecidableEq

/-- Put the labelers of a list into the columns. -/
def withSlots (cols : List (Col L A)) (ss : List (Slot L)) : List (Col L A) :=
  List.zipWith (fun c s => { c with slot := s }) cols ss

/-- Set options and labelers of a profiler. -/
def withLabelers (p : Prof L A) (x : Opts L A × List (Slot L)) : Prof L A :=
  { p with options := x.1, columns := withSlots p.columns x.2 }

/-- The dictionary of `save`: it refers to the options and columns, so it holds them as they are when
pickled. -/
def dump (p : Prof L A) : Pickle L A where
  totalSamples := p.totalSamples
  encoding := p.encoding
  fileType := p.fileType
  rowHasNull := p.rowHasNull
  rowIsNull := p.rowIsNull
  rows := p.rows
  samplesPerUpdate := p.samplesPerUpdate
  minTrueSamples := p.minTrueSamples
  options := p.options
  chi2 := p.chi2
  columns := p.columns
  names := p.names
  times := p.times

/-- `StructuredProfiler.save` with the pickle method (profile_builder.py:3050-3067, 1112-1139).
`written` is the outcome of opening and writing the file. -/
def savePickle (mk : Option String → Except Err L) (repl : L) (written : Option Err) (p : Prof L A) :
    Prof L A × Except Err (Pickle L A) :=
  let r := remove repl p.options (p.columns.map (·.slot))
  let p1 := withLabelers p r.1
  match r.2 with
  | .error e => (p1, .error e)
  | .ok found =>
    match written with
    | some e => (p1, .error e)
    | none =>
      let q := restore mk .structured found p1.options (p1.columns.map (·.slot))
      let p2 := withLabelers p1 q.1
      match q.2 with
      | some e => (p2, .error e)
      | none => (p2, .ok (dump p1))

/-- A profiler constructed by `load` before the attributes are set (profile_builder.py:1221-1223). -/
def loadPickle (mk : Option String → Except Err L) (fresh : Prof L A) (f : Pickle L A) : Prof L A × Option Err :=
  let p : Prof L A :=
    { fresh with
      totalSamples := f.totalSamples, encoding := f.encoding, fileType := f.fileType, rowHasNull := f.rowHasNull,
      rowIsNull := f.rowIsNull, rows := f.rows, samplesPerUpdate := f.samplesPerUpdate,
      minTrueSamples := f.minTrueSamples, options := f.options, chi2 := f.chi2, columns := f.columns, names := f.names,
      times := f.times }
  let q := restore mk .structured none p.options (p.columns.map (·.slot))
  (withLabelers p q.1, q.2)

/-! ### JSON -/

/-- The key of a JSON object for a dictionary key: integers are written as strings. -/
def jsonKey (fmt : ℤ → String) : Key → String
  | .str s => s
  | .int n => fmt n

/-- A dictionary after `json.dump` and `json.load`: string keys, the last of equal keys winning. -/
def jsonDict {B : Type} (fmt : ℤ → String) (d : PyDict Key B) : PyDict String B :=
  d.foldl (fun acc kv => PyDict.set acc (jsonKey fmt kv.1) kv.2) []

/-- Keep the string keys. -/
def strKeys {B : Type} (d : PyDict String B) : PyDict Key B := d.map fun kv => (.str kv.1, kv.2)

/-- One item of `{int(k): v for k, v in d.items()}`; `parse` is Python's `int` of a string. -/
def intKeyStep {B : Type} (parse : String → Option ℤ) (acc : Except Err (PyDict Key B)) (kv : String × B) :
    Except Err (PyDict Key B) :=
  match acc with
  | .error e => .error e
  | .ok a =>
    match parse kv.1 with
    | none => .error .valueError
    | some n => .ok (PyDict.set a (.int n) kv.2)

/-- `{int(k): v for k, v in d.items()}` (profile_builder.py:2131-2140). -/
def intKeys {B : Type} (parse : String → Option ℤ) (d : PyDict String B) : Except Err (PyDict Key B) :=
  d.foldl (intKeyStep parse) (.ok [])

/-- `_col_name_to_idx` after loading (profile_builder.py:2131-2136). -/
def loadNames {B : Type} (parse : String → Option ℤ) (d : PyDict String B) : PyDict Key B :=
  match intKeys parse d with
  | .ok r => r
  | .error _ => strKeys d

/-- The encoder on a labeler (json_encoder.py:56-66): its location in the library, or an exception. -/
def encodeLabeler (loc : L → Option String) (l : L) : Except Err String :=
  match loc l with
  | none => .error .valueError
  | some s => .ok s

/-- A labeler written and read again: `from_library` is looked up (json_encoder.py:56-66,
profiler_utils.py:853-909). -/
def jsonLabeler (loc : L → Option String) (library : String → Except Err L) : Option L → Except Err (Option L)
  | none => .ok none
  | some l =>
    match encodeLabeler loc l with
    | .error e => .error e
    | .ok s => (library s).map some

/-- A column written and read again (profile_builder.py:397-424, column_profile_compilers.py:225-253,
data_labeler_column_profile.py:311-345). -/
def jsonCol (loc : L → Option String) (library : String → Except Err L) (c : Col L A) : Except Err (Col L A) :=
  match c.slot with
  | .absent => .ok c
  | .bare => .ok c
  | .labelled l => (jsonLabeler loc library l).map fun l' => { c with slot := .labelled l' }

/-- Options written and read again (profiler_options.py:151-170, 1307-1337): the keys of the dictionary
of column null values stay strings. -/
def jsonOpts (fmt : ℤ → String) (loc : L → Option String) (library : String → Except Err L) (o : Opts L A) :
    Except Err (Opts L A) :=
  (jsonLabeler loc library o.object).map fun l =>
    { o with object := l, columnNull := strKeys (jsonDict fmt o.columnNull) }

/-- The columns, one after the other. -/
def jsonCols (loc : L → Option String) (library : String → Except Err L) : List (Col L A) → Except Err (List (Col L A))
  | [] => .ok []
  | c :: cs =>
    match jsonCol loc library c with
    | .error e => .error e
    | .ok c' =>
      match jsonCols loc library cs with
      | .error e => .error e
      | .ok cs' => .ok (c' :: cs')

/-- `save` with the JSON method followed by `load` (profile_builder.py:1141-1157, 2111-2144, 891-921):
the loaded profiler, or the exception of writing or reading. A HyperLogLog cannot be encoded. -/
def jsonRound (fmt : ℤ → String) (parse : String → Option ℤ) (loc : L → Option String) (library : String → Except Err L)
    (p : Prof L A) : Except Err (Prof L A) :=
  match p.rows with
  | .hll _ => .error .typeError
  | .hashes d =>
    match intKeys parse (jsonDict fmt d) with
    | .error e => .error e
    | .ok rows =>
      match jsonOpts fmt loc library p.options with
      | .error e => .error e
      | .ok o =>
        match jsonCols loc library p.columns with
        | .error e => .error e
        | .ok cols =>
          .ok { p with
            rows := .hashes rows, names := loadNames parse (jsonDict fmt p.names),
            nullRep := p.nullRep.map fun d => strKeys (jsonDict fmt d), options := o, columns := cols }

/-! ### The report -/

/-- What a structured report is made from (profile_builder.py:2068-2108): the global values, the
columns without their labelers, and the null replication metrics of each column. -/
structure Report (A : Type) where
  totalSamples : A
  rowHasNull : A
  rowIsNull : A
  rows : Rows A
  fileType : A
  encoding : A
  correlation : A
  chi2 : A
  times : A
  options : A
  columns : List A
  metrics : List (Option A)
  deriving DecidableEq

/-- The metrics of the columns `i`, `i+1`, … (profile_builder.py:2100-2106): `i in None` raises. -/
def metrics (d : Option (PyDict Key A)) : ℕ → List (Col L A) → Except Err (List (Option A))
  | _, [] => .ok []
  | i, _ :: cs =>
    match d with
    | none => .error .typeError
    | some m =>
      match metrics d (i + 1) cs with
      | .error e => .error e
      | .ok r => .ok (PyDict.get? m (.int i) :: r)

/-- `report` (profile_builder.py:2054-2108), as far as it depends on saved attributes. -/
def report (p : Prof L A) : Except Err (Report A) :=
  (if p.options.nullRep then metrics p.nullRep 0 p.columns else .ok (p.columns.map fun _ => none)).map fun ms =>
    { totalSamples := p.totalSamples, rowHasNull := p.rowHasNull, rowIsNull := p.rowIsNull, rows := p.rows,
      fileType := p.fileType, encoding := p.encoding, correlation := p.correlation, chi2 := p.chi2, times := p.times,
      options := p.options.rest, columns := p.columns.map (·.rest), metrics := ms }

/-! ### Unstructured profilers -/

/-- An `UnstructuredProfiler`: the attributes saved (`sample`, counts, times, …), those not saved, the
options and the single compiler (profile_builder.py:1275-1283, 722-734). -/
structure UProf (L A : Type) where
  saved : A
  samplingRatio : A
  minSampleSize : A
  options : Opts L A
  slot : Slot L
  profile : A
  deriving DecidableEq

/-- The dictionary pickled by `save` (profile_builder.py:1606-1618). -/
structure UPickle (L A : Type) where
  saved : A
  options : Opts L A
  slot : Slot L
  profile : A
  deriving DecidableEq

/-- Set options and labeler of an unstructured profiler. -/
def uWith (p : UProf L A) (x : Opts L A × List (Slot L)) : UProf L A :=
  { p with options := x.1, slot := x.2.headD .absent }

/-- `UnstructuredProfiler.save` with the pickle method (profile_builder.py:1594-1619, 1112-1139). -/
def uSave (mk : Option String → Except Err L) (repl : L) (written : Option Err) (p : UProf L A) :
    UProf L A × Except Err (UPickle L A) :=
  let r := remove repl p.options [p.slot]
  let p1 := uWith p r.1
  match r.2 with
  | .error e => (p1, .error e)
  | .ok found =>
    match written with
    | some e => (p1, .error e)
    | none =>
      let q := restore mk .unstructured found p1.options [p1.slot]
      let p2 := uWith p1 q.1
      match q.2 with
      | some e => (p2, .error e)
      | none => (p2, .ok ⟨p1.saved, p1.options, p1.slot, p1.profile⟩)

/-- `load` of an unstructured pickle (profile_builder.py:1221-1232). -/
def uLoad (mk : Option String → Except Err L) (fresh : UProf L A) (f : UPickle L A) : UProf L A × Option Err :=
  let p : UProf L A := { fresh with saved := f.saved, options := f.options, slot := f.slot, profile := f.profile }
  let q := restore mk .unstructured none p.options [p.slot]
  (uWith p q.1, q.2)

/-! ### Choosing the format -/

/-- The classes a pickle may name. -/
inductive PickleClass where
  | structured
  | unstructured
  | other
  | missing (hasEmptyLines : Bool)
  deriving DecidableEq

/-- What `load` does with a file (profile_builder.py:1183-1219): which loader is run, or the exception.
`unpickle` and `json` say whether the file can be read that way; an exception while unpickling is
discarded by the `return` inside `finally`. -/
inductive Loaded where
  | json
  | pickle (k : Kind)
  deriving DecidableEq

def chooseLoader (lowered : Option String) (unpickle : Except Err PickleClass) (json : Except Err Unit) :
    Except Err Loaded :=
  if lowered ≠ none ∧ lowered ≠ some "pickle" ∧ lowered ≠ some "json" then .error .valueError
  else
    let data : Option PickleClass :=
      if lowered = none ∨ lowered = some "pickle" then
        match unpickle with
        | .ok c => some c
        | .error _ => none
      else none
    match data with
    | none => json.map fun _ => .json
    | some .structured => .ok (.pickle .structured)
    | some .unstructured => .ok (.pickle .unstructured)
    | some (.missing b) => .ok (.pickle (if b then .unstructured else .structured))
    | some .other => .error .valueError

end Verif.Persist
