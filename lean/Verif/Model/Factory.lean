import Mathlib.Data.Nat.Notation
import Mathlib.Data.Int.Notation
import Verif.Model.Basic

/-!
# Making profilers and labelers

Models `Profiler.__new__` (dataprofiler/profilers/profile_builder.py:3078-3144), the constructors of the three profilers as
far as data, options and the labeler are concerned (profile_builder.py:686-758, 1242-1281, 1632-1687,
dataprofiler/profilers/graph_profiler.py:30-66), `BaseProfiler.update_profile` (profile_builder.py:939-997),
`GraphProfiler.update` (graph_profiler.py:195-224), `DataLabeler.__new__`, `load_from_library` and `load_with_components`
(dataprofiler/labelers/data_labelers.py:97-202, base_data_labeler.py:28-55, 631-642, 660-682, 886-919).

Options are objects shared by whoever holds them: they live on a heap and are known by their place.

Simplifications
* of the options, the ones of the labeler are kept apart (`data_labeler.is_enabled`, `data_labeler_dirpath`,
  `data_labeler_object`); everything else is an arbitrary value;
* whether options are valid (`validate`), whether and what a labeler loads from a directory, the sample size chosen, and what
  one chunk of data does to a profile are arbitrary functions;
* times, warnings and memory are left out.
-/

namespace Verif.Factory

open Verif

/-- The three kinds of profilers. -/
inductive Kind where
  | graph
  | structured
  | unstructured
  deriving DecidableEq, Repr

/-- The Python type of data, as far as the code looks at it. -/
inductive Form where
  | text
  | list
  | series
  | frame
  | graph
  | other
  deriving DecidableEq, Repr

/-- Data with its length. -/
structure Raw (α : Type) where
  form : Form
  len : ℕ
  content : α

/-- The readers: of graphs, of text, and all others. -/
inductive Reader where
  | graph
  | text
  | table
  deriving DecidableEq, Repr

/-- What can be given as data: `None`, a value, or a reader with its flag `is_structured`, its encoding and data type. -/
inductive Data (α : Type) where
  | missing
  | raw (r : Raw α)
  | reader (k : Reader) (structured : Bool) (encoding : Option String) (type : String) (r : Raw α)

/-- The argument `profiler_type`: absent or a text. -/
abbrev TypeArg := Option String

/-- The inference of the type (profile_builder.py:3102-3122). -/
def infer {α : Type} : Data α → Except Err String
  | .reader .graph _ _ _ _ => .ok "graph"
  | .raw ⟨.graph, _, _⟩ => .ok "graph"
  | .reader _ s _ _ _ => if s then .ok "structured" else .ok "unstructured"
  | .raw ⟨.text, _, _⟩ => .ok "unstructured"
  | .raw ⟨.list, _, _⟩ => .ok "structured"
  | .raw ⟨.series, _, _⟩ => .ok "structured"
  | .raw ⟨.frame, _, _⟩ => .ok "structured"
  | .raw ⟨.other, _, _⟩ => .error .valueError
  | .missing => .error .valueError

/-- The comparison of the type (profile_builder.py:3125-3144). -/
def kindOf (t : String) : Except Err Kind :=
  if t = "graph" then .ok .graph
  else if t = "structured" then .ok .structured
  else if t = "unstructured" then .ok .unstructured
  else .error .valueError

/-- The options of one profiler: the ones of the labeler, and the rest. -/
structure Opts (L ρ : Type) where
  enabled : Bool
  dirpath : Option String
  object : Option L
  rest : ρ

/-- The options on the heap. -/
abbrev Heap (L ρ : Type) := List (Opts L ρ)

/-- The argument `options`: absent, a `ProfilerOptions` (its two parts), one part, or something else. -/
inductive OptArg where
  | absent
  | full (structured unstructured : ℕ)
  | structured (r : ℕ)
  | unstructured (r : ℕ)
  | other (truth : Bool)

/-- The argument `min_true_samples`. -/
inductive MinTrue where
  | absent
  | int (n : ℤ)
  | other

/-- What the profiler holds besides its options; `body` is everything computed from data. -/
structure Prof (β : Type) where
  kind : Kind
  opts : ℕ
  samplesPerUpdate : Option ℕ
  minTrue : MinTrue
  encoding : Option String
  fileType : Option String
  body : β

/-- The functions which are not modelled. -/
structure Lib (L ρ α β : Type) where
  defaults : Kind → Opts L ρ
  valid : Opts L ρ → Bool
  /-- `DataLabeler(labeler_type=…, dirpath=…)`. -/
  load : Kind → Option String → Except Err L
  fresh : Kind → Opts L ρ → β
  size : Option ℕ → ℕ → ℕ
  chunk : Kind → Opts L ρ → β → Raw α → ℕ → MinTrue → Except Err β
  graphUpdate : β → Raw α → Except Err β
  className : Form → String

variable {L ρ α β : Type}

/-- `if not options: … elif isinstance …` (profile_builder.py:1263-1270, 1653-1660): the place of the options. -/
def resolve (lib : Lib L ρ α β) (k : Kind) (o : OptArg) (h : Heap L ρ) : Except Err (ℕ × Heap L ρ) :=
  match o, k with
  | .absent, _ => .ok (h.length, h ++ [lib.defaults k])
  | .other false, _ => .ok (h.length, h ++ [lib.defaults k])
  | .full s _, .structured => .ok (s, h)
  | .full _ u, .unstructured => .ok (u, h)
  | .structured r, .structured => .ok (r, h)
  | .unstructured r, .unstructured => .ok (r, h)
  | _, _ => .error .valueError

/-- `isinstance(min_true_samples, int)` or `None` (profile_builder.py:708-709, 964-965). -/
def checkMin : MinTrue → Except Err Unit
  | .other => .error .valueError
  | _ => .ok ()

/-- The labeler is loaded, or switched off if that fails (profile_builder.py:739-758). A `ValueError` (that class itself) is raised
again by `warn_on_profile` (profiler_utils.py:143-165), before anything is set. -/
def assignLabeler (lib : Lib L ρ α β) (k : Kind) (o : Opts L ρ) : Except Err (Opts L ρ) :=
  if o.enabled && o.object.isNone then
    match lib.load k o.dirpath with
    | .ok l => .ok { o with object := some l }
    | .error .valueError => .error .valueError
    | .error _ => .ok { o with enabled := false }
  else .ok o

/-- `_allowed_external_data_types` (profile_builder.py:1240, 1630). -/
def allowed : Kind → Form → Bool
  | .structured, f => decide (f = .list ∨ f = .series ∨ f = .frame)
  | .unstructured, f => decide (f = .text ∨ f = .list ∨ f = .series ∨ f = .frame)
  | .graph, _ => false

/-- The data taken apart: encoding, file type and the value (profile_builder.py:967-978). -/
def unwrap (lib : Lib L ρ α β) (k : Kind) : Data α → Except Err (Option String × String × Raw α)
  | .reader _ _ e t r => .ok (e, t, r)
  | .raw r => if allowed k r.form then .ok (none, lib.className r.form, r) else .error .typeError
  | .missing => .error .typeError

/-- `if not min_true_samples: min_true_samples = self._min_true_samples` (profile_builder.py:987-988). -/
def chooseMin : MinTrue → MinTrue → MinTrue
  | .absent, own => own
  | .int 0, own => own
  | given, _ => given

/-- `BaseProfiler.update_profile` (profile_builder.py:939-997) with the options at their present state. -/
def update (lib : Lib L ρ α β) (o : Opts L ρ) (p : Prof β) (d : Data α) (sample : Option ℕ) (m : MinTrue) :
    Except Err (Prof β) := do
  checkMin m
  let (e, t, r) ← unwrap lib p.kind d
  if r.len = 0 then .ok p
  else do
    let n := match sample with
      | some (s + 1) => s + 1
      | _ => lib.size p.samplesPerUpdate r.len
    let b ← lib.chunk p.kind o p.body r n (chooseMin m p.minTrue)
    .ok { p with body := b, encoding := (if e.isSome then e else p.encoding), fileType := some t }

/-- The options at a place. -/
def at? (h : Heap L ρ) (r : ℕ) : Except Err (Opts L ρ) :=
  match h[r]? with
  | some o => .ok o
  | none => .error .keyError

/-- The constructor without the data (profile_builder.py:1263-1277, 1653-1685, 708-758): the profiler and the heap, or the
error and the heap. -/
def construct (lib : Lib L ρ α β) (k : Kind) (d : Data α) (spu : Option ℕ) (m : MinTrue) (o : OptArg) (h : Heap L ρ) :
    Except Err (Prof β) × Heap L ρ :=
  match resolve lib k o h with
  | .error e => (.error e, h)
  | .ok (r, h1) =>
    match k, d with
    | .structured, .reader .text _ _ _ _ => (.error .typeError, h1)
    | _, _ =>
      match checkMin m with
      | .error e => (.error e, h1)
      | .ok _ =>
        match at? h1 r with
        | .error e => (.error e, h1)
        | .ok opts =>
          if lib.valid opts then
            match assignLabeler lib k opts with
            | .error e => (.error e, h1)
            | .ok opts' => (.ok ⟨k, r, spu, m, none, none, lib.fresh k opts'⟩, h1.set r opts')
          else (.error .valueError, h1)

/-- `if data is not None: self.update_profile(data)` (profile_builder.py:1280-1281, 1686-1687). -/
def feed (lib : Lib L ρ α β) (d : Data α) (x : Except Err (Prof β) × Heap L ρ) : Except Err (Prof β) × Heap L ρ :=
  match x, d with
  | (.error e, h), _ => (.error e, h)
  | (.ok p, h), .missing => (.ok p, h)
  | (.ok p, h), d =>
    match at? h p.opts with
    | .error e => (.error e, h)
    | .ok o => (update lib o p d none .absent, h)

/-- `GraphProfiler.update` (graph_profiler.py:195-224); a graph without nodes and edges has length 0. -/
def graphUpdate (lib : Lib L ρ α β) (p : Prof β) : Data α → Except Err (Prof β)
  | .reader .graph _ _ _ r => if r.len = 0 then .ok p else do
      let b ← lib.graphUpdate p.body r
      .ok { p with body := b }
  | .raw ⟨.graph, n, c⟩ => if n = 0 then .ok p else do
      let b ← lib.graphUpdate p.body ⟨.graph, n, c⟩
      .ok { p with body := b }
  | _ => .error .notImplemented

/-- `StructuredProfiler(…)`, `UnstructuredProfiler(…)`, or `GraphProfiler(…)` and its update
(profile_builder.py:3125-3139); the options of a graph profiler are never looked at. -/
def make (lib : Lib L ρ α β) (k : Kind) (d : Data α) (spu : Option ℕ) (m : MinTrue) (o : OptArg) (h : Heap L ρ) :
    Except Err (Prof β) × Heap L ρ :=
  match k with
  | .graph => (graphUpdate lib ⟨.graph, 0, none, .absent, none, none, lib.fresh .graph (lib.defaults .graph)⟩ d, h)
  | k => feed lib d (construct lib k d spu m o h)

/-- `Profiler(data, samples_per_update, min_true_samples, options, profiler_type)` (profile_builder.py:3078-3144). -/
def profiler (lib : Lib L ρ α β) (d : Data α) (spu : Option ℕ) (m : MinTrue) (o : OptArg) (t : TypeArg) (h : Heap L ρ) :
    Except Err (Prof β) × Heap L ρ :=
  match (match t with
    | some t => kindOf t
    | none => (infer d).bind kindOf) with
  | .error e => (.error e, h)
  | .ok k => make lib k d spu m o h

/-- A step of a user: a profiler is made, or options are changed. -/
inductive Step (L ρ α : Type) where
  | make (d : Data α) (spu : Option ℕ) (m : MinTrue) (o : OptArg) (t : TypeArg)
  | change (r : ℕ) (f : Opts L ρ → Opts L ρ)

/-- What a step does to the options. -/
def heapAfter (lib : Lib L ρ α β) (h : Heap L ρ) : Step L ρ α → Heap L ρ
  | .make d spu m o t => (profiler lib d spu m o t h).2
  | .change r f => h.modify r f

/-- The options after a history. -/
def run (lib : Lib L ρ α β) (h : Heap L ρ) (steps : List (Step L ρ α)) : Heap L ρ := steps.foldl (heapAfter lib) h

/-! ## Labelers -/

/-- The classes of labelers. -/
inductive LabelerClass where
  | structured
  | unstructured
  | trainable
  | base
  | custom
  deriving DecidableEq, Repr

/-- `_default_model_loc` of the class chosen by name (data_labelers.py:78-90). -/
def defaultLoc (t : String) : Option (LabelerClass × String) :=
  if t = "structured" then some (.structured, "structured_model")
  else if t = "unstructured" then some (.unstructured, "unstructured_model")
  else none

/-- A labeler as made: its class, the directory it was loaded from (if any) and its parts. -/
structure Made (P : Type) where
  cls : LabelerClass
  dir : String
  parts : P

/-- `DataLabeler(labeler_type, dirpath, trainable=…)` (data_labelers.py:97-131, base_data_labeler.py:28-55): `join` joins a
name to the directory of the library, `read` reads the parts from a directory; a trainable class has no default of its own. -/
def newLabeler {P : Type} (join : String → String) (read : String → Except Err P) (t : String) (dir : Option String)
    (trainable : Bool) : Except Err (Made P) :=
  match defaultLoc t with
  | none => .error .valueError
  | some (c, loc) =>
    let d := dir.getD (join loc)
    (read d).map fun p => ⟨if trainable then .trainable else c, d, p⟩

/-- The loop renaming the two names of types (data_labelers.py:147-149). -/
def libraryName (name : String) : String :=
  let n := if name = "structured" then "structured_model" else name
  if n = "unstructured" then "unstructured_model" else n

/-- `DataLabeler.load_from_library` (data_labelers.py:133-152, base_data_labeler.py:631-642). -/
def fromLibrary {P : Type} (join : String → String) (read : String → Except Err P) (name : String) (trainable : Bool) :
    Except Err (Made P) :=
  (read (join (libraryName name))).map fun p => ⟨if trainable then .trainable else .base, join (libraryName name), p⟩

/-- A part offered: what it is an instance of. -/
structure Part (Q : Type) where
  isPre : Bool
  isModel : Bool
  isPost : Bool
  hasFit : Bool
  value : Q

/-- `load_with_components` (data_labelers.py:173-202, base_data_labeler.py:327-340, 342-355, 358-371, 660-682, 868-919): the
three parts in order, a trainable model needs `fit`. -/
def withComponents {Q : Type} (pre model post : Part Q) (trainable : Bool) : Except Err (Q × Q × Q) :=
  if !pre.isPre then .error .typeError
  else if trainable && !model.hasFit then .error .valueError
  else if !model.isModel then .error .typeError
  else if !post.isPost then .error .typeError
  else .ok (pre.value, model.value, post.value)

end Verif.Factory
