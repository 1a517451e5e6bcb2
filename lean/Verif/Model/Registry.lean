import Verif.Model.Basic
import Mathlib.Data.Nat.Notation

/-!
# Registered classes, plugins and presets

Models how classes of models and processors are registered and found by name (labelers/base_model.py:15-29, 35, 62-65, 89-93, 151-159;
labelers/data_processing.py:25-59), how a saved labeler finds its classes (labelers/base_data_labeler.py:515-600), plugins
(plugins/decorators.py:1-27, plugins/__init__.py:7-38) and the choice of a preset (profilers/profiler_options.py:1700-1716).

Simplifications
* a class is its name, whether it is abstract, whether its metaclass registers it, and an identity;
* executing a module defines its class and nothing else; `ml` says whether the libraries of the optional requirements can be imported;
* `lower` is `str.lower`; what plugins do is not modelled.
-/

namespace Verif.Registry

open Verif

/-- A class. `auto`: its metaclass is `AutoSubRegistrationMeta` (or it inherits that metaclass). -/
structure Cls where
  name : String
  abstract : Bool
  auto : Bool
  ident : ℕ
  deriving DecidableEq, Repr

/-- The modules of the package that define models. -/
inductive Mod where
  | cnn | columnName | regex | charLoad
  deriving DecidableEq, Repr

/-- The class a module defines (character_level_cnn_model.py:204, column_name_model.py:27, regex_model.py:20, char_load_tf_model.py:27). -/
def Mod.cls : Mod → Cls
  | .cnn => ⟨"CharacterLevelCnnModel", false, true, 0⟩
  | .columnName => ⟨"ColumnNameModel", false, true, 1⟩
  | .regex => ⟨"RegexModel", false, true, 2⟩
  | .charLoad => ⟨"CharLoadTFModel", false, true, 3⟩

/-- The module imports tensorflow at its top (character_level_cnn_model.py:12, char_load_tf_model.py:13). -/
def Mod.needsMl : Mod → Bool
  | .cnn | .charLoad => true
  | .columnName | .regex => false

/-- The processors of data_processing.py in the order of the file (204, 256, 749, 884, 1312, 1523, 1868, 2076, 2198). -/
def packageProcs : List Cls :=
  [⟨"DirectPassPreprocessor", false, true, 0⟩, ⟨"CharPreprocessor", false, true, 1⟩, ⟨"CharEncodedPreprocessor", false, true, 2⟩,
    ⟨"CharPostprocessor", false, true, 3⟩, ⟨"StructCharPreprocessor", false, true, 4⟩, ⟨"StructCharPostprocessor", false, true, 5⟩,
    ⟨"RegexPostProcessor", false, true, 6⟩, ⟨"StructRegexPostProcessor", false, true, 7⟩,
    ⟨"ColumnNameModelPostprocessor", false, true, 8⟩]

/-- `d[k] = v`: the position of a key does not change. -/
def put {α : Type} (d : List (String × α)) (k : String) (v : α) : List (String × α) :=
  match d with
  | [] => [(k, v)]
  | (k', v') :: d => if k' = k then (k, v) :: d else (k', v') :: put d k v

/-- `d.get(k)`. -/
def get {α : Type} (d : List (String × α)) (k : String) : Option α :=
  match d with
  | [] => none
  | (k', v) :: d => if k' = k then some v else get d k

/-- The process. -/
structure State (F : Type) where
  imported : List Mod
  models : List (String × Cls)
  procs : List (String × Cls)
  plugins : List (String × List (String × F))

variable {F : Type}

/-- `BaseModel._register_subclass`, reached by `__init_subclass__` for every subclass (base_model.py:62-65, 89-93). -/
def defineModel (lower : String → String) (s : State F) (c : Cls) : State F :=
  if c.abstract then s else { s with models := put s.models (lower c.name) c }

/-- `BaseDataProcessor._register_subclass`, reached by the metaclass only (data_processing.py:28-34, 48-52). -/
def defineProc (lower : String → String) (s : State F) (c : Cls) : State F :=
  if c.auto && !c.abstract then { s with procs := put s.procs (lower c.name) c } else s

/-- `import`: a module is executed once. -/
def importMod (lower : String → String) (ml : Bool) (s : State F) (m : Mod) : Except Err (State F) :=
  if m ∈ s.imported then .ok s
  else if m.needsMl && !ml then .error .exception
  else .ok (defineModel lower { s with imported := s.imported ++ [m] } m.cls)

/-- After `import dataprofiler`: no module with a model is imported (dataprofiler/__init__.py:2-21, labelers/__init__.py:31-42,
labelers/data_labelers.py:4-12, labelers/base_data_labeler.py:4-18). -/
def start (lower : String → String) : State F := packageProcs.foldl (defineProc lower) ⟨[], [], [], []⟩

/-- `BaseModel.get_class` (base_model.py:151-159): the state afterwards and the class. An import that fails leaves what was imported
before it. -/
def getModel (lower : String → String) (ml : Bool) (s : State F) (name : String) : State F × Except Err (Option Cls) :=
  match importMod lower ml s .cnn with
  | .error e => (s, .error e)
  | .ok s1 =>
    match importMod lower ml s1 .columnName with
    | .error e => (s1, .error e)
    | .ok s2 =>
      match importMod lower ml s2 .regex with
      | .error e => (s2, .error e)
      | .ok s3 => (s3, .ok (get s3.models (lower name)))

/-- `BaseDataProcessor.get_class` (data_processing.py:54-59). -/
def getProc (lower : String → String) (s : State F) (name : String) : Option Cls := get s.procs (lower name)

/-- The class a labeler was saved with (`__class__.__name__`) when it is loaded (base_data_labeler.py:515-539). -/
def loadModel (lower : String → String) (ml : Bool) (s : State F) (name : String) : State F × Except Err Cls :=
  match getModel lower ml s name with
  | (s', .error e) => (s', .error e)
  | (s', .ok none) => (s', .error .valueError)
  | (s', .ok (some c)) => (s', .ok c)

/-- The same for processors (base_data_labeler.py:541-600). -/
def loadProc (lower : String → String) (s : State F) (name : String) : Except Err Cls :=
  match getProc lower s name with
  | none => .error .valueError
  | some c => .ok c

/-- `plugin_decorator(typ, name)(fn)` (decorators.py:8-27): `plugins_dict` makes an empty dictionary for a new type. -/
def plugin (s : State F) (typ name : String) (f : F) : State F :=
  { s with plugins := put s.plugins typ (put ((get s.plugins typ).getD []) name f) }

/-- `get_plugins` (plugins/__init__.py:31-38): `get` makes nothing. -/
def getPlugins (s : State F) (typ : String) : Option (List (String × F)) := get s.plugins typ

/-- What can happen in a process. -/
inductive Op (F : Type) where
  | importMod (m : Mod)
  | model (c : Cls)
  | proc (c : Cls)
  | lookup (name : String)
  | plugin (typ name : String) (f : F)

/-- One step; an exception is caught by the user. -/
def step (lower : String → String) (ml : Bool) (s : State F) : Op F → State F
  | .importMod m => match importMod lower ml s m with | .ok s' => s' | .error _ => s
  | .model c => defineModel lower s c
  | .proc c => defineProc lower s c
  | .lookup n => (getModel lower ml s n).1
  | .plugin t n f => plugin s t n f

/-- A process. -/
def run (lower : String → String) (ml : Bool) (ops : List (Op F)) : State F := ops.foldl (step lower ml) (start lower)

/-- What `ProfilerOptions(presets=…)` does after the defaults are made. -/
inductive Action (F : Type) where
  | nothing
  | complete
  | dataTypes
  | numericStatsDisabled
  | lowerMemorySketching
  | plugin (f : F)
  deriving DecidableEq

/-- `ProfilerOptions.__init__` (profiler_options.py:1700-1716). -/
def choosePreset (s : State F) (preset : Option String) : Except Err (Action F) :=
  match preset with
  | none => .ok .nothing
  | some p =>
    if p = "" then .ok .nothing
    else if p = "complete" then .ok .complete
    else if p = "data_types" then .ok .dataTypes
    else if p = "numeric_stats_disabled" then .ok .numericStatsDisabled
    else if p = "lower_memory_sketching" then .ok .lowerMemorySketching
    else
      match getPlugins s "option_preset" with
      | none => .error .valueError
      | some d =>
        match get d p with
        | none => .error .valueError
        | some f => .ok (.plugin f)

/-- An entry of the folder of plugins: its name, and its files if it is a folder. -/
structure Entry where
  name : String
  files : Option (List String)

/-- `load_plugins` (plugins/__init__.py:7-28): the files it executes. -/
def loadPlugins (entries : List Entry) : List (String × String) :=
  entries.flatMap fun e =>
    match e.files with
    | none => []
    | some fs => if e.name = "__pycache__" then [] else (fs.filter fun f => ".py".toList.isSuffixOf f.toList).map fun f => (e.name, f)

end Verif.Registry
