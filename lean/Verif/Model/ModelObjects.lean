import Verif.Model.LabelerDisk
import Verif.Model.Network

/-!
# Models of data labelers as objects

Models how the four classes of models hold their settings: the constructors with the dictionary `parameters` they are given
(dataprofiler/labelers/base_model.py:41-60, regex_model.py:23-68, column_name_model.py:24-51, character_level_cnn_model.py:210-237,
char_load_tf_model.py:31-62), `set_params`, `get_parameters`, `set_label_mapping` and `add_label` (base_model.py:161-252), `__eq__`
(base_model.py:67-88, character_level_cnn_model.py:239-260, char_load_tf_model.py:64-83), and saving and loading of a `CharLoadTFModel`
(char_load_tf_model.py:164-225).

The constructors keep the dictionary itself, not a copy. Dictionaries are therefore objects of a heap, referred to by their position.

Simplifications
* values of parameters cannot be changed in place; they are those of `Model/LabelerDisk`, as are the checks of the other three classes;
* label numbers are natural numbers;
* the network of a `CharLoadTFModel` and Keras' files for it are left out (see `Model/Network` for the network); with the Keras of the
  requirements (3.4) saving a network under the name of a directory is refused, after the two files modelled here were written;
* `model_parameters.pop("model_path")` does not raise, as every `CharLoadTFModel` has this setting.
-/

namespace Verif.ModelObjects

open Verif Verif.LabelerDisk

/-- The classes of models. -/
inductive Cls where
  | known (c : ModelCls)
  | tf
deriving DecidableEq

/-- A model: its class, the object `_parameters`, and `_label_mapping`, which is always a copy. -/
structure Obj where
  cls : Cls
  params : ℕ
  mapping : PyDict String ℕ

/-- All dictionaries and models. -/
structure State where
  dicts : List Params
  models : List Obj

/-- The content of a dictionary. -/
def State.dict (s : State) (r : ℕ) : Params := s.dicts.getD r []

/-- A dictionary gets another content. -/
def State.write (s : State) (r : ℕ) (d : Params) : State := { s with dicts := s.dicts.set r d }

/-- A new dictionary. -/
def State.alloc (s : State) (d : Params) : State × ℕ := ({ s with dicts := s.dicts ++ [d] }, s.dicts.length)

/-- `for key in other: d[key] = other[key]`. -/
def put (d other : Params) : Params := other.foldl (fun d x => PyDict.set d x.1 x.2) d

/-- What the constructors set by `setdefault` (regex_model.py:58-63, column_name_model.py:40-46, character_level_cnn_model.py:227-234,
char_load_tf_model.py:51). -/
def Cls.defaults : Cls → Params
  | .known c => c.defaults
  | .tf => [("default_label", .str "UNKNOWN")]

/-- What they set whatever was given (character_level_cnn_model.py:235, char_load_tf_model.py:52-53). -/
def Cls.forced (path : Val) : Cls → Params
  | .known .cnn => [("pad_label", .str "PAD")]
  | .tf => [("model_path", path), ("pad_label", .str "PAD")]
  | _ => []

/-- The dictionary after the first part of a constructor. -/
def fill (c : Cls) (path : Val) (d : Params) : Params := put (c.defaults.foldl setDefault d) (c.forced path)

/-- One parameter of `CharLoadTFModel._validate_parameters` (char_load_tf_model.py:85-119). -/
def tfOk (k : String) (v : Val) : Bool := decide (k ∈ ["model_path", "default_label", "pad_label"]) && v.isStr

/-- `_validate_parameters`. -/
def check {W : Type} (E : Env W) (c : Cls) (mapping : PyDict String ℕ) (kw : Params) : Except Err Unit :=
  match c with
  | .known c => validate E c mapping kw
  | .tf => if kw.all fun kv => tfOk kv.1 kv.2 then .ok () else .error .valueError

/-- `set_label_mapping` (base_model.py:233-252, character_level_cnn_model.py:346-375, char_load_tf_model.py:121-148): the new mapping. -/
def labelsFor (c : Cls) (params : Params) (g : LabelMap.Given String) : Except Err (PyDict String ℕ) :=
  match c with
  | .known .cnn => match dfltOf params with
    | some s => LabelMap.cnnSet "PAD" s g
    | none => .error .valueError
  | .tf => match dfltOf params with
    | some s => Network.loadedSet s g
    | none => .error .valueError
  | _ => LabelMap.setMapping false g

/-- `parameters`, as a constructor is called with it: nothing, a dictionary made for the call, or one that is used elsewhere. -/
inductive Given where
  | none
  | fresh (d : Params)
  | shared (r : ℕ)

/-- The dictionary a constructor uses; an empty one is replaced (`if not parameters: parameters = {}`). -/
def State.take (s : State) : Given → State × ℕ
  | .none => s.alloc []
  | .fresh d => s.alloc d
  | .shared r => if (s.dict r).isEmpty then s.alloc [] else (s, r)

/-- The order of the checks: the networks look at the parameters first (base_model.py:55-60), the others at the labels
(regex_model.py:66-68, column_name_model.py:48-51). -/
def Cls.paramsFirst : Cls → Bool
  | .known .cnn => true
  | .tf => true
  | _ => false

/-- The label mapping of a new model with these parameters. -/
def accepted {W : Type} (E : Env W) (c : Cls) (p : Params) (labels : LabelMap.Given String) : Except Err (PyDict String ℕ) :=
  if c.paramsFirst then
    match check E c [] p with
    | .error e => .error e
    | .ok () => labelsFor c p labels
  else
    match labelsFor c p labels with
    | .error e => .error e
    | .ok m => match check E c m p with
      | .error e => .error e
      | .ok () => .ok m

/-- A constructor: the state left behind, and the model or the error. -/
def construct {W : Type} (E : Env W) (s : State) (c : Cls) (path : Val) (given : Given) (labels : LabelMap.Given String) :
    State × Except Err ℕ :=
  let t := s.take given
  let s1 := t.1.write t.2 (fill c path (t.1.dict t.2))
  match accepted E c (s1.dict t.2) labels with
  | .error e => (s1, .error e)
  | .ok m => ({ s1 with models := s1.models ++ [⟨c, t.2, m⟩] }, .ok s1.models.length)

/-- `set_params(**kw)` (base_model.py:188-195). -/
def setParams {W : Type} (E : Env W) (s : State) (i : ℕ) (kw : Params) : State × Except Err Unit :=
  match s.models[i]? with
  | none => (s, .error .exception)
  | some o =>
    match check E o.cls o.mapping kw with
    | .error e => (s, .error e)
    | .ok () => (s.write o.params (put (s.dict o.params) kw), .ok ())

/-- The label mapping of a model is replaced. -/
def State.relabel (s : State) (i : ℕ) (o : Obj) (m : PyDict String ℕ) : State := { s with models := s.models.set i { o with mapping := m } }

/-- `set_label_mapping`. -/
def setLabels (s : State) (i : ℕ) (g : LabelMap.Given String) : State × Except Err Unit :=
  match s.models[i]? with
  | none => (s, .error .exception)
  | some o =>
    match labelsFor o.cls (s.dict o.params) g with
    | .error e => (s, .error e)
    | .ok m => (s.relabel i o m, .ok ())

/-- `add_label` (base_model.py:197-231). -/
def addLabel (s : State) (i : ℕ) (label sameAs : Option String) : State × Except Err Unit :=
  match s.models[i]? with
  | none => (s, .error .exception)
  | some o => (s.relabel i o (LabelMap.addLabel o.mapping label sameAs).1, (LabelMap.addLabel o.mapping label sameAs).2)

/-- `get_parameters(names)` (base_model.py:161-186): a copy; `none` asks for everything. -/
def getParams (s : State) (o : Obj) : Option (List String) → Except Err Params
  | none => .ok (PyDict.set (s.dict o.params) "label_mapping" (mappingVal o.mapping))
  | some names => names.foldlM (fun d k =>
      match PyDict.get? (s.dict o.params) k with
      | some v => .ok (PyDict.set d k v)
      | none => if k = "label_mapping" then .ok (PyDict.set d k (mappingVal o.mapping)) else .error .valueError) []

/-- `a == b` of two dictionaries. -/
def sameDict (a b : Params) : Bool := eqv (.dict a) (.dict b)

/-- `a == b` of two models: the networks do not compare the class (character_level_cnn_model.py:252-260, char_load_tf_model.py:76-83), the
others do (base_model.py:79-88). -/
def equal (s : State) (a b : Obj) : Bool :=
  (a.cls.paramsFirst || decide (a.cls = b.cls)) && sameDict (s.dict a.params) (s.dict b.params) &&
    sameDict (a.mapping.map fun x => (x.1, .int x.2)) (b.mapping.map fun x => (x.1, .int x.2))

/-- What a program does with models. `write` is an assignment of the program to a dictionary it holds. -/
inductive Op where
  | write (r : ℕ) (k : String) (v : Val)
  | construct (c : Cls) (path : Val) (given : Given) (labels : LabelMap.Given String)
  | setParams (i : ℕ) (kw : Params)
  | setLabels (i : ℕ) (g : LabelMap.Given String)
  | addLabel (i : ℕ) (label sameAs : Option String)

/-- One step; what is raised is caught by the program. -/
def step {W : Type} (E : Env W) (s : State) : Op → State
  | .write r k v => s.write r (PyDict.set (s.dict r) k v)
  | .construct c path given labels => (construct E s c path given labels).1
  | .setParams i kw => (setParams E s i kw).1
  | .setLabels i g => (setLabels s i g).1
  | .addLabel i l a => (addLabel s i l a).1

/-- A program. -/
def run {W : Type} (E : Env W) : List Op → State := List.foldl (step E) ⟨[], []⟩

/-! ### `CharLoadTFModel` on disk -/

/-- `save_to_disk` (char_load_tf_model.py:164-186), without the network: the directory left behind, and what was raised. -/
def saveTf {W : Type} (s : State) (o : Obj) (d : Dir W) : Dir W × Except Err Unit :=
  match dump d "model_parameters.json" (.dict (PyDict.del (s.dict o.params) "model_path")) with
  | (d, .error e) => (d, .error e)
  | (d, .ok ()) => dump d "label_mapping.json" (mappingVal o.mapping)

/-- `load_from_disk` (char_load_tf_model.py:188-225), without the network; `path` is the directory. -/
def loadTf {W : Type} (E : Env W) (s : State) (path : Val) (d : Dir W) : State × Except Err ℕ :=
  match read d "model_parameters.json" with
  | .error e => (s, .error e)
  | .ok p =>
    match read d "label_mapping.json" with
    | .error e => (s, .error e)
    | .ok l =>
      match p, mappingOf l with
      | .dict kw, some l => if l.isEmpty then (s, .error .valueError) else construct E s .tf path (.fresh kw) (.dict l)
      | _, _ => (s, .error .typeError)

end Verif.ModelObjects
