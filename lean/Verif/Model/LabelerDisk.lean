import Verif.Model.Basic
import Verif.Model.PyDict
import Verif.Model.LabelMap
import Mathlib.Data.Rat.Defs
import Mathlib.Algebra.Order.Field.Rat
import Mathlib.Data.Int.Notation
import Mathlib.Data.Nat.Notation

/-!
# Data labelers on disk

Models `save_to_disk` and `load_from_disk` of data labelers (dataprofiler/labelers/base_data_labeler.py:450-757), of the
processors (labelers/data_processing.py:135-161, 1842-1865, 2060-2072, 2150-2164) and of the models
(labelers/regex_model.py:266-313, column_name_model.py:278-313, character_level_cnn_model.py:391-457), the constructors and
the checks of parameters of all of these, and their `__eq__`.

Simplifications
* floats are rational, keys of dictionaries are text, label numbers are natural; `CharLoadTFModel` and classes of users are
  left out;
* writing JSON and reading it gives the same value with tuples as lists; a file whose writing failed cannot be read;
* the texts of error messages are left out; the length of the state of a generator is not checked;
* a network is made of weights by functions given from outside; all three components of a labeler are set.
-/

namespace Verif.LabelerDisk

open Verif

/-- State of a `random.Random` as `getstate` gives it after the version, which is 3. -/
structure RngState where
  words : List ℤ
  gauss : Option ℚ
deriving DecidableEq

/-- A `random.Random`: object and state. -/
structure Rng where
  id : ℕ
  state : RngState
deriving DecidableEq

/-- A value of a parameter. -/
inductive Val where
  | none
  | bool (b : Bool)
  | int (n : ℤ)
  | float (q : ℚ)
  | str (s : String)
  | list (l : List Val)
  | tuple (l : List Val)
  | dict (d : List (String × Val))
  | array (l : List Val)
  | pattern (s : String)
  | rng (r : Rng)

abbrev Params := PyDict String Val

mutual
/-- `json.load` of what `json.dump` writes; arrays, compiled expressions and generators cannot be written. -/
def encode : Val → Except Err Val
  | .none => .ok .none
  | .bool b => .ok (.bool b)
  | .int n => .ok (.int n)
  | .float q => .ok (.float q)
  | .str s => .ok (.str s)
  | .list l => (encodeList l).map .list
  | .tuple l => (encodeList l).map .list
  | .dict d => (encodeDict d).map .dict
  | .array _ => .error .typeError
  | .pattern _ => .error .typeError
  | .rng _ => .error .typeError
def encodeList : List Val → Except Err (List Val)
  | [] => .ok []
  | v :: t => match encode v with
    | .error e => .error e
    | .ok w => (encodeList t).map (w :: ·)
def encodeDict : List (String × Val) → Except Err (List (String × Val))
  | [] => .ok []
  | (k, v) :: t => match encode v with
    | .error e => .error e
    | .ok w => (encodeDict t).map ((k, w) :: ·)
end

mutual
/-- `==` of two values; generators and compiled expressions are compared as objects. -/
def eqv : Val → Val → Bool
  | .none, .none => true
  | .bool a, .bool b => a == b
  | .bool a, .int b => a.toInt == b
  | .bool a, .float b => (a.toInt : ℚ) == b
  | .int a, .bool b => a == b.toInt
  | .int a, .int b => a == b
  | .int a, .float b => (a : ℚ) == b
  | .float a, .bool b => a == (b.toInt : ℚ)
  | .float a, .int b => a == (b : ℚ)
  | .float a, .float b => a == b
  | .str a, .str b => a == b
  | .list a, .list b => eqvList a b
  | .tuple a, .tuple b => eqvList a b
  | .dict a, .dict b => a.length == b.length && eqvDict a b
  | .pattern a, .pattern b => a == b
  | .rng a, .rng b => a.id == b.id
  | _, _ => false
def eqvList : List Val → List Val → Bool
  | [], [] => true
  | v :: t, w :: u => eqv v w && eqvList t u
  | _, _ => false
def eqvDict : List (String × Val) → List (String × Val) → Bool
  | [], _ => true
  | (k, v) :: t, b => (match PyDict.get? b k with
      | some w => eqv v w
      | none => false) && eqvDict t b
end

/-- `isinstance(value, str)`. -/
def Val.isStr : Val → Bool
  | .str _ => true
  | _ => false

/-- `isinstance(value, bool)`. -/
def Val.isBool : Val → Bool
  | .bool _ => true
  | _ => false

/-- `isinstance(value, dict)`. -/
def Val.isDict : Val → Bool
  | .dict _ => true
  | _ => false

/-- `isinstance(value, random.Random)`. -/
def Val.isRng : Val → Bool
  | .rng _ => true
  | _ => false

/-- `value is None`. -/
def Val.isNone : Val → Bool
  | .none => true
  | _ => false

/-- The number if `isinstance(value, int)`; booleans are numbers. -/
def Val.int? : Val → Option ℤ
  | .bool b => some b.toInt
  | .int n => some n
  | _ => Option.none

/-- The number if `isinstance(value, (int, float))`. -/
def Val.num? : Val → Option ℚ
  | .bool b => some (b.toInt : ℚ)
  | .int n => some (n : ℚ)
  | .float q => some q
  | _ => Option.none

/-- A number of at least `lo` and, if given, at most `hi`. -/
def Val.between (lo : ℚ) (hi : Option ℚ) (v : Val) : Bool :=
  match v.num? with
  | some q => decide (lo ≤ q) && (match hi with
    | some h => decide (q ≤ h)
    | Option.none => true)
  | Option.none => false

/-- `lower()`, on the letters of names. -/
def lower (s : String) : String := String.ofList (s.toList.map Char.toLower)

/-- The processors (data_processing.py). -/
inductive ProcCls where
  | direct | char | charEncoded | structChar | charPost | structCharPost | regexPost | structRegexPost | columnPost
deriving DecidableEq

/-- `__class__.__name__`. -/
def ProcCls.name : ProcCls → String
  | .direct => "DirectPassPreprocessor"
  | .char => "CharPreprocessor"
  | .charEncoded => "CharEncodedPreprocessor"
  | .structChar => "StructCharPreprocessor"
  | .charPost => "CharPostprocessor"
  | .structCharPost => "StructCharPostprocessor"
  | .regexPost => "RegexPostProcessor"
  | .structRegexPost => "StructRegexPostProcessor"
  | .columnPost => "ColumnNameModelPostprocessor"

/-- `isinstance(…, BaseDataPreprocessor)`. -/
def ProcCls.isPre : ProcCls → Bool
  | .direct | .char | .charEncoded | .structChar => true
  | _ => false

/-- `processor_type + "_parameters.json"` (data_processing.py:136, 149, 163, 188). -/
def ProcCls.file (c : ProcCls) : String :=
  if c.isPre then "preprocessor_parameters.json" else "postprocessor_parameters.json"

/-- All processors, as registered (data_processing.py:47-58). -/
def ProcCls.all : List ProcCls :=
  [.direct, .char, .charEncoded, .charPost, .structChar, .structCharPost, .regexPost, .structRegexPost, .columnPost]

/-- `BaseDataProcessor.get_class` (data_processing.py:53-58). -/
def findProc (name : String) : Option ProcCls := ProcCls.all.find? fun c => lower c.name == lower name

/-- The arguments of the constructors with their defaults (data_processing.py:215, 258-267, 752-761, 887-896, 1326-1333,
1526-1533, 1871-1876, 2081-2083, 2194). -/
def ProcCls.args : ProcCls → Params
  | .direct => []
  | .char => [("max_length", .int 3400), ("default_label", .str "UNKNOWN"), ("pad_label", .str "PAD"),
      ("flatten_split", .int 0), ("flatten_separator", .str " "), ("is_separate_at_max_len", .bool false)]
  | .charEncoded => [("encoding_map", .none), ("max_length", .int 5000), ("default_label", .str "UNKNOWN"),
      ("pad_label", .str "PAD"), ("flatten_split", .int 0), ("flatten_separator", .str " "),
      ("is_separate_at_max_len", .bool false)]
  | .structChar => [("max_length", .int 3400), ("default_label", .str "UNKNOWN"), ("pad_label", .str "PAD"),
      ("flatten_separator", .str "\x01\x01\x01\x01\x01"), ("is_separate_at_max_len", .bool false)]
  | .charPost => [("default_label", .str "UNKNOWN"), ("pad_label", .str "PAD"), ("flatten_separator", .str " "),
      ("use_word_level_argmax", .bool false), ("output_format", .str "character_argmax"),
      ("separators", .tuple [.str " ", .str ",", .str ";", .str "'", .str "\"", .str ":", .str "\n", .str "\t", .str "."]),
      ("word_level_min_percent", .float (3 / 4))]
  | .structCharPost => [("default_label", .str "UNKNOWN"), ("pad_label", .str "PAD"),
      ("flatten_separator", .str "\x01\x01\x01\x01\x01"), ("is_pred_labels", .bool true), ("random_state", .none)]
  | .regexPost => [("aggregation_func", .str "split"), ("priority_order", .none), ("random_state", .none)]
  | .structRegexPost => [("random_state", .none)]
  | .columnPost => []

/-- What the checks of the classes for characters ask of a value (data_processing.py:321-341, 816-829, 958-985, 1624-1637).
A parameter that is not an argument of the constructor is refused after these. -/
def charOk (k : String) (v : Val) : Bool :=
  if k = "max_length" then (match v.int? with
    | some n => decide (1 ≤ n)
    | none => false)
  else if k ∈ ["default_label", "pad_label", "flatten_separator"] then v.isStr
  else if k ∈ ["flatten_split", "word_level_min_percent"] then v.between 0 (some 1)
  else if k ∈ ["is_separate_at_max_len", "use_word_level_argmax", "is_pred_labels"] then v.isBool
  else if k = "output_format" then (match v with
    | .str s => decide (lower s ∈ ["character_argmax", "ner"])
    | _ => false)
  else if k = "separators" then (match v with
    | .list l => l.all Val.isStr
    | .tuple l => l.all Val.isStr
    | _ => false)
  else if k = "random_state" then v.isRng
  else if k = "encoding_map" then v.isDict
  else true

/-- `aggregation_func == "priority"` for the value given or the one already set (data_processing.py:1945-1950). -/
def priority (old kw : Params) : Bool :=
  match PyDict.get? kw "aggregation_func" with
  | some (.str s) => s == "priority"
  | some _ => false
  | none => match PyDict.get? old "aggregation_func" with
    | some (.str s) => s == "priority"
    | _ => false

/-- One parameter of `RegexPostProcessor._validate_parameters` (data_processing.py:1934-1965). -/
def regexOk (old kw : Params) (k : String) (v : Val) : Bool :=
  if k = "aggregation_func" then (match v with
    | .str s => decide (lower s ∈ ["split", "priority", "random"])
    | _ => false)
  else if k = "priority_order" then
    if v.isNone then !priority old kw
    else (match v with
      | .list _ => true
      | .array _ => true
      | _ => false)
  else if k = "random_state" then v.isRng
  else false

/-- `_validate_parameters` (data_processing.py:221-223, 301-345, 796-837, 932-994, 1348-1366, 1600-1635, 1916-1968, 2085-2097,
2207-2233); `StructCharPreprocessor` takes its hidden parameter out first, `StructRegexPostProcessor` leaves the check to the
processor inside. -/
def accepts (c : ProcCls) (old kw : Params) : Bool :=
  match c with
  | .direct => kw.isEmpty
  | .columnPost => kw.isEmpty
  | .regexPost => kw.all fun kv => regexOk old kw kv.1 kv.2
  | .structRegexPost => kw.all fun kv => regexOk old kw kv.1 kv.2
  | .structChar => (PyDict.del kw "flatten_split").all fun kv => decide (kv.1 ∈ PyDict.keys c.args) && charOk kv.1 kv.2
  | c => kw.all fun kv => decide (kv.1 ∈ PyDict.keys c.args) && charOk kv.1 kv.2

/-- A processor; the parameters of a `StructRegexPostProcessor` are those of the processor inside. -/
structure Proc where
  cls : ProcCls
  params : Params

/-- What comes from outside: new generators, compilation of expressions, and the networks made for parameters and labels. -/
structure Env (W : Type) where
  seeded : Option ℤ → RngState
  compiles : String → Bool
  construct : Params → PyDict String ℕ → W
  adapt : W → PyDict String ℕ → W

/-- `setstate` of a tuple read from a list, whose middle entry was made a tuple (data_processing.py:1559-1571). -/
def stateOf : List Val → Option RngState
  | [v, ws, g] =>
    match v, ws, g with
    | .int 3, .tuple l, .none => (l.mapM Val.int?).map fun l => ⟨l, none⟩
    | .int 3, .tuple l, .float q => (l.mapM Val.int?).map fun l => ⟨l, some q⟩
    | _, _, _ => none
  | _ => none

/-- `if isinstance(random_state[1], list): random_state[1] = tuple(random_state[1])` (data_processing.py:1561-1562). -/
def middle : List Val → List Val
  | [v, .list l, g] => [v, .tuple l, g]
  | l => l

/-- The conversion of `random_state` (data_processing.py:1554-1571, 1892-1909). -/
def asRng {W : Type} (E : Env W) (id : ℕ) (v : Val) : Val :=
  match v with
  | .none => .rng ⟨id, E.seeded none⟩
  | .bool b => .rng ⟨id, E.seeded (some b.toInt)⟩
  | .int n => .rng ⟨id, E.seeded (some n)⟩
  | .list l => (match stateOf (middle l) with
    | some s => .rng ⟨id, s⟩
    | none => .list l)
  | .tuple l => (match stateOf l with
    | some s => .rng ⟨id, s⟩
    | none => .tuple l)
  | v => v

/-- One argument of a call. -/
def argument {W : Type} (E : Env W) (id : ℕ) (kw : Params) (a : String × Val) : String × Val :=
  let v := (PyDict.get? kw a.1).getD a.2
  (a.1, if a.1 = "random_state" then asRng E id v else v)

/-- Parameters that are no arguments (data_processing.py:1340, 2091-2094). -/
def ProcCls.fixed : ProcCls → Params
  | .structChar => [("flatten_split", .float 1)]
  | .structRegexPost => [("aggregation_func", .str "split"), ("priority_order", .none)]
  | _ => []

/-- The constructors with keyword arguments. -/
def initProc {W : Type} (E : Env W) (id : ℕ) (c : ProcCls) (kw : Params) : Except Err Proc :=
  if ∃ k ∈ PyDict.keys kw, k ∉ PyDict.keys c.args then .error (if c = .char then .valueError else .typeError)
  else
    let p := c.args.map (argument E id kw) ++ c.fixed
    if accepts c [] p then .ok ⟨c, p⟩ else .error .valueError

/-- `set_params` (data_processing.py:119-126, 2110-2121). -/
def Proc.set (p : Proc) (kw : Params) : Except Err Proc :=
  if p.cls = .structRegexPost ∧ ∃ k ∈ PyDict.keys kw, k ≠ "random_state" then .error .valueError
  else if accepts p.cls p.params kw then .ok { p with params := kw.foldl (fun d x => PyDict.set d x.1 x.2) p.params }
  else .error .valueError

/-- `getstate()`. -/
def getState : Val → Val
  | .rng r => .tuple [.int 3, .tuple (r.state.words.map .int), (match r.state.gauss with
    | some q => .float q
    | none => .none)]
  | v => v

/-- What `_save_processor` writes (data_processing.py:147-153, 1383-1392, 1852-1865, 2060-2072, 2150-2164). -/
def Proc.stored (p : Proc) : Params :=
  match p.cls with
  | .structChar => PyDict.del p.params "flatten_split"
  | .structCharPost | .regexPost =>
    p.params.map fun kv => (kv.1, if kv.1 = "random_state" then getState kv.2 else kv.2)
  | .structRegexPost => [("random_state", getState ((PyDict.get? p.params "random_state").getD .none))]
  | _ => p.params

/-- A file. -/
inductive File (W : Type) where
  | json (v : Val)
  | broken
  | net (w : W)

/-- A directory; missing if it does not exist. -/
abbrev Dir (W : Type) := Option (PyDict String (File W))

/-- `with open(…, "w") as fp: json.dump(…, fp)`. -/
def dump {W : Type} (d : Dir W) (name : String) (v : Val) : Dir W × Except Err Unit :=
  match d with
  | none => (none, .error .exception)
  | some d => match encode v with
    | .ok j => (some (PyDict.set d name (.json j)), .ok ())
    | .error e => (some (PyDict.set d name .broken), .error e)

/-- `json.load`. -/
def read {W : Type} (d : Dir W) (name : String) : Except Err Val :=
  match d with
  | none => .error .exception
  | some d => match PyDict.get? d name with
    | some (.json v) => .ok v
    | some _ => .error .valueError
    | none => .error .exception

/-- `save_to_disk` of a processor (data_processing.py:147-157). -/
def Proc.save {W : Type} (p : Proc) (d : Dir W) : Dir W × Except Err Unit := dump d p.cls.file (.dict p.stored)

/-- `load_from_disk` of a processor (data_processing.py:134-140). -/
def loadProc {W : Type} (E : Env W) (id : ℕ) (c : ProcCls) (d : Dir W) : Except Err Proc :=
  match read d c.file with
  | .error e => .error e
  | .ok (.dict kw) => initProc E id c kw
  | .ok _ => .error .typeError

/-- The models. -/
inductive ModelCls where
  | regex | columnName | cnn
deriving DecidableEq

/-- `__class__.__name__`. -/
def ModelCls.name : ModelCls → String
  | .regex => "RegexModel"
  | .columnName => "ColumnNameModel"
  | .cnn => "CharacterLevelCnnModel"

/-- `BaseModel.get_class` (base_model.py:151-159). -/
def findModel (name : String) : Option ModelCls :=
  [ModelCls.cnn, .columnName, .regex].find? fun c => lower c.name == lower name

/-- A network: its weights and the numbers it was made for (character_level_cnn_model.py:233-235). -/
structure Net (W : Type) where
  weights : W
  labels : ℕ
  dflt : ℕ

/-- A model. -/
structure Model (W : Type) where
  cls : ModelCls
  params : Params
  mapping : PyDict String ℕ
  net : Option (Net W)

/-- One label of `regex_patterns` (regex_model.py:122-152). -/
def patternsOk {W : Type} (E : Env W) (mapping : PyDict String ℕ) (kv : String × Val) : Bool :=
  PyDict.has mapping kv.1 && (match kv.2 with
    | .list l => l.all fun v => (match v with
      | .pattern _ => true
      | .str s => E.compiles s
      | _ => false)
    | _ => false)

/-- One parameter of `RegexModel._validate_parameters` (regex_model.py:110-160). -/
def regexModelOk {W : Type} (E : Env W) (mapping : PyDict String ℕ) (k : String) (v : Val) : Bool :=
  if k = "encapsulators" then (match v with
    | .dict d => PyDict.has d "start" && PyDict.has d "end"
    | _ => false)
  else if k = "regex_patterns" then (match v with
    | .dict d => d.all (patternsOk E mapping)
    | _ => false)
  else if k = "ignore_case" then v.isBool
  else if k = "default_label" then v.isStr
  else false

/-- One parameter of `CharacterLevelCnnModel._validate_parameters` (character_level_cnn_model.py:283-344). -/
def cnnOk (k : String) (v : Val) : Bool :=
  if k ∈ ["max_length", "max_char_encoding_id", "dim_embed", "size_conv"] then v.between 0 none
  else if k = "dropout" then v.between 0 (some 1)
  else if k ∈ ["size_fc", "num_fil"] then (match v with
    | .list l => !l.isEmpty && l.all fun x => x.int?.isSome
    | _ => false)
  else if k = "default_label" then v.isStr
  else decide (k = "pad_label")

/-- `bool(value)`. -/
def Val.truthy : Val → Bool
  | .none => false
  | .bool b => b
  | .int n => n != 0
  | .float q => q != 0
  | .str s => s != ""
  | .list l => !l.isEmpty
  | .tuple l => !l.isEmpty
  | .dict d => !d.isEmpty
  | .array l => !l.isEmpty
  | .pattern _ => true
  | .rng _ => true

/-- `value[0]`. -/
def Val.first : Val → Except Err Val
  | .list (v :: _) => .ok v
  | .tuple (v :: _) => .ok v
  | .array (v :: _) => .ok v
  | .str s => if s = "" then .error .indexError else .ok (.str (s.take 1).toString)
  | .list [] => .error .indexError
  | .tuple [] => .error .indexError
  | .array [] => .error .indexError
  | .dict _ => .error .keyError
  | _ => .error .typeError

/-- `value.keys()` or `value.values()`. -/
def Val.items : Val → Except Err (List (String × Val))
  | .dict d => .ok d
  | _ => .error .attributeError

/-- `parameters[key]`. -/
def item (kw : Params) (k : String) : Except Err Val :=
  match PyDict.get? kw k with
  | some v => .ok v
  | none => .error .keyError

/-- `set(labels) > set(label_mapping)` (column_name_model.py:79-89); values that are no text are labels of their own. -/
def properSuperset (labels : List Val) (mapping : PyDict String ℕ) : Bool :=
  (PyDict.keys mapping).all (fun k => labels.any fun v => eqv v (.str k)) &&
    labels.any fun v => !(PyDict.keys mapping).any fun k => eqv v (.str k)

/-- One parameter of `ColumnNameModel._validate_parameters` (column_name_model.py:93-138): whether it is accepted. -/
def columnOk (kw : Params) (k : String) (v : Val) : Except Err Bool :=
  if k = "false_positive_dict" then
    if v.isNone then .ok true
    else match v with
      | .list _ => do
        let d ← (← v.first).items
        if PyDict.has d "attribute" then .ok true else return (← item kw "negative_threshold_config").isNone
      | _ => do return (← item kw "negative_threshold_config").isNone
  else if k = "true_positive_dict" then
    match v with
    | .list _ => do
      let _ ← (← v.first).items
      .ok true
    | _ => .ok false
  else if k = "include_label" then .ok v.isBool
  else if k = "negative_threshold_config" then
    if v.int?.isSome then .ok true else do return (← item kw "false_positive_dict").isNone
  else if k = "positive_threshold_config" then .ok v.int?.isSome
  else .ok false

/-- The loop over the parameters: whether all are accepted. -/
def columnLoop (kw : Params) : List (String × Val) → Except Err Bool
  | [] => .ok true
  | (k, v) :: t => match columnOk kw k v with
    | .error e => .error e
    | .ok b => (columnLoop kw t).map (b && ·)

/-- `true_positive_unique_labels > label_map_dict_keys` does not hold for the first entry (column_name_model.py:80-92). -/
def labelsOk (mapping : PyDict String ℕ) (tp : Val) : Except Err Bool :=
  if tp.truthy then
    match tp.first with
    | .error e => .error e
    | .ok v => match v.items with
      | .error e => .error e
      | .ok d => .ok !(properSuperset (d.map (·.2)) mapping)
  else .ok true

/-- `ColumnNameModel._validate_parameters` (column_name_model.py:53-141). -/
def columnValidate (mapping : PyDict String ℕ) (kw : Params) : Except Err Unit :=
  match item kw "true_positive_dict" with
  | .error e => .error e
  | .ok tp => match labelsOk mapping tp with
    | .error e => .error e
    | .ok a => match columnLoop kw kw with
      | .error e => .error e
      | .ok b => if a && b then .ok () else .error .valueError

/-- `_validate_parameters` of the models. -/
def validate {W : Type} (E : Env W) (c : ModelCls) (mapping : PyDict String ℕ) (kw : Params) : Except Err Unit :=
  match c with
  | .regex => if kw.all fun kv => regexModelOk E mapping kv.1 kv.2 then .ok () else .error .valueError
  | .columnName => columnValidate mapping kw
  | .cnn => if kw.all fun kv => cnnOk kv.1 kv.2 then .ok () else .error .valueError

/-- The defaults of the models (regex_model.py:58-63, column_name_model.py:40-46, character_level_cnn_model.py:219-228). -/
def ModelCls.defaults : ModelCls → Params
  | .regex => [("regex_patterns", .dict []), ("encapsulators", .dict [("start", .str ""), ("end", .str "")]),
      ("ignore_case", .bool true), ("default_label", .str "UNKNOWN")]
  | .columnName => [("false_positive_dict", .none), ("true_positive_dict", .none), ("include_label", .bool true),
      ("negative_threshold_config", .none), ("positive_threshold_config", .none)]
  | .cnn => [("max_length", .int 3400), ("max_char_encoding_id", .int 127), ("dim_embed", .int 64),
      ("size_fc", .list [.int 96, .int 96]), ("dropout", .float (73 / 1000)), ("size_conv", .int 13),
      ("default_label", .str "UNKNOWN"), ("num_fil", .list [.int 48, .int 48, .int 48, .int 48])]

/-- `parameters.setdefault(key, value)`. -/
def setDefault (d : Params) (kv : String × Val) : Params := if PyDict.has d kv.1 then d else d ++ [kv]

/-- `self._parameters["default_label"]`; no text is no label. -/
def dfltOf (params : Params) : Option String :=
  match PyDict.get? params "default_label" with
  | some (.str s) => some s
  | _ => none

/-- `set_label_mapping` with a dictionary (base_model.py:233-252, character_level_cnn_model.py:346-375; see C61). -/
def setMapping (c : ModelCls) (params : Params) (m : PyDict String ℕ) : Except Err (PyDict String ℕ) :=
  match c with
  | .cnn => match dfltOf params with
    | some s => LabelMap.cnnSet "PAD" s (.dict m)
    | none => .error .valueError
  | _ => LabelMap.setMapping false (.dict m)

/-- The constructors of the models (regex_model.py:23-68, column_name_model.py:24-51, base_model.py:41-60,
character_level_cnn_model.py:210-237). -/
def initModel {W : Type} (E : Env W) (c : ModelCls) (mapping : PyDict String ℕ) (kw : Params) : Except Err (Model W) := do
  let p := c.defaults.foldl setDefault kw
  match c with
  | .cnn =>
    let p := PyDict.set p "pad_label" (.str "PAD")
    validate E c mapping p
    let m ← setMapping c p mapping
    .ok ⟨c, p, m, none⟩
  | c =>
    let m ← setMapping c p mapping
    validate E c m p
    .ok ⟨c, p, m, none⟩

/-- `set_params` of a model (base_model.py:188-195). -/
def Model.set {W : Type} (E : Env W) (m : Model W) (kw : Params) : Except Err (Model W) :=
  match validate E m.cls m.mapping kw with
  | .error e => .error e
  | .ok () => .ok { m with params := kw.foldl (fun d x => PyDict.set d x.1 x.2) m.params }

/-- `set_label_mapping` of a model. -/
def Model.relabel {W : Type} (m : Model W) (labels : PyDict String ℕ) : Except Err (Model W) :=
  match setMapping m.cls m.params labels with
  | .error e => .error e
  | .ok l => .ok { m with mapping := l }

/-- `add_label` of a model (base_model.py:197-231). -/
def Model.addLabel {W : Type} (m : Model W) (label sameAs : Option String) : Except Err (Model W) :=
  match LabelMap.addLabel m.mapping label sameAs with
  | (_, .error e) => .error e
  | (l, .ok ()) => .ok { m with mapping := l }

/-- The network made ready for saving (character_level_cnn_model.py:377-389, 399-402, 478-489, 604-656). -/
def Model.ready {W : Type} (E : Env W) (m : Model W) : Except Err (Model W) :=
  match m.cls with
  | .cnn => match (dfltOf m.params).bind (PyDict.get? m.mapping) with
    | none => .error .keyError
    | some i =>
      let n := LabelMap.numLabels m.mapping
      match m.net with
      | none => .ok { m with net := some ⟨E.construct m.params m.mapping, n, i⟩ }
      | some net =>
        if n ≠ net.labels ∨ i ≠ net.dflt then .ok { m with net := some ⟨E.adapt net.weights m.mapping, n, i⟩ }
        else .ok m
  | _ => .ok m

/-- A label mapping as a value. -/
def mappingVal (m : PyDict String ℕ) : Val := .dict (m.map fun kv => (kv.1, .int kv.2))

/-- The directory after `if not os.path.isdir(dirpath): os.makedirs(dirpath)` (regex_model.py:303-304); the network does not
do this. -/
def ensure {W : Type} (c : ModelCls) (d : Dir W) : Dir W :=
  match c, d with
  | .cnn, d => d
  | _, none => some []
  | _, d => d

/-- `self._model.save(…)`. -/
def saveNet {W : Type} (d : Dir W) (net : Option (Net W)) : Dir W :=
  match d, net with
  | some d, some n => some (PyDict.set d "model.keras" (.net n.weights))
  | d, _ => d

/-- `save_to_disk` of a model (regex_model.py:295-313, column_name_model.py:299-313, character_level_cnn_model.py:391-411). -/
def Model.save {W : Type} (E : Env W) (m : Model W) (d : Dir W) : Dir W × Except Err (Model W) :=
  match m.ready E with
  | .error e => (d, .error e)
  | .ok m =>
    match dump (ensure m.cls d) "model_parameters.json" (.dict m.params) with
    | (d, .error e) => (d, .error e)
    | (d, .ok ()) =>
      match dump d "label_mapping.json" (mappingVal m.mapping) with
      | (d, .error e) => (d, .error e)
      | (d, .ok ()) => (saveNet d m.net, .ok m)

/-- A label mapping read from disk. -/
def mappingOf : Val → Option (PyDict String ℕ)
  | .dict d => d.mapM fun kv => match kv.2 with
    | .int n => if 0 ≤ n then some (kv.1, n.toNat) else none
    | _ => none
  | _ => none

/-- The network read from disk (character_level_cnn_model.py:437-457). -/
def loadNet {W : Type} (d : Dir W) (m : Model W) : Except Err (Model W) :=
  match m.cls with
  | .cnn => match d.bind fun d => PyDict.get? d "model.keras", (dfltOf m.params).bind (PyDict.get? m.mapping) with
    | some (.net w), some i => .ok { m with net := some ⟨w, LabelMap.numLabels m.mapping, i⟩ }
    | _, _ => .error .exception
  | _ => .ok m

/-- `load_from_disk` of a model (regex_model.py:266-293, column_name_model.py:278-297, character_level_cnn_model.py:413-457). -/
def loadModel {W : Type} (E : Env W) (c : ModelCls) (d : Dir W) : Except Err (Model W) := do
  let p ← read d "model_parameters.json"
  let l ← read d "label_mapping.json"
  match p, mappingOf l with
  | .dict kw, some l => do
    let m ← initModel E c l kw
    loadNet d m
  | _, _ => .error .typeError

/-- A data labeler; `trainable` if it is a `TrainableDataLabeler`. -/
structure Labeler (W : Type) where
  trainable : Bool
  model : Model W
  pre : Proc
  post : Proc

/-- What `_save_parameters` writes (base_data_labeler.py:714-732). -/
def Labeler.classes {W : Type} (l : Labeler W) : Val :=
  .dict [("model", .dict [("class", .str l.model.cls.name)]), ("preprocessor", .dict [("class", .str l.pre.cls.name)]),
    ("postprocessor", .dict [("class", .str l.post.cls.name)])]

/-- `save_to_disk` (base_data_labeler.py:734-757). -/
def Labeler.save {W : Type} (E : Env W) (l : Labeler W) (d : Dir W) : Dir W × Except Err (Labeler W) :=
  match dump d "data_labeler_parameters.json" l.classes with
  | (d, .error e) => (d, .error e)
  | (d, .ok ()) =>
    match l.model.save E d with
    | (d, .error e) => (d, .error e)
    | (d, .ok m) =>
      match l.pre.save d with
      | (d, .error e) => (d, .error e)
      | (d, .ok ()) =>
        match l.post.save d with
        | (d, .error e) => (d, .error e)
        | (d, .ok ()) => (d, .ok { l with model := m })

/-- `load_options`: instances of a model and of processors. -/
structure LoadOptions where
  model : Option ModelCls
  pre : Option ProcCls
  post : Option ProcCls

/-- `params.get(part).get("class")`. -/
def classOf (v : Val) (part : String) : Except Err Val :=
  match v with
  | .dict d => match PyDict.get? d part with
    | some (.dict e) => .ok ((PyDict.get? e "class").getD .none)
    | _ => .error .attributeError
  | _ => .error .attributeError

/-- The class found for a name (base_data_labeler.py:529-537, 553-562, 584-595). -/
def named {C : Type} (find : String → Option C) : Val → Except Err C
  | .str s => match find s with
    | some c => .ok c
    | none => .error .valueError
  | _ => .error .valueError

/-- A given class must have the name that was saved (base_data_labeler.py:467-511). -/
def checkName {C : Type} (name : C → String) (given : Option C) (saved : Val) : Except Err Unit :=
  match given with
  | none => .ok ()
  | some c => match saved with
    | .str s => if s = name c then .ok () else .error .valueError
    | _ => .error .valueError

/-- The class of a component. -/
def resolve {C : Type} (find : String → Option C) (given : Option C) (saved : Val) : Except Err C :=
  match given with
  | none => named find saved
  | some c => .ok c

/-- `set_model` of either class of labelers (base_data_labeler.py:344-356, 880-895): whether there is a `fit` method. -/
def trainableModel : ModelCls → Bool
  | .cnn => true
  | _ => false

/-- `_load_model` (base_data_labeler.py:514-538). -/
def loadModelPart {W : Type} (E : Env W) (trainable : Bool) (given : Option ModelCls) (v : Val) (d : Dir W) :
    Except Err (Model W) := do
  let c ← resolve findModel given (← classOf v "model")
  let m ← loadModel E c d
  if trainable && !trainableModel c then .error .valueError else .ok m

/-- `_load_preprocessor` and `_load_postprocessor` (base_data_labeler.py:540-602). -/
def loadProcPart {W : Type} (E : Env W) (id : ℕ) (pre : Bool) (given : Option ProcCls) (v : Val) (part : String) (d : Dir W) :
    Except Err Proc := do
  let c ← resolve findProc given (← classOf v part)
  let p ← loadProc E id c d
  if c.isPre = pre then .ok p else .error .typeError

/-- `load_from_disk` (base_data_labeler.py:450-640). -/
def load {W : Type} (E : Env W) (id : ℕ) (trainable : Bool) (o : LoadOptions) (d : Dir W) : Except Err (Labeler W) := do
  let v ← read d "data_labeler_parameters.json"
  if (o.pre.any fun c => !c.isPre) || (o.post.any fun c => c.isPre) then .error .typeError
  else do
    checkName ModelCls.name o.model (← classOf v "model")
    checkName ProcCls.name o.pre (← classOf v "preprocessor")
    checkName ProcCls.name o.post (← classOf v "postprocessor")
    let m ← loadModelPart E trainable o.model v d
    let p ← loadProcPart E id true o.pre v "preprocessor" d
    let q ← loadProcPart E id false o.post v "postprocessor" d
    .ok ⟨trainable, m, p, q⟩

/-- `==` of parameters. -/
def paramsEq (a b : Params) : Bool := eqv (.dict a) (.dict b)

/-- `==` of two entries. -/
def entryEq (a b : Params) (k : String) : Bool :=
  eqv ((PyDict.get? a k).getD .none) ((PyDict.get? b k).getD .none)

/-- `==` of processors (data_processing.py:61-78, 1577-1598). -/
def procEq (a b : Proc) : Bool :=
  decide (a.cls = b.cls) &&
    (if a.cls = .structCharPost then
      ["default_label", "pad_label", "flatten_separator", "is_pred_labels"].all (entryEq a.params b.params)
    else paramsEq a.params b.params)

/-- `==` of models (base_model.py:67-86, character_level_cnn_model.py:245-264). -/
def modelEq {W : Type} (a b : Model W) : Bool :=
  (decide (a.cls = .cnn) || decide (a.cls = b.cls)) && paramsEq a.params b.params &&
    eqv (mappingVal a.mapping) (mappingVal b.mapping)

/-- `==` of labelers (base_data_labeler.py:56-76). -/
def labelerEq {W : Type} (a b : Labeler W) : Bool :=
  procEq a.pre b.pre && modelEq a.model b.model && procEq a.post b.post

end Verif.LabelerDisk
