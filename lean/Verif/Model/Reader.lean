import Verif.Model.Basic
import Verif.Model.PyDict
import Mathlib.Data.Int.Notation
import Mathlib.Data.Nat.Notation

/-!
# Opening a dataset

Models the factory `Data` (dataprofiler/data_readers/data.py:17-87), the base class of the readers (base_data.py:17-193), their constructors
and `reload` (text_data.py:15-148, csv_data.py:25-181 and 744-770, json_data.py:24-88 and 424-446, avro_data.py:19-50, parquet_data.py:18-72 and
162-184, graph_data.py:18-81, structured_mixins.py:28-63).

Parameters are: fetching a URL, the recognisers of the single formats, reading a file and parsing a text.  Options are a dictionary or `None`.
Not modelled: the types of the columns before they were converted to text, the state of a batch iteration.
-/

namespace Verif.Reader

open Verif

/-- The values of options and settings. -/
inductive V where
  | none
  | bool (b : Bool)
  | int (i : ℤ)
  | str (s : String)
  | strs (l : List String)
  | other (n : ℕ)
  deriving DecidableEq, Repr

/-- `bool(v)`. -/
def truthy : V → Bool
  | .none => false
  | .bool b => b
  | .int i => decide (i ≠ 0)
  | .str s => decide (s ≠ "")
  | .strs l => decide (l ≠ [])
  | .other _ => true

abbrev Opts := PyDict String V

/-- `options.get(k, default)`. -/
def opt (o : Opts) (k : String) (d : V) : V := PyDict.getD o k d

/-- A file path or a stream. -/
inductive Src where
  | path (s : String)
  | stream (n : ℕ)
  deriving DecidableEq, Repr

/-- `bool(input_file_path)`. -/
def given : Option Src → Bool
  | none => false
  | some (.path s) => decide (s ≠ "")
  | some (.stream _) => true

/-- Data given in memory: a text, a data frame, a graph, or something else. -/
inductive Mem where
  | text (s : String)
  | frame (n : ℕ)
  | graph (n : ℕ)
  | other (n : ℕ)
  deriving DecidableEq, Repr

/-- The readers. -/
inductive Kind where
  | json | graph | csv | parquet | avro | text
  deriving DecidableEq, Repr

/-- The attribute `data_type` of the classes (json_data.py:22, graph_data.py:16, csv_data.py:23, parquet_data.py:16, avro_data.py:17, text_data.py:13). -/
def typeName : Kind → String
  | .json => "json"
  | .graph => "graph"
  | .csv => "csv"
  | .parquet => "parquet"
  | .avro => "avro"
  | .text => "text"

/-- The attributes a reader takes from its options. -/
inductive Attrs where
  | text (samplesPerLine : V)
  | parquet (columns sampleRows : V)
  | json (payload separator keys : V) (metadata : Option ℕ)
  | csv (perLine delimiter quote columns header : V) (checked : Bool) (sampleRows : V)
  | graph (source target targetWords sourceWords graphWords names delimiter quote header : V) (checked : Bool)
  deriving DecidableEq, Repr

/-- A reader. -/
structure Obj where
  kind : Kind
  path : Option Src
  options : Option Opts
  data : Option Mem
  format : V
  encoding : V
  attrs : Attrs
  deriving DecidableEq, Repr

/-- What is not modelled. -/
structure Lib where
  isUrl : String → Bool
  isS3 : String → Bool
  /-- the object of an S3 address; the argument is the option `storage_options` -/
  s3 : Option V → String → Except Err Src
  /-- the download of another address -/
  download : Opts → String → Except Err Src
  /-- the recognisers, with the options after the call -/
  jsonMatch : Src → Opts → Except Err (Bool × Opts)
  graphMatch : Src → Opts → Except Err (Bool × Opts)
  csvCore : Src → Opts → Except Err (Bool × Opts)
  parquetMatch : Src → Opts → Except Err (Bool × Opts)
  avroMatch : Src → Opts → Except Err (Bool × Opts)
  /-- `detect_file_encoding` -/
  detect : Src → Except Err String
  /-- whether a stream is a `StringIO` -/
  isTextStream : Src → Bool
  /-- `_load_data_from_str` -/
  parse : Kind → String → Attrs → Except Err (Mem × Attrs)
  /-- reading the file -/
  read : Kind → Src → V → Attrs → Except Err (Mem × Attrs)

/-- `CSVData.is_match` (csv_data.py:623-742) starts with the other formats (csv_data.py:635-640). -/
def csvMatch (L : Lib) (src : Src) (o : Opts) : Except Err (Bool × Opts) := do
  let j ← L.jsonMatch src []
  if j.1 then .ok (false, o)
  else do
    let p ← L.parquetMatch src []
    if p.1 then .ok (false, o)
    else do
      let a ← L.avroMatch src []
      if a.1 then .ok (false, o) else L.csvCore src o

/-- `TextData.is_match` (text_data.py:108-125): the encoding found goes to a new dictionary, the options stay as they are. -/
def textMatch (L : Lib) (src : Src) (o : Opts) : Except Err (Bool × Opts) :=
  if PyDict.has o "encoding" || L.isTextStream src then .ok (true, o)
  else do
    let _ ← L.detect src
    .ok (true, o)

/-- `data_class.is_match`. -/
def isMatch (L : Lib) : Kind → Src → Opts → Except Err (Bool × Opts)
  | .json => L.jsonMatch
  | .graph => L.graphMatch
  | .csv => csvMatch L
  | .parquet => L.parquetMatch
  | .avro => L.avroMatch
  | .text => textMatch L

/-! ## Constructors -/

/-- `header` is legal (csv_data.py:142-155); `True` and `False` are integers. -/
def headerOk : V → Bool
  | .none => true
  | .str s => s == "auto"
  | .int i => decide (-1 < i)
  | .bool _ => true
  | _ => false

/-- `delimiter` is legal (csv_data.py:156-159). -/
def delimiterOk : V → Bool
  | .none => true
  | .str _ => true
  | _ => false

/-- `data_format` is legal (csv_data.py:160-166). -/
def formatOk : V → Bool
  | .str s => s == "dataframe" || s == "records"
  | _ => false

/-- `selected_columns` is legal (csv_data.py:167-173). -/
def columnsOk : V → Bool
  | .strs _ => true
  | _ => false

/-- `record_samples_per_line` and `sample_nrows` are legal (csv_data.py:174-183). -/
def countOk : V → Bool
  | .int i => decide (0 ≤ i)
  | .bool _ => true
  | _ => false

/-- An option is missing or legal. -/
def legal (o : Opts) (k : String) (ok : V → Bool) : Bool :=
  match PyDict.get? o k with
  | none => true
  | some v => ok v

/-- `CSVData._check_and_return_options` (csv_data.py:130-184). -/
def csvOptionsOk (o : Opts) : Bool :=
  legal o "header" headerOk && legal o "delimiter" delimiterOk && legal o "data_format" formatOk &&
    legal o "selected_columns" columnsOk && legal o "record_samples_per_line" countOk && legal o "sample_nrows" countOk

/-- The check of the options of each class (base_data.py:140-146 for all but the CSV reader). -/
def optionsOk : Kind → Opts → Bool
  | .csv, o => csvOptionsOk o
  | _, _ => true

/-- A value that is not a list is put in one (json_data.py:81-83); of the values only texts can be in a list, the others stay for themselves. -/
def asList : V → V
  | .strs l => .strs l
  | .str s => .strs [s]
  | v => v

/-- Whether the header was given and is not to be guessed (csv_data.py:85, graph_data.py:78). -/
def headerChecked (o : Opts) : Bool :=
  PyDict.has o "header" && decide (opt o "header" (.str "auto") ≠ .str "auto")

/-- The attributes set by the constructors (text_data.py:63, parquet_data.py:69-70, json_data.py:80-86, csv_data.py:78-89, graph_data.py:62-78). -/
def initAttrs (k : Kind) (o : Opts) : Attrs :=
  match k with
  | .text => .text (opt o "samples_per_line" (.int 5000000000))
  | .parquet => .parquet (opt o "selected_columns" (.strs [])) (opt o "sample_nrows" .none)
  | .json | .avro => .json (asList (opt o "payload_keys" (.strs ["data", "payload"]))) (opt o "key_separator" (.str "."))
      (opt o "selected_keys" (.strs [])) none
  | .csv => .csv (opt o "record_samples_per_line" (.int 1)) (opt o "delimiter" .none) (opt o "quotechar" .none)
      (opt o "selected_columns" (.strs [])) (opt o "header" (.str "auto")) (headerChecked o) (opt o "sample_nrows" .none)
  | .graph => .graph (opt o "source_node" .none) (opt o "destination_node" .none)
      (opt o "target_keywords" (.strs ["target", "destination", "dst"])) (opt o "source_keywords" (.strs ["source", "src", "origin"]))
      (opt o "graph_keywords" (.strs ["node"])) (opt o "column_names" .none) (opt o "delimiter" .none) (opt o "quotechar" .none)
      (opt o "header" (.str "auto")) (headerChecked o)

/-- The selected format (text_data.py:62, parquet_data.py:68, json_data.py:77-79, csv_data.py:77; none for graphs, base_data.py:60). -/
def initFormat (k : Kind) (o : Opts) : V :=
  match k with
  | .text => opt o "data_format" (.str "text")
  | .parquet | .csv => opt o "data_format" (.str "dataframe")
  | .json | .avro => opt o "data_format" (.str "flattened_dataframe")
  | .graph => .none

/-- The defaults a CSV reader takes with data in memory (csv_data.py:91-95). -/
def fillCsv : Attrs → Attrs
  | .csv a d q b h c s => .csv a (if truthy d then d else .str ",") (if truthy q then q else .str "\"") b h c s
  | x => x

/-- `_load_data(data)` with data in memory (text_data.py:77-80, structured_mixins.py:50-58, graph_data.py:292-296). -/
def loadMem (L : Lib) (k : Kind) (m : Mem) (a : Attrs) : Except Err (Mem × Attrs) :=
  match k with
  | .text => .ok (m, a)
  | .graph =>
    match m with
    | .graph _ => .ok (m, a)
    | _ => .error .valueError
  | _ =>
    match m with
    | .frame _ => .ok (m, a)
    | .text s => L.parse k s a
    | _ => .error .valueError

/-- Whether the text reader refuses the data (text_data.py:47-48). -/
def refused (k : Kind) : Option Mem → Bool
  | none => false
  | some (.text _) => false
  | some _ => k == .text

/-- The object as the constructor has it before loading the data (base_data.py:42-65 and the constructors of the classes). -/
def blank (k : Kind) (path : Option Src) (data : Option Mem) (o : Opts) : Obj :=
  ⟨k, path, some o, data, initFormat k o, opt o "encoding" .none, initAttrs k o⟩

/-- `__init__`: the object afterwards, and the exception if one is raised. `old` is the object before, which stays as it is
when the arguments are refused at once. -/
def init (L : Lib) (k : Kind) (old : Obj) (path : Option Src) (data : Option Mem) (options : Option Opts) : Obj × Option Err :=
  let o := options.getD []
  if refused k data || !optionsOk k o then (old, some .valueError)
  else
    match data with
    | none => (blank k path none o, none)
    | some m =>
      match loadMem L k m (initAttrs k o) with
      | .error e => (blank k path (some m) o, some e)
      | .ok (m', a) => ({ blank k path (some m') o with attrs := if k = .csv then fillCsv a else a }, none)

/-- A new object: `data_class(input_file_path, data, options)`. -/
def construct (L : Lib) (k : Kind) (path : Option Src) (data : Option Mem) (options : Option Opts) : Except Err Obj :=
  match init L k (blank k none none []) path data options with
  | (obj, none) => .ok obj
  | (_, some e) => .error e

/-! ## The factory -/

/-- `data_classes` (data.py:20-27). -/
def classes : List Kind := [.json, .graph, .csv, .parquet, .avro, .text]

/-- The loop over the classes (data.py:76-87). -/
def pick (L : Lib) (src : Option Src) (data : Option Mem) (ty : String) (o : Opts) : List Kind → Except Err Obj
  | [] => .error .valueError
  | k :: ks =>
    if ty = "" ∨ ty = typeName k then
      match data, src with
      | some m, src => construct L k src (some m) (some o)
      | none, none => .error .attributeError
      | none, some s => do
        let r ← isMatch L k s o
        if r.1 then construct L k (some s) none (some r.2) else pick L src data ty o ks
    else pick L src data ty o ks

/-- The address is fetched (data.py:67-74); the second value are the options left. -/
def fetch (L : Lib) (src : Option Src) (o : Opts) : Except Err (Option Src) × Opts :=
  match src with
  | some (.path s) =>
    if L.isUrl s then
      if L.isS3 s then ((L.s3 (PyDict.get? o "storage_options") s).map some, PyDict.del o "storage_options")
      else ((L.download o s).map some, o)
    else (.ok src, o)
  | _ => (.ok src, o)

/-- `Data(input_file_path, data, data_type, options)` (data.py:29-87): the reader, and the caller's options afterwards. A type that is
`None` is the empty text; options that are `None` are the empty dictionary. -/
def factory (L : Lib) (src : Option Src) (data : Option Mem) (ty : String) (o : Opts) : Except Err Obj × Opts :=
  if !given src && data.isNone then (.error .valueError, o)
  else if given src && data.isSome then (.error .valueError, o)
  else if data.isSome && ty == "" then (.error .valueError, o)
  else
    match fetch L src o with
    | (.error e, o') => (.error e, o')
    | (.ok src', o') => (pick L src' data ty o' classes, o')

/-! ## Reload -/

/-- `BaseData.reload` (base_data.py:169-193): the object afterwards, the options of the caller afterwards, and the exception. Recognisers
get an empty dictionary of their own if there are no options. -/
def baseReload (L : Lib) (x : Obj) (src : Option Src) (options : Option Opts) : Obj × Option Opts × Option Err :=
  match src with
  | some s =>
    if given (some s) then
      match isMatch L x.kind s (options.getD []) with
      | .error e => (x, options, some e)
      | .ok (false, o') => (x, options.map fun _ => o', some .valueError)
      | .ok (true, o') => ({ x with path := some s, data := none, options := none }, options.map fun _ => o', none)
    else ({ x with data := none, options := none }, options, none)
  | none => ({ x with data := none, options := none }, options, none)

/-- `self._selected_keys = None` (json_data.py:444). -/
def forgetKeys : Attrs → Attrs
  | .json p s _ m => .json p s .none m
  | a => a

/-- The settings a CSV reader puts in the options (csv_data.py:763-767). -/
def keepCsv (a : Attrs) (o : Opts) : Opts :=
  match a with
  | .csv _ d q _ h _ _ => PyDict.set (PyDict.set (PyDict.set o "header" h) "delimiter" d) "quotechar" q
  | _ => o

/-- `BaseData.reload`, then the constructor of the class on the same object (text_data.py:147-148, parquet_data.py:183-184,
json_data.py:445-446, csv_data.py:768-769). -/
def reloadWith (L : Lib) (x : Obj) (src : Option Src) (data : Option Mem) (options : Option Opts) : Obj × Option Opts × Option Err :=
  match baseReload L x src options with
  | (y, o, some e) => (y, o, some e)
  | (y, o, none) =>
    match init L x.kind y y.path data o with
    | (z, e) => (z, o, e)

/-- `reload` of each class; the graph reader has none of its own. The CSV reader makes a new dictionary if there are no options, or
no option (csv_data.py:761-762), which the caller does not see. -/
def reload (L : Lib) (x : Obj) (src : Option Src) (data : Option Mem) (options : Option Opts) : Obj × Option Opts × Option Err :=
  match x.kind with
  | .text | .parquet => reloadWith L x src data options
  | .json | .avro => reloadWith L { x with attrs := forgetKeys x.attrs } src data options
  | .csv =>
    match reloadWith L x src data (some (keepCsv x.attrs (options.getD []))) with
    | (y, o, e) => (y, if options.getD [] = [] then options else o, e)
  | .graph => baseReload L x src options

/-! ## Reading -/

/-- The keys of `_data_formats` (text_data.py:61, structured_mixins.py:33, parquet_data.py:66-67, json_data.py:72-76, csv_data.py:75). -/
def formats : Kind → List String
  | .text => ["text"]
  | .parquet => ["dataframe", "records", "json"]
  | .json | .avro => ["dataframe", "records", "json", "flattened_dataframe"]
  | .csv => ["dataframe", "records"]
  | .graph => []

/-- `_load_data()` from the file (text_data.py:81-84, structured_mixins.py:59-63, graph_data.py:297-298); without a file the text and graph readers
fail when opening it, with an `AttributeError` (what becomes of that is in `Verif.Model.Attribute`). The other readers take an empty path for
no file; the text and graph readers open it. -/
def loadFile (L : Lib) (x : Obj) : Except Err Obj :=
  match x.path with
  | none => .error (if x.kind = .text ∨ x.kind = .graph then .attributeError else .valueError)
  | some s =>
    if !given (some s) && x.kind ≠ .text && x.kind ≠ .graph then .error .valueError
    else do
      let r ← L.read x.kind s x.encoding x.attrs
      .ok { x with data := some r.1, attrs := r.2 }

/-- The property `data` (base_data.py:67-82): the reader afterwards, and the data with the name of the conversion applied to them. -/
def getData (L : Lib) (x : Obj) : Obj × Except Err (Mem × Option String) :=
  match (match x.data with
    | some _ => Except.ok x
    | none => loadFile L x) with
  | .error e => (x, .error e)
  | .ok y =>
    match y.data with
    | none => (y, .error .valueError)
    | some m =>
      if truthy y.format = false then (y, .ok (m, none))
      else
        match y.format with
        | .str f => if f ∈ formats y.kind then (y, .ok (m, some f)) else (y, .error .valueError)
        | _ => (y, .error .valueError)

/-- The setter of `data_format` (base_data.py:89-98); `lower` is `str.lower`. -/
def setFormat (lower : String → String) (x : Obj) (value : String) : Obj × Option Err :=
  if lower value ∈ formats x.kind then ({ x with format := .str (lower value) }, none) else (x, some .valueError)

end Verif.Reader
