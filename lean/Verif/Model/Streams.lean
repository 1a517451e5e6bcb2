import Verif.Model.Reader

/-!
# Datasets in streams

Models what opening a stream in memory (`io.BytesIO` or `io.StringIO`) does with the position of the stream: the recognisers
(dataprofiler/data_readers/json_data.py:368-422, graph_data.py:113-190, csv_data.py:623-742, parquet_data.py:131-160,
avro_data.py:77-106, text_data.py:108-125) and the readers (json_data.py:260-281, csv_data.py:567-613, graph_data.py:193-290,
parquet_data.py:106-115, avro_data.py:63-75, text_data.py:75-84), called by the factory `Data` (data.py:76-87).

Everything read inside a `FileOrBufferHandler` is read from the position on, and the stream is at its start afterwards
(filepath_or_buffer.py:61-104).  What the parsers and heuristics say of what they read is a parameter (they are modelled elsewhere,
see C44, C66-C69, C74, C88 and C89).  Simplifications: a stream is open and not used otherwise meanwhile; parsing a text as JSON fails
with one of the exceptions that are caught or not at all; a position is one between two characters.
-/

namespace Verif.Streams

open Verif Verif.Reader

/-- What is in a stream. -/
inductive Content where
  | bytes (l : List ℕ)
  | chars (l : List Char)
  deriving DecidableEq, Repr

/-- What is left from a position on. -/
def Content.rest : Content → ℕ → Content
  | .bytes l, n => .bytes (l.drop n)
  | .chars l, n => .chars (l.drop n)

/-- The position behind everything. -/
def Content.size : Content → ℕ
  | .bytes l => l.length
  | .chars l => l.length

/-- A stream in memory. -/
structure Stream where
  content : Content
  pos : ℕ
  deriving DecidableEq, Repr

/-- `stream.read()`. -/
def Stream.seen (s : Stream) : Content := s.content.rest s.pos

/-- `stream.seek(0)`. -/
def Stream.start (s : Stream) : Stream := { s with pos := 0 }

/-- What is not modelled. `R` are data that were read. -/
structure Lib (R : Type) where
  /-- the encoding `chardet` finds (data_utils.py:602-618) -/
  first : Content → String
  /-- the encoding after trying to decode with it (data_utils.py:620-673) -/
  second : String → Content → String
  /-- `json.load` -/
  doc : Option String → Content → Option R
  /-- enough of the lines are JSON (json_data.py:398-422) -/
  enough : Option String → Content → Bool
  /-- `read_json` -/
  lines : Option String → Content → Except Err R
  /-- `pq.ParquetFile` raises no exception; it goes to where it reads -/
  parquet : Content → Bool
  /-- `fastavro.is_avro` -/
  avro : Content → Bool
  /-- `load_as_str_from_file` -/
  front : Option String → Content → Except Err (List Char)
  /-- the rest of `CSVData.is_match` (csv_data.py:648-742) -/
  csv : Opts → List Char → Except Err (Bool × Opts)
  /-- the rest of `GraphData.is_match` (graph_data.py:156-190) -/
  graph : Opts → Content → Except Err (Bool × Opts)
  /-- the header row is a number, perhaps after looking at the front (graph_data.py:237-240) -/
  asks : Opts → Option (List Char) → Bool
  /-- the names of the columns of a graph (graph_data.py:113-141) -/
  names : Opts → Option String → Content → Except Err (List String)
  /-- settings after looking at the front, and `read_csv_df` of the rest; no front if it was not looked at -/
  table : Opts → Option String → Option (List Char) → Content → Except Err R
  /-- the edges of a table -/
  edges : Option (List String) → R → Except Err R
  /-- `list(stream)` -/
  text : Option String → Content → Except Err R
  /-- `fastavro.reader` -/
  records : Content → Except Err R
  /-- `read_parquet_df`, and where it leaves the stream -/
  columns : Opts → Content → Except Err R
  stop : Content → ℕ

variable {R : Type}

/-- `detect_file_encoding` (data_utils.py:590-673): the first look is from the position on, the others are from the start. -/
def detect (L : Lib R) (s : Stream) : String × Stream := (L.second (L.first s.seen) s.content, s.start)

/-- The stream is not a `StringIO`, and its encoding is to be found. -/
def isBytes : Content → Bool
  | .bytes _ => true
  | .chars _ => false

/-- The text of the stream is JSON from the position on, or the lines from the start are (json_data.py:390-422). -/
def jsonBody (L : Lib R) (e : Option String) (s : Stream) : Bool × Stream :=
  ((L.doc e s.seen).isSome || L.enough e s.content, s.start)

/-- `JSONData.is_match` (json_data.py:368-422). -/
def jsonMatch (L : Lib R) (s : Stream) : Bool × Stream :=
  if isBytes s.content then jsonBody L (some (detect L s).1) (detect L s).2 else jsonBody L none s

/-- `ParquetData.is_match` (parquet_data.py:131-160): the position is restored. -/
def parquetMatch (L : Lib R) (s : Stream) : Bool × Stream := (L.parquet s.content, s)

/-- `AVROData.is_match` (avro_data.py:77-106): the position is restored. -/
def avroMatch (L : Lib R) (s : Stream) : Bool × Stream := (L.avro s.seen, s)

/-- `options["encoding"] = detect_file_encoding(…)` if there is none (csv_data.py:645-646). -/
def withEncoding (L : Lib R) (s : Stream) (o : Opts) : Opts × Stream :=
  if !PyDict.has o "encoding" && isBytes s.content then (PyDict.set o "encoding" (.str (detect L s).1), (detect L s).2) else (o, s)

/-- The encoding in the options. -/
def encodingIn (o : Opts) : Option String :=
  match PyDict.get? o "encoding" with
  | some (.str e) => some e
  | _ => none

/-- The front of the stream (csv_data.py:652-654). -/
def csvBody (L : Lib R) (s : Stream) (o : Opts) : Except Err (Bool × Opts) × Stream :=
  (match L.front (encodingIn o) s.seen with
    | .error e => .error e
    | .ok t => L.csv o t, s.start)

/-- `CSVData.is_match` (csv_data.py:623-742). -/
def csvMatch (L : Lib R) (s : Stream) (o : Opts) : Except Err (Bool × Opts) × Stream :=
  if (jsonMatch L s).1 then (.ok (false, o), (jsonMatch L s).2)
  else if (parquetMatch L (jsonMatch L s).2).1 then (.ok (false, o), (jsonMatch L s).2)
  else if (avroMatch L (jsonMatch L s).2).1 then (.ok (false, o), (jsonMatch L s).2)
  else csvBody L (withEncoding L (jsonMatch L s).2 o).2 (withEncoding L (jsonMatch L s).2 o).1

/-- `GraphData.is_match` (graph_data.py:144-190). -/
def graphMatch (L : Lib R) (s : Stream) (o : Opts) : Except Err (Bool × Opts) × Stream :=
  match csvMatch L s o with
  | (.error e, s') => (.error e, s')
  | (.ok (false, o'), s') => (.ok (false, o'), s')
  | (.ok (true, o'), s') => (L.graph o' s'.seen, s'.start)

/-- `TextData.is_match` (text_data.py:108-125). -/
def textMatch (L : Lib R) (s : Stream) (o : Opts) : Except Err (Bool × Opts) × Stream :=
  if !PyDict.has o "encoding" && isBytes s.content then (.ok (true, o), (detect L s).2) else (.ok (true, o), s)

/-- `data_class.is_match`. -/
def isMatch (L : Lib R) (k : Kind) (s : Stream) (o : Opts) : Except Err (Bool × Opts) × Stream :=
  match k with
  | .json => (.ok ((jsonMatch L s).1, o), (jsonMatch L s).2)
  | .graph => graphMatch L s o
  | .csv => csvMatch L s o
  | .parquet => (.ok ((parquetMatch L s).1, o), (parquetMatch L s).2)
  | .avro => (.ok ((avroMatch L s).1, o), (avroMatch L s).2)
  | .text => textMatch L s o

/-- The loop over the classes (data.py:76-87): the class and the options it is made with. Making it does not touch the stream. -/
def pick (L : Lib R) (ty : String) (o : Opts) : List Kind → Stream → Except Err (Kind × Opts) × Stream
  | [], s => (.error .valueError, s)
  | k :: ks, s =>
    if ty = "" ∨ ty = typeName k then
      match isMatch L k s o with
      | (.error e, s') => (.error e, s')
      | (.ok (true, o'), s') => (.ok (k, o'), s')
      | (.ok (false, _), s') => pick L ty o ks s'
    else pick L ty o ks s

/-- `Data(stream, data_type=ty, options=o)` (data.py:29-87). -/
def openStream (L : Lib R) (ty : String) (o : Opts) (s : Stream) : Except Err (Kind × Opts) × Stream := pick L ty o classes s

/-! ### Reading -/

/-- `self.file_encoding` (base_data.py:105-124); the encoding of a `StringIO` is not used. -/
def encodingOf (L : Lib R) (s : Stream) (o : Opts) : Option String × Stream :=
  match encodingIn o with
  | some e => if e = "" then (if isBytes s.content then (some (detect L s).1, (detect L s).2) else (none, s)) else (some e, s)
  | none => if isBytes s.content then (some (detect L s).1, (detect L s).2) else (none, s)

/-- `JSONData._load_data_from_file` (json_data.py:260-281). -/
def readJson (L : Lib R) (e : Option String) (s : Stream) : Except Err R × Stream :=
  (match L.doc e s.seen with
    | some r => .ok r
    | none => L.lines e s.content, s.start)

/-- `read_csv_df` (data_utils.py:370-441): from the position on, to the end. Where a failing parser leaves the stream is not described. -/
def readTable (L : Lib R) (o : Opts) (e : Option String) (front : Option (List Char)) (s : Stream) : Except Err R × Stream :=
  (L.table o e front s.seen, { s with pos := max s.pos s.content.size })

/-- `CSVData._load_data_from_file` (csv_data.py:567-613). -/
def readCsv (L : Lib R) (o : Opts) (e : Option String) (s : Stream) : Except Err R × Stream :=
  match L.front e s.seen with
  | .error x => (.error x, s.start)
  | .ok t => readTable L o e (some t) s.start

/-- The settings of a graph reader are complete: the header row and the delimiter are known (graph_data.py:199). -/
def settled (o : Opts) : Bool := headerChecked o && truthy (opt o "delimiter" .none)

/-- The names of the columns of a graph are given (graph_data.py:237-244). -/
def named (o : Opts) : Option (List String) :=
  match PyDict.get? o "column_names" with
  | some (.strs l) => some l
  | _ => none

/-- The front of the stream is looked at if it has to be (graph_data.py:199-234). -/
def graphFront (L : Lib R) (o : Opts) (e : Option String) (s : Stream) : Except Err (Option (List Char)) × Stream :=
  if settled o then (.ok none, s)
  else ((L.front e s.seen).map some, s.start)

/-- The names of the columns are read if they are not known and there is a header row (graph_data.py:237-244). -/
def graphNames (L : Lib R) (o : Opts) (e : Option String) (f : Option (List Char)) (s : Stream) :
    Except Err (Option (List String)) × Stream :=
  match named o with
  | some l => (.ok (some l), s)
  | none => if L.asks o f then ((L.names o e s.seen).map some, s.start) else (.ok none, s)

/-- `GraphData._format_data_networkx` (graph_data.py:193-290). -/
def readGraph (L : Lib R) (o : Opts) (e : Option String) (s : Stream) : Except Err R × Stream :=
  match graphFront L o e s with
  | (.error x, s1) => (.error x, s1)
  | (.ok f, s1) =>
    match graphNames L o e f s1 with
    | (.error x, s2) => (.error x, s2)
    | (.ok ns, s2) =>
      match readTable L o e f s2 with
      | (.error x, s3) => (.error x, s3)
      | (.ok r, s3) => (L.edges ns r, s3)

/-- Reading the data of a reader that has options `o` (the property `data`, base_data.py:67-72). AVRO and Parquet have no encoding. -/
def readStream (L : Lib R) (k : Kind) (o : Opts) (s : Stream) : Except Err R × Stream :=
  match k with
  | .json => readJson L (encodingOf L s o).1 (encodingOf L s o).2
  | .csv => readCsv L o (encodingOf L s o).1 (encodingOf L s o).2
  | .graph => readGraph L o (encodingOf L s o).1 (encodingOf L s o).2
  | .text => (L.text (encodingOf L s o).1 (encodingOf L s o).2.seen, (encodingOf L s o).2.start)
  | .avro => (L.records s.seen, s.start)
  | .parquet => (L.columns o s.content, { s with pos := L.stop s.content })

end Verif.Streams
