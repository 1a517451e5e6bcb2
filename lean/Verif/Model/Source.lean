import Mathlib.Data.Nat.Notation
import Mathlib.Data.Int.Notation
import Verif.Model.Basic

/-!
# Files, buffers and addresses

Models `FileOrBufferHandler` (dataprofiler/data_readers/filepath_or_buffer.py:22-104) and the functions of
dataprofiler/data_readers/data_utils.py that use it to find the encoding of a file (590-673) and to read its lines (570-587), that
download an address (863-929) and that fetch an object of S3 (932-1051).

What is done with an open stream is a program of reading, going back to the start and closing.  Decoding, the two libraries that guess
encodings, the transfer and the client of S3 are parameters.  Simplifications: a stream is not written to, offsets are counted from the
start, a text stream is read from a character boundary, errors of the operating system are `Err.exception`, and so is `LookupError`.
Addresses have no blanks, tabs or line ends, which `urlsplit` removes.
-/

namespace Verif.Source

open Verif

/-- Something passed as a file. -/
inductive Src where
  | path (name : String)
  | bytesIO (id : ℕ)
  | stringIO (id : ℕ)
  | other
  deriving DecidableEq

/-- A buffer in memory. -/
structure Buf (α : Type) where
  content : List α
  pos : ℕ
  closed : Bool
  deriving DecidableEq

/-- Files, the number of open file handles, and buffers. -/
structure World where
  disk : String → Option (List ℕ)
  handles : ℕ
  bytesIO : ℕ → Buf ℕ
  stringIO : ℕ → Buf Char

/-- The value of one number changed. -/
def upd {α : Type} (f : ℕ → α) (i : ℕ) (a : α) : ℕ → α := fun j => if j = i then a else f j

/-- What is not modelled. -/
structure Lib where
  /-- whether there is a codec; `none` is the one of the locale -/
  known : Option String → Bool
  /-- the text of some bytes, before line ends are translated; `none` if they are not valid -/
  raw : Option String → List ℕ → Option (List Char)
  /-- the first characters of some bytes, after line ends are translated -/
  front : Option String → List ℕ → ℕ → Option (List Char)
  /-- `chardet` -/
  guess : List (List ℕ) → Option String
  /-- `charset_normalizer.from_bytes(bytes, steps, chunk_size, …).best()` -/
  best : ℕ → ℕ → List ℕ → Except Err (Option String)
  /-- `str.lower` -/
  lower : String → String

/-! ### Streams -/

/-- Line ends of texts that are read: `\r\n` and `\r` become `\n`. -/
def translate : List Char → List Char
  | [] => []
  | '\r' :: '\n' :: t => '\n' :: translate t
  | c :: t => (if c = '\r' then '\n' else c) :: translate t

/-- What a stream is when it is open. -/
inductive View where
  | bytes (content : List ℕ) (pos : ℕ)
  | text (content : List Char) (pos : ℕ)
  | wrapped (enc : Option String) (content : List ℕ) (start used : ℕ)

/-- A stream and whether it is closed. -/
structure Live where
  view : View
  closed : Bool

/-- What is read. -/
inductive Item where
  | bytes (l : List ℕ)
  | text (l : List Char)
  deriving DecidableEq

/-- At most so many. -/
def upTo {α : Type} (n : Option ℕ) (l : List α) : List α :=
  match n with
  | none => l
  | some n => l.take n

/-- The first characters of some bytes, or all. -/
def textOf (L : Lib) (enc : Option String) (b : List ℕ) (n : Option ℕ) : Option (List Char) :=
  match n with
  | none => (L.raw enc b).map translate
  | some n => L.front enc b n

/-- `stream.read(n)`. -/
def Live.read (L : Lib) (s : Live) (n : Option ℕ) : Except Err Item × Live :=
  if s.closed then (.error .valueError, s)
  else
    match s.view with
    | .bytes c p => (.ok (.bytes (upTo n (c.drop p))), ⟨.bytes c (p + (upTo n (c.drop p)).length), false⟩)
    | .text c p => (.ok (.text (upTo n (c.drop p))), ⟨.text c (p + (upTo n (c.drop p)).length), false⟩)
    | .wrapped enc c p used =>
      match textOf L enc (c.drop p) (n.map (used + ·)) with
      | none => (.error .valueError, s)
      | some t => (.ok (.text (t.drop used)), ⟨.wrapped enc c p t.length, false⟩)

/-- `stream.seek(n)`. -/
def Live.seek (s : Live) (n : ℤ) : Except Err Live :=
  if s.closed then .error .valueError
  else if n < 0 then .error .valueError
  else
    match s.view with
    | .bytes c _ => .ok ⟨.bytes c n.toNat, false⟩
    | .text c _ => .ok ⟨.text c n.toNat, false⟩
    | .wrapped enc c _ _ => .ok ⟨.wrapped enc c n.toNat 0, false⟩

/-- What is done with an open stream. -/
inductive Prog (A : Type) where
  | done (a : A)
  | raise (e : Err)
  | read (n : Option ℕ) (k : Except Err Item → Prog A)
  | rewind (k : Except Err Unit → Prog A)
  | close (k : Prog A)

/-- Running it. -/
def Prog.run {A : Type} (L : Lib) : Prog A → Live → Except Err A × Live
  | .done a, s => (.ok a, s)
  | .raise e, s => (.error e, s)
  | .read n k, s => ((k (s.read L n).1).run L) (s.read L n).2
  | .rewind k, s =>
    match s.seek 0 with
    | .error e => (k (.error e)).run L s
    | .ok s' => (k (.ok ())).run L s'
  | .close k, s => k.run L ⟨s.view, true⟩

/-- How a stream is opened. -/
inductive Mode where
  | r
  | rb
  deriving DecidableEq

/-- The stream for a file or a buffer, without `seek` (filepath_or_buffer.py:61-80). -/
def opened (L : Lib) (w : World) (src : Src) (mode : Mode) (enc : Option String) : World × Except Err Live :=
  match src with
  | .path f =>
    match mode, enc with
    | .rb, some _ => (w, .error .valueError)
    | _, _ =>
      match w.disk f with
      | none => (w, .error .exception)
      | some c =>
        match mode with
        | .rb => ({ w with handles := w.handles + 1 }, .ok ⟨.bytes c 0, false⟩)
        | .r =>
          if L.known enc then ({ w with handles := w.handles + 1 }, .ok ⟨.wrapped enc c 0 0, false⟩) else (w, .error .exception)
  | .bytesIO i =>
    match mode with
    | .rb => (w, .ok ⟨.bytes (w.bytesIO i).content (w.bytesIO i).pos, (w.bytesIO i).closed⟩)
    | .r =>
      if L.known enc = false then (w, .error .exception)
      else if (w.bytesIO i).closed then (w, .error .valueError)
      else (w, .ok ⟨.wrapped enc (w.bytesIO i).content (w.bytesIO i).pos 0, false⟩)
  | .stringIO i => (w, .ok ⟨.text (w.stringIO i).content (w.stringIO i).pos, (w.stringIO i).closed⟩)
  | .other => (w, .error .attributeError)

/-- `FileOrBufferHandler.__enter__` (filepath_or_buffer.py:61-85). -/
def enter (L : Lib) (w : World) (src : Src) (mode : Mode) (enc : Option String) (offset : Option ℤ) : World × Except Err Live :=
  match opened L w src mode enc with
  | (w', .error e) => (w', .error e)
  | (w', .ok s) =>
    match offset with
    | none => (w', .ok s)
    | some n =>
      match s.seek n with
      | .error e => (w', .error e)
      | .ok s' => (w', .ok s')

/-- `FileOrBufferHandler.__exit__` (filepath_or_buffer.py:87-104). -/
def exit (w : World) (src : Src) (s : Live) : World × Except Err Unit :=
  match src with
  | .path _ => ({ w with handles := w.handles - 1 }, .ok ())
  | .bytesIO i =>
    if s.closed then ({ w with bytesIO := upd w.bytesIO i { w.bytesIO i with closed := true } }, .error .valueError)
    else ({ w with bytesIO := upd w.bytesIO i ⟨(w.bytesIO i).content, 0, false⟩ }, .ok ())
  | .stringIO i =>
    if s.closed then ({ w with stringIO := upd w.stringIO i { w.stringIO i with closed := true } }, .error .valueError)
    else ({ w with stringIO := upd w.stringIO i ⟨(w.stringIO i).content, 0, false⟩ }, .ok ())
  | .other => (w, .ok ())

/-- `with FileOrBufferHandler(src, mode, encoding, offset) as stream: …`. -/
def withHandle {A : Type} (L : Lib) (w : World) (src : Src) (mode : Mode) (enc : Option String) (offset : Option ℤ) (body : Prog A) :
    World × Except Err A :=
  match enter L w src mode enc offset with
  | (w', .error e) => (w', .error e)
  | (w', .ok s) =>
    match exit w' src (body.run L s).2 with
    | (w'', .error e) => (w'', .error e)
    | (w'', .ok ()) => (w'', (body.run L s).1)

/-! ### The encoding of a file -/

/-- The chunks that are shown to `chardet` (data_utils.py:605-612): at most so many, and one more is read. -/
def feed (size : ℕ) : ℕ → List (List ℕ) → Prog (List (List ℕ))
  | 0, acc => .read (some size) fun
    | .error e => .raise e
    | .ok _ => .done acc
  | n + 1, acc => .read (some size) fun
    | .error e => .raise e
    | .ok (.text []) => .done acc
    | .ok (.text (_ :: _)) => .raise .typeError
    | .ok (.bytes []) => .done acc
    | .ok (.bytes (x :: t)) => feed size n (acc ++ [x :: t])

/-- The first guess (data_utils.py:614-618). -/
def firstGuess (L : Lib) (chunks : List (List ℕ)) : String :=
  match L.guess chunks with
  | none => "utf-8"
  | some e => if e = "" ∨ L.lower e = "ascii" ∨ L.lower e = "windows-1254" then "utf-8" else e

/-- The body of `_decode_is_valid` (data_utils.py:624). -/
def tryRead : Prog Unit :=
  .read (some (1024 * 1024)) fun
    | .error e => .raise e
    | .ok _ => .done ()

/-- `_decode_is_valid` (data_utils.py:621-627). -/
def decodes (L : Lib) (w : World) (src : Src) (enc : String) : World × Bool :=
  match withHandle L w src .r (some enc) none tryRead with
  | (w', .ok ()) => (w', true)
  | (w', .error _) => (w', false)

/-- What is asked of `charset_normalizer` (data_utils.py:634-645 and 652-663). -/
def ask (L : Lib) (n steps chunk : ℕ) : Prog (Option String) :=
  .read (some n) fun
    | .error e => .raise e
    | .ok (.text _) => .raise .typeError
    | .ok (.bytes b) =>
      match L.best steps chunk b with
      | .error e => .raise e
      | .ok r => .done r

/-- A second opinion (data_utils.py:633-645 and 651-663). -/
def opinion (L : Lib) (w : World) (src : Src) (n steps chunk : ℕ) : World × Except Err (Option String) :=
  withHandle L w src .rb none none (ask L n steps chunk)

/-- What is tried if the first guess does not decode (data_utils.py:629-667). -/
def retry (L : Lib) (w : World) (src : Src) (size lines : ℕ) (e : String) : World × String :=
  match opinion L w src 10000 5 512 with
  | (w1, .error _) => (w1, e)
  | (w1, .ok r1) =>
    match decodes L w1 src (r1.getD e) with
    | (w2, true) => (w2, r1.getD e)
    | (w2, false) =>
      match opinion L w2 src (lines * size) lines size with
      | (w3, .error _) => (w3, r1.getD e)
      | (w3, .ok r2) => (w3, r2.getD (r1.getD e))

/-- `if not encoding: encoding = "utf-8"` and `encoding.lower()` (data_utils.py:670-673). -/
def finish (L : Lib) (e : String) : String := L.lower (if e = "" then "utf-8" else e)

/-- `detect_file_encoding` (data_utils.py:590-673). -/
def detect (L : Lib) (w : World) (src : Src) (size lines : ℕ) : World × Except Err String :=
  match withHandle L w src .rb none none (feed size lines []) with
  | (w1, .error e) => (w1, .error e)
  | (w1, .ok chunks) =>
    match decodes L w1 src (firstGuess L chunks) with
    | (w2, true) => (w2, .ok (finish L (firstGuess L chunks)))
    | (w2, false) => ((retry L w2 src size lines (firstGuess L chunks)).1,
        .ok (finish L (retry L w2 src size lines (firstGuess L chunks)).2))

/-! ### The lines of a file -/

/-- The lines of a text; a line ends with `\n`. -/
def splitLines : List Char → List (List Char)
  | [] => []
  | c :: t =>
    if c = '\n' then [c] :: splitLines t
    else
      match splitLines t with
      | [] => [[c]]
      | l :: ls => (c :: l) :: ls

/-- `list(stream)`. -/
def allLines : Prog (List (List Char)) :=
  .read none fun
    | .error e => .raise e
    | .ok (.bytes _) => .raise .typeError
    | .ok (.text t) => .done (splitLines t)

/-- `read_text_as_list_of_strs` (data_utils.py:570-587). -/
def readLines (L : Lib) (w : World) (src : Src) (enc : Option String) : World × Except Err (List (List Char)) :=
  match enc with
  | some e => withHandle L w src .r (some e) none allLines
  | none =>
    match detect L w src 1024 20 with
    | (w1, .error e) => (w1, .error e)
    | (w1, .ok e) => withHandle L w1 src .r (some e) none allLines

/-! ### Addresses -/

/-- The parts of an address. -/
structure Url where
  scheme : List Char
  netloc : List Char
  path : List Char
  deriving DecidableEq

/-- `scheme_chars` of `urllib.parse`. -/
def schemeChar (c : Char) : Bool := c.isAlphanum || c = '+' || c = '-' || c = '.'

/-- The end of the network location. -/
def netEnd (c : Char) : Bool := c = '/' || c = '?' || c = '#'

/-- `urllib.parse.urlsplit`, without the query and the fragment. -/
def urlsplit (s : List Char) : Url :=
  let before := s.takeWhile (· ≠ ':')
  let legal := s.contains ':' && (match before with
    | [] => false
    | c :: t => c.isAlpha && t.all schemeChar)
  let scheme := if legal then before.map Char.toLower else []
  let rest := if legal then s.drop (before.length + 1) else s
  match rest with
  | '/' :: '/' :: t =>
    ⟨scheme, t.takeWhile (! netEnd ·), ((t.dropWhile (! netEnd ·)).takeWhile (· ≠ '#')).takeWhile (· ≠ '?')⟩
  | t => ⟨scheme, [], (t.takeWhile (· ≠ '#')).takeWhile (· ≠ '?')⟩

/-- `is_valid_url` for a text (data_utils.py:863-878). -/
def isUrl (s : List Char) : Bool := (urlsplit s).scheme ≠ [] && (urlsplit s).netloc ≠ []

/-- `S3Helper.is_s3_uri` (data_utils.py:941-962). -/
def isS3 (s : List Char) : Bool := "s3://".toList.isPrefixOf s || "s3a://".toList.isPrefixOf s

/-- The bucket and the key `S3Helper.get_s3_uri` asks for (data_utils.py:1043-1048). -/
def s3Object (s : List Char) : List Char × List Char := ((urlsplit s).netloc, (urlsplit s).path.dropWhile (· = '/'))

/-- What is asked of S3. -/
structure Creds where
  key : Option String
  secret : Option String
  token : Option String
  region : Option String
  deriving DecidableEq

/-- What is missing taken from the environment (data_utils.py:999-1010). -/
def fromEnv (env : String → Option String) (c : Creds) : Creds :=
  ⟨c.key.or (env "AWS_ACCESS_KEY_ID"), c.secret.or (env "AWS_SECRET_ACCESS_KEY"), c.token.or (env "AWS_SESSION_TOKEN"),
    some (c.region.getD ((env "AWS_REGION").getD "us-east-1"))⟩

/-- `S3Helper.create_s3_client` (data_utils.py:980-1027); `boto` returns nothing if it finds no credentials. -/
def client {C : Type} (env : String → Option String) (boto : Creds → Option C) (c : Creds) : Except Err C :=
  match boto (fromEnv env c) with
  | some x => .ok x
  | none =>
    if (fromEnv env c).key = none ∨ (fromEnv env c).secret = none then .error .valueError
    else
      match boto (fromEnv env c) with
      | some x => .ok x
      | none => .error .exception

/-- What a server answers. -/
structure Response where
  /-- the certificate is not trusted -/
  untrusted : Bool
  /-- `raise_for_status` raises -/
  bad : Bool
  /-- the header `Content-length` -/
  length : Option ℕ
  chunks : List (List ℕ)

/-- The loop over the chunks (data_utils.py:905-915). -/
def collect : ℕ → List ℕ → List (List ℕ) → Except Err (List ℕ)
  | _, acc, [] => .ok acc
  | total, acc, c :: t => if total + 8192 > 1024 ^ 3 then .error .valueError else collect (total + 8192) (acc ++ c) t

/-- `url_to_bytes` (data_utils.py:880-929): the content of the stream, which is at its start. -/
def download (server : Bool → Response) (verify : Option Bool) : Except Err (List ℕ) :=
  let r := server (verify.getD true)
  if r.untrusted then .error .exception
  else if r.bad then .error .exception
  else
    match r.length with
    | some n => if n ≥ 1024 ^ 3 then .error .valueError else collect 0 [] r.chunks
    | none => collect 0 [] r.chunks

end Verif.Source
