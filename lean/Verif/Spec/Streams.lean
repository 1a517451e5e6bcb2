import Verif.Model.Streams
import Verif.Spec.Reader

/-!
# Datasets in files

What is said of a file with some content, and read from it: every look at it starts at its beginning.
-/

namespace Verif.Spec.Streams

open Verif Verif.Reader Verif.Streams

variable {R : Type}

/-- The encoding of a file; a text has none. -/
def encoding (L : Lib R) : Content → Option String
  | .bytes l => some (L.second (L.first (.bytes l)) (.bytes l))
  | .chars _ => none

/-- The file is JSON: as a whole, or line by line. -/
def IsJson (L : Lib R) (c : Content) : Prop :=
  (∃ r, L.doc (encoding L c) c = some r) ∨ L.enough (encoding L c) c = true

instance (L : Lib R) (c : Content) : Decidable (IsJson L c) :=
  decidable_of_iff ((L.doc (encoding L c) c).isSome = true ∨ L.enough (encoding L c) c = true) (by
    rw [IsJson, Option.isSome_iff_exists])

/-- What is tried instead when a stream with that content is not at its start: the encoding is guessed from what is left of it, and a
text has to be JSON from the position on. -/
def JsonFrom (L : Lib R) (c : Content) (p : ℕ) : Prop :=
  match c with
  | .bytes l => (∃ r, L.doc (some (L.second (L.first (.bytes (l.drop p))) c)) c = some r) ∨
      L.enough (some (L.second (L.first (.bytes (l.drop p))) c)) c = true
  | .chars l => (∃ r, L.doc none (.chars (l.drop p)) = some r) ∨ L.enough none c = true

/-- The options with the encoding that was found. -/
def encoded (L : Lib R) (c : Content) (o : Opts) : Opts :=
  match PyDict.get? o "encoding", encoding L c with
  | none, some e => PyDict.set o "encoding" (.str e)
  | _, _ => o

/-- The encoding named in the options. -/
def given (o : Opts) : Option String :=
  match PyDict.get? o "encoding" with
  | some (.str e) => some e
  | _ => none

/-- What the recogniser of delimited files says of a file. -/
def csvAnswer (L : Lib R) (c : Content) (o : Opts) : Except Err (Bool × Opts) :=
  if IsJson L c ∨ L.parquet c = true ∨ L.avro c = true then .ok (false, o)
  else do
    let t ← L.front (given (encoded L c o)) c
    L.csv (encoded L c o) t

/-- What the recogniser of a format says of a file. -/
def answer (L : Lib R) (c : Content) (o : Opts) : Kind → Except Err (Bool × Opts)
  | .json => .ok (decide (IsJson L c), o)
  | .parquet => .ok (L.parquet c, o)
  | .avro => .ok (L.avro c, o)
  | .csv => csvAnswer L c o
  | .graph => do
    let r ← csvAnswer L c o
    if r.1 then L.graph r.2 c else .ok (false, r.2)
  | .text => .ok (true, o)

/-- The encoding a file is read with. -/
def readWith (L : Lib R) (c : Content) (o : Opts) : Option String :=
  match given o with
  | some e => if e = "" then encoding L c else some e
  | none => encoding L c

/-- The front a graph reader looks at: none if it knows the header row and the delimiter. -/
def FrontOf (L : Lib R) (c : Content) (o : Opts) (f : Option (List Char)) : Prop :=
  ((∃ h, PyDict.get? o "header" = some h ∧ h ≠ .str "auto") ∧ (∃ d, PyDict.get? o "delimiter" = some d ∧ truthy d = true) ∧ f = none) ∨
  (¬ ((∃ h, PyDict.get? o "header" = some h ∧ h ≠ .str "auto") ∧ ∃ d, PyDict.get? o "delimiter" = some d ∧ truthy d = true) ∧
    ∃ t, L.front (readWith L c o) c = .ok t ∧ f = some t)

/-- The data in a file. -/
def Holds (L : Lib R) (c : Content) (o : Opts) (r : R) : Kind → Prop
  | .json => L.doc (readWith L c o) c = some r ∨ (L.doc (readWith L c o) c = none ∧ L.lines (readWith L c o) c = .ok r)
  | .csv => ∃ t, L.front (readWith L c o) c = .ok t ∧ L.table o (readWith L c o) (some t) c = .ok r
  | .graph => ∃ f ns x, FrontOf L c o f ∧ L.table o (readWith L c o) f c = .ok x ∧ L.edges ns x = .ok r ∧
      ((∃ l, PyDict.get? o "column_names" = some (.strs l) ∧ ns = some l) ∨
       ((∀ l, PyDict.get? o "column_names" ≠ some (.strs l)) ∧
        ((L.asks o f = false ∧ ns = none) ∨ (L.asks o f = true ∧ ∃ l, L.names o (readWith L c o) c = .ok l ∧ ns = some l))))
  | .text => L.text (readWith L c o) c = .ok r
  | .avro => L.records c = .ok r
  | .parquet => L.columns o c = .ok r

end Verif.Spec.Streams
