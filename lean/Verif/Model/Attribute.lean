import Verif.Model.PyDict
import Mathlib.Data.Nat.Notation

/-!
# The attributes of a dataset

Models `BaseData.__getattribute__` (dataprofiler/data_readers/base_data.py:212-245) on top of the property `data`
(base_data.py:66-82), the lookup of attributes by `object.__getattribute__`, which it calls for the dataset and for its data, and the
setting of attributes by `object.__setattr__`, which is not overridden.

Simplifications
* exceptions are `AttributeError`s, which carry their message, `RecursionError`, and numbered others;
* functions are values that are found in a class, like any attribute that is not a property;
* of what a dataset stores, the data in memory, the selected format and how often the file was read are kept apart from the other
  instance attributes; the result of the n-th reading is an arbitrary sequence, so the file may change in between;
* the recursion limit is a bound on the accesses nested in each other;
* no reader overrides the property `data` (text_data.py, csv_data.py, json_data.py, avro_data.py, parquet_data.py, graph_data.py).
-/

namespace Verif.Attribute

open Verif

/-- Exceptions. -/
inductive Exc where
  | attr (msg : String)
  | recursion
  | other (n : ℕ)
  deriving DecidableEq, Repr

/-- What an action gives, and the state it leaves. -/
abbrev Res (S A : Type) := Except Exc A × S

/-- An attribute of a class: a property with its functions, or something else. -/
inductive Member (S V : Type) where
  | prop (get : S → Res S V) (set : Option (V → S → Res S Unit))
  | plain (v : V)

/-- A class: its name, the name `object.__getattribute__` uses in messages, and the dictionaries of the class and its ancestors in the
order in which they are searched. -/
structure Class (S V : Type) where
  name : String
  shown : String
  mro : List (PyDict String (Member S V))

/-- The message for an attribute that does not exist. -/
def missing (cls name : String) : String := s!"'{cls}' object has no attribute '{name}'"

/-- Message of `BaseData.__getattribute__` (base_data.py:240-244). -/
def neither (cls dataCls name : String) : String := s!"Neither '{cls}' nor '{dataCls}' objects have attribute '{name}'"

variable {S V R : Type}

/-- The attribute of the first class that has it. -/
def find : List (PyDict String (Member S V)) → String → Option (Member S V)
  | [], _ => none
  | d :: ds, name =>
    match PyDict.get? d name with
    | some m => some m
    | none => find ds name

/-- `object.__getattribute__`: properties, then the instance, then the class. -/
def lookup (c : Class S V) (inst : PyDict String V) (name : String) (s : S) : Res S V :=
  match find c.mro name with
  | some (.prop g _) => g s
  | m =>
    match PyDict.get? inst name with
    | some v => (.ok v, s)
    | none =>
      match m with
      | some (.plain v) => (.ok v, s)
      | _ => (.error (.attr (missing c.shown name)), s)

/-- What a dataset stores. -/
structure Dataset (R V : Type) where
  /-- `_data` -/
  raw : Option R
  /-- `_selected_data_format` -/
  format : Option String
  /-- the other attributes of the instance -/
  inst : PyDict String V
  /-- how often the file was read -/
  reads : ℕ
  deriving DecidableEq

/-- The reader, its file and the data. -/
structure World (R V : Type) where
  /-- the reader class without `BaseData.data` -/
  cls : Class (Dataset R V) V
  /-- `_load_data` -/
  load : ℕ → Except Exc R
  /-- `_data_formats` -/
  formats : PyDict String (R → V)
  /-- the data as they are -/
  whole : R → V
  /-- the error for a format that does not exist -/
  badFormat : Exc
  /-- the class of an object, and its instance attributes -/
  clsOf : V → Class (Dataset R V) V
  instOf : V → PyDict String V
  /-- the `__getattr__` of its class, if there is one -/
  hook : V → Option (String → Except Exc V)
  /-- the message for a property that cannot be set -/
  readOnly : String

/-- The data in memory, read if there are none (base_data.py:69-70). -/
def ensure (w : World R V) (s : Dataset R V) : Res (Dataset R V) R :=
  match s.raw with
  | some r => (.ok r, s)
  | none =>
    match w.load s.reads with
    | .ok r => (.ok r, { s with raw := some r, reads := s.reads + 1 })
    | .error e => (.error e, { s with reads := s.reads + 1 })

/-- The data in the selected format (base_data.py:72-82). -/
def present (w : World R V) (format : Option String) (r : R) : Except Exc V :=
  match format with
  | none => .ok (w.whole r)
  | some f =>
    if f = "" then .ok (w.whole r)
    else match PyDict.get? w.formats f with
      | some conv => .ok (conv r)
      | none => .error w.badFormat

/-- The property `data` (base_data.py:66-82). -/
def dataProp (w : World R V) (s : Dataset R V) : Res (Dataset R V) V :=
  match ensure w s with
  | (.error e, s1) => (.error e, s1)
  | (.ok r, s1) => (present w s1.format r, s1)

/-- `object.__getattribute__(self, name)` (base_data.py:225). -/
def own (w : World R V) (name : String) (s : Dataset R V) : Res (Dataset R V) V :=
  if name = "data" then dataProp w s else lookup w.cls s.inst name s

/-- `object.__getattribute__(self.data, name)` (base_data.py:234). -/
def attrOf (w : World R V) (d : V) (name : String) (s : Dataset R V) : Res (Dataset R V) V :=
  lookup (w.clsOf d) (w.instOf d) name s

/-- `BaseData.__getattribute__` (base_data.py:224-245); the first argument is how many accesses may be nested. -/
def access (w : World R V) : ℕ → String → Dataset R V → Res (Dataset R V) V
  | 0, _, s => (.error .recursion, s)
  | k + 1, name, s =>
    match own w name s with
    | (.error (.attr m), s1) =>
      match access w k "data" s1 with
      | (.error e, s2) => (.error e, s2)
      | (.ok d, s2) =>
        if m ≠ missing w.cls.name name then (.error (.attr m), s2)
        else
          match access w k "data" s2 with
          | (.error e, s3) => (.error e, s3)
          | (.ok d', s3) =>
            match attrOf w d' name s3 with
            | (.error (.attr m'), s4) =>
              if m' ≠ missing (w.clsOf d).name name then (.error (.attr m'), s4)
              else (.error (.attr (neither w.cls.name (w.clsOf d).name name)), s4)
            | r => r
    | r => r

/-- `hasattr(dataset, name)`: only `AttributeError` means no. -/
def hasAttr (w : World R V) (k : ℕ) (name : String) (s : Dataset R V) : Res (Dataset R V) Bool :=
  match access w k name s with
  | (.ok _, s1) => (.ok true, s1)
  | (.error (.attr _), s1) => (.ok false, s1)
  | (.error e, s1) => (.error e, s1)

/-- `getattr(data, name)` of the data themselves: the `__getattr__` of the class is asked last. -/
def ask (w : World R V) (d : V) (name : String) (s : Dataset R V) : Res (Dataset R V) V :=
  match attrOf w d name s with
  | (.error (.attr m), s1) =>
    match w.hook d with
    | some g => (g name, s1)
    | none => (.error (.attr m), s1)
  | r => r

/-- `dataset.name = v`, by `object.__setattr__`. -/
def assign (w : World R V) (name : String) (v : V) (s : Dataset R V) : Res (Dataset R V) Unit :=
  if name = "data" then (.error (.attr w.readOnly), s)
  else
    match find w.cls.mro name with
    | some (.prop _ (some f)) => f v s
    | some (.prop _ none) => (.error (.attr w.readOnly), s)
    | _ => (.ok (), { s with inst := PyDict.set s.inst name v })

/-- Several accesses one after the other; what each gives. -/
def accesses (w : World R V) (k : ℕ) : List String → Dataset R V → List (Except Exc V) × Dataset R V
  | [], s => ([], s)
  | n :: ns, s =>
    let r := access w k n s
    let q := accesses w k ns r.2
    (r.1 :: q.1, q.2)

end Verif.Attribute
