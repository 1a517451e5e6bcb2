import Verif.Model.Reader

/-!
# What opening and reloading a dataset should do

`typeOf` and `rank` are the documented names of the formats and the order in which they are tried.
-/

namespace Verif.Spec.Reader

open Verif Verif.Reader

/-- The format a name stands for. -/
def typeOf (s : String) : Option Kind :=
  if s = "json" then some .json else if s = "graph" then some .graph else if s = "csv" then some .csv
  else if s = "parquet" then some .parquet else if s = "avro" then some .avro else if s = "text" then some .text else none

/-- The order in which formats are tried. -/
def rank : Kind → ℕ
  | .json => 0
  | .graph => 1
  | .csv => 2
  | .parquet => 3
  | .avro => 4
  | .text => 5

/-- The format is asked for, or none is. -/
def Fits (ty : String) (k : Kind) : Prop := ty = "" ∨ typeOf ty = some k

/-- `answer k` is what the recogniser of `k` says of the file with the caller's options: `k` is the first format asked for that accepts it, all
before it having refused it; `o` are the options its recogniser left. -/
def Chosen (answer : Kind → Except Err (Bool × Opts)) (ty : String) (k : Kind) (o : Opts) : Prop :=
  Fits ty k ∧ answer k = .ok (true, o) ∧
    ∀ k', rank k' < rank k → Fits ty k' → ∃ o', answer k' = .ok (false, o')

/-- The first format asked for that does not refuse the file fails on it. -/
def Fails (answer : Kind → Except Err (Bool × Opts)) (ty : String) (k : Kind) (e : Err) : Prop :=
  Fits ty k ∧ answer k = .error e ∧
    ∀ k', rank k' < rank k → Fits ty k' → ∃ o', answer k' = .ok (false, o')

/-- Every format asked for refuses the file. -/
def Refused (answer : Kind → Except Err (Bool × Opts)) (ty : String) : Prop :=
  ∀ k, Fits ty k → ∃ o', answer k = .ok (false, o')

/-- The formats in which a reader gives its data. -/
def offers : Kind → String → Prop
  | .text, s => s = "text"
  | .csv, s => s = "dataframe" ∨ s = "records"
  | .parquet, s => s = "dataframe" ∨ s = "records" ∨ s = "json"
  | .json, s => s = "dataframe" ∨ s = "records" ∨ s = "json" ∨ s = "flattened_dataframe"
  | .avro, s => s = "dataframe" ∨ s = "records" ∨ s = "json" ∨ s = "flattened_dataframe"
  | .graph, _ => False

/-- A non-negative integer; Python counts `True` and `False` among them. -/
def Natural (v : V) : Prop := (∃ n : ℕ, v = .int n) ∨ ∃ b, v = .bool b

/-- The options of a CSV reader are legal. -/
def LegalCsv (o : Opts) : Prop :=
  (∀ v, ("header", v) ∈ o → v = .none ∨ v = .str "auto" ∨ Natural v) ∧
  (∀ v, ("delimiter", v) ∈ o → v = .none ∨ ∃ s, v = .str s) ∧
  (∀ v, ("data_format", v) ∈ o → v = .str "dataframe" ∨ v = .str "records") ∧
  (∀ v, ("selected_columns", v) ∈ o → ∃ l, v = .strs l) ∧
  (∀ v, ("record_samples_per_line", v) ∈ o → Natural v) ∧
  (∀ v, ("sample_nrows", v) ∈ o → Natural v)

/-- The value of an option, or its default. -/
def Said (o : Opts) (key : String) (default v : V) : Prop := (key, v) ∈ o ∨ ((∀ w, (key, w) ∉ o) ∧ v = default)

/-- A header was given. -/
def HeaderGiven (o : Opts) : Prop := ∃ v, ("header", v) ∈ o ∧ v ≠ .str "auto"

/-- The keys of the payload: a single text stands for the list of it. -/
def PayloadKeys (o : Opts) (p : V) : Prop :=
  ∃ v, Said o "payload_keys" (.strs ["data", "payload"]) v ∧ (∀ s, v = .str s → p = .strs [s]) ∧ ((∀ s, v ≠ .str s) → p = v)

/-- The settings of a new reader are those of its options and the documented defaults. -/
def Configured (o : Opts) (format : V) : Attrs → Kind → Prop
  | .text n, .text => Said o "data_format" (.str "text") format ∧ Said o "samples_per_line" (.int 5000000000) n
  | .parquet c r, .parquet =>
    Said o "data_format" (.str "dataframe") format ∧ Said o "selected_columns" (.strs []) c ∧ Said o "sample_nrows" .none r
  | .json p s k m, .json | .json p s k m, .avro =>
    Said o "data_format" (.str "flattened_dataframe") format ∧ PayloadKeys o p ∧ Said o "key_separator" (.str ".") s ∧
      Said o "selected_keys" (.strs []) k ∧ m = none
  | .csv n d q c h ch r, .csv =>
    Said o "data_format" (.str "dataframe") format ∧ Said o "record_samples_per_line" (.int 1) n ∧ Said o "delimiter" .none d ∧
      Said o "quotechar" .none q ∧ Said o "selected_columns" (.strs []) c ∧ Said o "header" (.str "auto") h ∧
      (ch = true ↔ HeaderGiven o) ∧ Said o "sample_nrows" .none r
  | .graph s t tw sw gw n d q h ch, .graph =>
    format = .none ∧ Said o "source_node" .none s ∧ Said o "destination_node" .none t ∧
      Said o "target_keywords" (.strs ["target", "destination", "dst"]) tw ∧ Said o "source_keywords" (.strs ["source", "src", "origin"]) sw ∧
      Said o "graph_keywords" (.strs ["node"]) gw ∧ Said o "column_names" .none n ∧ Said o "delimiter" .none d ∧ Said o "quotechar" .none q ∧
      Said o "header" (.str "auto") h ∧ (ch = true ↔ HeaderGiven o)
  | _, _ => False

/-- Something is given: a path that is not the empty text, or a stream. -/
def Given (src : Option Src) : Prop := (∃ s, src = some (.path s) ∧ s ≠ "") ∨ ∃ n, src = some (.stream n)

/-- Nothing was set for this: it is `None`, the empty text, or the like. -/
def Unset (v : V) : Prop := v = .none ∨ v = .bool false ∨ v = .int 0 ∨ v = .str "" ∨ v = .strs []

/-- `v` if it is set, and `default` otherwise. -/
def OrElse (v default w : V) : Prop := (Unset v ∧ w = default) ∨ (¬ Unset v ∧ w = v)

/-- Settings of a CSV reader of data in memory: delimiter and quote character are always set. -/
def Completed : Attrs → Attrs → Prop
  | .csv n d q c h ch r, .csv n' d' q' c' h' ch' r' =>
    n' = n ∧ OrElse d (.str ",") d' ∧ OrElse q (.str "\"") q' ∧ c' = c ∧ h' = h ∧ ch' = ch ∧ r' = r
  | .csv .., _ => False
  | a, b => a = b

end Verif.Spec.Reader
