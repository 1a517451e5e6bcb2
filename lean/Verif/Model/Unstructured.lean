import Verif.Model.Words
import Verif.Model.Nulls
import Verif.Model.SampleSize

/-!
# Profiles of unstructured text

Models `UnstructuredProfiler` (dataprofiler/profilers/profile_builder.py:1235-1590), the parts of `BaseProfiler` it relies on
(profile_builder.py:685-858, 940-1000) and `UnstructuredCompiler` (column_profile_compilers.py:39-190, 470-495).

Simplifications
* the text profile is `Verif.Words`; the labeler profile (`Verif.Entities`) is disabled;
* lines are strings already; index labels are integers; the memory of a batch is given by a function;
* `times` and `sample` (never reported) are left out; an unset or zero `sample_size`, `samples_per_update` or
  `min_true_samples` is `0`.
-/

namespace Verif.Unstructured

open Verif Words

/-- What can be given to `update_profile` (profile_builder.py:1240, 970-979). -/
inductive Data where
  | text (s : String)
  | list (lines : List String)
  | series (name : Option String) (cells : List Nulls.Cell)
  | frame (index : List ℤ) (columns : List (String × List String))
  | other

/-- One call of `update_profile`: a reader, if any, gives its encoding and type. -/
structure Batch where
  data : Data
  reader : Option (Option String × String)
  sampleSize : ℕ
  minTrue : ℕ
  draws : ℕ → ℕ

/-- The arguments of `__init__` that matter (profile_builder.py:1242-1280, 730-740); `text` is missing if disabled. -/
structure Opts where
  text : Option Words.Opts
  perUpdate : ℕ
  minTrue : ℕ
  ratio : ℚ

/-- `UnstructuredCompiler` (column_profile_compilers.py:50-58): name and text profile. -/
structure Compiler where
  name : Option String
  text : Option Words.Profile

/-- The profile. -/
structure State where
  opts : Opts
  total : ℕ
  empty : ℕ
  memory : ℚ
  fileType : Option String
  encoding : Option String
  profile : Option Compiler

/-- `__init__` without data (profile_builder.py:728-741, 1272-1277). -/
def new (o : Opts) : State := ⟨o, 0, 0, 0, none, none, none⟩

/-- `len(data)`. -/
def len : Data → ℕ
  | .text s => s.length
  | .list ls => ls.length
  | .series _ cs => cs.length
  | .frame ix _ => ix.length
  | .other => 0

/-- `str(data.__class__)` (profile_builder.py:975). -/
def className : Data → String
  | .text _ => "<class 'str'>"
  | .list _ => "<class 'list'>"
  | .series _ _ => "<class 'pandas.core.series.Series'>"
  | .frame _ _ => "<class 'pandas.core.frame.DataFrame'>"
  | .other => ""

/-- The series of the data: its name, labels and lines (profile_builder.py:1554-1567). -/
def series : Data → Except Err (Option String × List Nulls.Cell)
  | .text s => .ok (none, [(0, s)])
  | .list ls => .ok (none, (List.range ls.length).zipWith (fun (i : ℕ) (l : String) => ((i : ℤ), l)) ls)
  | .series name cs => .ok (name, cs)
  | .frame ix cols =>
    if cols.length > 1 then .error .valueError
    else match cols with
      | [] => .error .indexError
      | c :: _ => .ok (some c.1, ix.zip c.2)
  | .other => .error .typeError

/-- `str.match(r"^\s*$")` (profile_builder.py:1500, 1508). -/
def blank (ch : Chars) (s : String) : Bool := s.toList.all ch.isSpace

/-- `_clean_data_and_get_base_stats` (profile_builder.py:1449-1535): remaining lines, rows looked at, empty lines. The loop
(profile_builder.py:1491-1519) is that of the structured profile with another expression for nulls. Without rows a
dictionary is returned for the number of empty lines, which cannot be added. -/
def clean (ch : Chars) (col : List Nulls.Cell) (sampleSize minTrue : ℕ) (draws : ℕ → ℕ) :
    Except Err (List String × ℕ × ℕ) :=
  if col = [] then .error .typeError
  else match Nulls.loop (blank ch) col sampleSize minTrue ⟨[], [], 0⟩
      (Shuffle.shuffleInChunks col.length sampleSize draws) with
    | .error e => .error e
    | .ok a =>
      let labels := a.trues.insertionSort (· ≤ ·)
      .ok (Nulls.loc col labels, a.total, a.total - labels.length)

/-- Creation or update of the compiler (profile_builder.py:1586-1590, column_profile_compilers.py:57-108, 179-183). -/
def feed (ch : Chars) (o : Opts) (name : Option String) (lines : List String) : Option Compiler → Compiler
  | none => ⟨name, o.text.map fun t => Words.update ch (Words.new t) (lines.map String.toList)⟩
  | some c => { c with text := c.text.map fun p => Words.update ch p (lines.map String.toList) }

/-- `update_profile`, `_update_profile_from_chunk` and `_update_base_stats`
(profile_builder.py:940-1000, 1359-1372, 1537-1590). -/
def update (ch : Chars) (mem : List String → ℚ) (s : State) (b : Batch) : Except Err State :=
  match b.data with
  | .other => .error .typeError
  | d =>
    if len d = 0 then .ok s
    else
      let ss := SampleSize.chosen b.sampleSize s.opts.perUpdate s.opts.ratio 5000 (len d)
      let mt := if b.minTrue = 0 then s.opts.minTrue else b.minTrue
      match series d with
      | .error e => .error e
      | .ok (name, col) =>
        match clean ch col ss mt b.draws with
        | .error e => .error e
        | .ok (lines, total, empty) =>
          .ok { s with
                total := s.total + total
                empty := s.empty + empty
                memory := s.memory + mem (col.map Prod.snd)
                profile := some (feed ch s.opts name lines s.profile)
                encoding := (match b.reader with
                  | some (some e, _) => some e
                  | _ => s.encoding)
                fileType := (match b.reader with
                  | some (_, t) => some t
                  | none => some (className d)) }

/-- `UnstructuredCompiler.__add__` (column_profile_compilers.py:110-142): types, names and enabled profiles must agree. -/
def mergeCompiler (ch : Chars) : Option Compiler → Option Compiler → Except Err Compiler
  | some a, some b =>
    if a.name ≠ b.name then .error .valueError
    else match a.text, b.text with
      | some p, some q => .ok ⟨a.name, some (Words.merge ch p q)⟩
      | none, none => .ok ⟨a.name, none⟩
      | _, _ => .error .valueError
  | _, _ => .error .typeError

/-- `UnstructuredProfiler.__add__` (profile_builder.py:766-805, 1292-1316). -/
def merge (ch : Chars) (a b : State) : Except Err State :=
  match mergeCompiler ch a.profile b.profile with
  | .error e => .error e
  | .ok c =>
    .ok
      { opts := a.opts
        total := a.total + b.total
        empty := a.empty + b.empty
        memory := a.memory + b.memory
        fileType := if a.fileType ≠ b.fileType then some "multiple files" else a.fileType
        encoding := if a.encoding ≠ b.encoding then some "multiple files" else a.encoding
        profile := some c }

/-- The report: the global statistics and, if enabled, those of the text. -/
structure Report where
  samplesUsed : ℕ
  emptyLineCount : ℕ
  fileType : Option String
  encoding : Option String
  memorySize : ℚ
  vocab : Option (List Char)
  words : Option (List Word)
  tables : Option (List (Char × ℕ) × List (Word × ℕ))

/-- `report` (profile_builder.py:1381-1429, column_profile_compilers.py:481-493, unstructured_text_profile.py:654-666). -/
def report (s : State) : Except Err Report :=
  match s.profile with
  | none => .error .attributeError
  | some c =>
    .ok ⟨s.total, s.empty, s.fileType, s.encoding, s.memory, c.text.map fun p => PyDict.keys p.vocab,
      c.text.map fun p => PyDict.keys p.words, c.text.map Words.report⟩

/-- Everything that can happen to a profile. -/
inductive History where
  | new (o : Opts)
  | update (h : History) (b : Batch)
  | merge (h1 h2 : History)

/-- The resulting profile. -/
def run (ch : Chars) (mem : List String → ℚ) : History → Except Err State
  | .new o => .ok (new o)
  | .update h b =>
    match run ch mem h with
    | .error e => .error e
    | .ok s => update ch mem s b
  | .merge h1 h2 =>
    match run ch mem h1 with
    | .error e => .error e
    | .ok a =>
      match run ch mem h2 with
      | .error e => .error e
      | .ok b => merge ch a b

end Verif.Unstructured
