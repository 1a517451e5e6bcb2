import Mathlib.Data.Nat.Notation
import Verif.Model.Basic

/-!
# File type and encoding of profilers

Models `encoding` and `file_type` of `BaseProfiler` (dataprofiler/profilers/profile_builder.py:729-730): what updates do to them (961-997),
merging (792-799), and that reports have them as they are (1418-1419, 2080-2081).

Simplifications
* of a batch of data only its encoding, its type (the `data_type` of a reader or the name of a class) and its length are kept;
* the update and the merge themselves succeed.
-/

namespace Verif.Origin

open Verif

/-- The attributes `encoding` and `file_type` (profile_builder.py:729-730). -/
structure Origin where
  encoding : Option String
  fileType : Option String
  deriving DecidableEq

/-- What is known of data: a reader has an encoding or none and a type, other values have the name of their class (profile_builder.py:967-978). -/
structure Batch where
  encoding : Option String
  type : String
  len : ℕ
  deriving DecidableEq

/-- A new profiler (profile_builder.py:729-730). -/
def new : Origin := ⟨none, none⟩

/-- `update_profile` (profile_builder.py:961-997). -/
def update (o : Origin) (b : Batch) : Origin :=
  if b.len = 0 then o
  else ⟨if b.encoding.isSome then b.encoding else o.encoding, some b.type⟩

/-- `merged.x = self.x; if self.x != other.x: merged.x = "multiple files"` (profile_builder.py:793-799). -/
def mergeAttr (a b : Option String) : Option String := if a ≠ b then some "multiple files" else a

/-- `__add__` (profile_builder.py:792-799). -/
def merge (a b : Origin) : Origin := ⟨mergeAttr a.encoding b.encoding, mergeAttr a.fileType b.fileType⟩

/-- How a profiler came about. -/
inductive History where
  | new
  | update (h : History) (b : Batch)
  | merge (g h : History)

/-- The attributes afterwards. -/
def run : History → Origin
  | .new => new
  | .update h b => update (run h) b
  | .merge g h => merge (run g) (run h)

end Verif.Origin
