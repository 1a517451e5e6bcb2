import Verif.Model.LabelerDisk

/-!
# Reading the settings of processors

Models `get_parameters` of the processors (dataprofiler/labelers/data_processing.py:98-119, 1393-1403).  The constructors, the checks of
settings and `set_params` are those of `Verif.Model.LabelerDisk`.
-/

namespace Verif.LabelerDisk

open Verif

/-- What can be read: a value, or the processor inside a `StructRegexPostProcessor` (data_processing.py:2091-2095). -/
inductive Shown where
  | val (v : Val)
  | inner (settings : Params)

/-- `self._parameters` as it is. -/
def Proc.visible (p : Proc) : PyDict String Shown :=
  match p.cls with
  | .structRegexPost => [("regex_processor", .inner p.params)]
  | _ => p.params.map fun kv => (kv.1, .val kv.2)

/-- The loop over the names asked for (data_processing.py:109-118). -/
def pickParams (from_ : PyDict String Shown) : List String → PyDict String Shown → Except Err (PyDict String Shown)
  | [], d => .ok d
  | k :: ks, d =>
    match PyDict.get? from_ k with
    | some v => pickParams from_ ks (PyDict.set d k v)
    | none => .error .valueError

/-- `params.pop("flatten_split", None)` for structured data (data_processing.py:1401-1403). -/
def Proc.hide (p : Proc) (d : PyDict String Shown) : PyDict String Shown :=
  if p.cls = .structChar then PyDict.del d "flatten_split" else d

/-- `get_parameters` (data_processing.py:98-119, 1393-1403). -/
def Proc.getParams (p : Proc) : Option (List String) → Except Err (PyDict String Shown)
  | none => .ok (p.hide p.visible)
  | some ks => (pickParams p.visible ks []).map p.hide

end Verif.LabelerDisk
