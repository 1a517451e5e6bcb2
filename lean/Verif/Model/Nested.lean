import Verif.Model.Basic
import Verif.Model.PyDict

/-!
# Nested dictionaries

Models `add_nested_dictionaries` and `recursive_dict_update`
(dataprofiler/profilers/profiler_utils.py).
-/

namespace Verif.Nested

open Verif

/-- A Python value that is either a leaf of type `A` or a `dict` with string keys.
(profiler_utils.py:291-320 tests `isinstance(_, dict)`; 42-57 tests `Mapping`.) -/
inductive NV (A : Type) where
  | leaf (a : A)
  | dict (items : List (String × NV A))

variable {A : Type}

mutual
/-- First loop of `add_nested_dictionaries` (profiler_utils.py:305-314): walk the first dictionary,
adding where the key is in the second, copying otherwise. The keys of a dict are distinct, so
`merged_dict[item] = …` appends. -/
def addItems [Add A] : PyDict String (NV A) → PyDict String (NV A) →
    Except Err (PyDict String (NV A))
  | [], _ => .ok []
  | (k, v) :: rest, second => do
    let r ← match PyDict.get? second k with
      | some w => addVal v w
      | none => .ok v
    let rs ← addItems rest second
    .ok ((k, r) :: rs)

/-- `add_nested_dictionaries` on two values (profiler_utils.py:291-320). A dictionary against a
number raises `TypeError`, either from `item in 5` / `for item in 5` (306, 316) or from
`number + dict` (312). The default factory of a `defaultdict` (301-303) is not modelled. -/
def addVal [Add A] : NV A → NV A → Except Err (NV A)
  | .leaf a, .leaf b => .ok (.leaf (a + b))
  | .dict d1, .dict d2 => do
    let m ← addItems d1 d2
    .ok (.dict (m ++ d2.filter fun kv => !PyDict.has d1 kv.1))
  | .dict _, .leaf _ => .error .typeError
  | .leaf _, .dict _ => .error .typeError
end

/-- `recursive_dict_update(d, update_d)` (profiler_utils.py:42-57). -/
def updItems (d : PyDict String (NV A)) (u : PyDict String (NV A)) : PyDict String (NV A) :=
  match u with
  | [] => d
  | (k, v) :: rest =>
    let new : NV A :=
      match v, PyDict.get? d k with
      | .dict uv, some (.dict dv) => .dict (updItems dv uv)
      | v, _ => v
    updItems (PyDict.set d k new) rest
termination_by sizeOf u

end Verif.Nested
