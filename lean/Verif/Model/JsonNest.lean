import Verif.Model.Json

/-!
# Nested records of flat rows

Models `_convert_flat_to_nested_cols` (dataprofiler/data_readers/json_data.py:332-365), used for the format `records` (json_data.py:283-298).
The separator is the default, a dot: no caller gives another.  Keys are texts.  `blank` says which scalars are `None`, `nan` or the text "nan".
-/

namespace Verif.JsonNest

open Verif Verif.Json

variable {A : Type}

/-- `key.split(".", 1)`: what is before and after the first dot. -/
def cut : Key → Option (Key × Key)
  | [] => none
  | c :: cs => if c = '.' then some ([], cs) else (cut cs).map fun p => (c :: p.1, p.2)

/-- The dictionary to which the nested key is added (json_data.py:358-360): a missing or blank value is replaced; assigning to an item of anything
else but a dictionary raises. -/
def parent (blank : A → Bool) : Option (J A) → Except Err (PyDict Key (J A))
  | none => .ok []
  | some (.obj fields) => .ok fields
  | some (.val a) => if blank a then .ok [] else .error .typeError
  | some (.list _) => .error .typeError

/-- One key of the loop (json_data.py:353-364); `rec` is the recursive call. -/
def step (blank : A → Bool) (rec : PyDict Key (J A) → Except Err (PyDict Key (J A))) (d : PyDict Key (J A)) (key : Key) :
    Except Err (PyDict Key (J A)) :=
  match cut key with
  | none => .ok d
  | some (k, n) => do
    let p ← parent blank (PyDict.get? d k)
    match PyDict.get? d key with
    | none => .error .keyError
    | some v => do
      let q ← rec (PyDict.set p n v)
      .ok (PyDict.set (PyDict.del d key) k (.obj q))

/-- The loop over the keys present at the start (json_data.py:353). -/
def loop (blank : A → Bool) (rec : PyDict Key (J A) → Except Err (PyDict Key (J A))) :
    List Key → PyDict Key (J A) → Except Err (PyDict Key (J A))
  | [], d => .ok d
  | k :: ks, d => do
    let d' ← step blank rec d k
    loop blank rec ks d'

/-- `_convert_flat_to_nested_cols` (json_data.py:332-365). The number bounds the depth of the recursion; a call of depth 0 is never made
with the bound of `nest` (see `Verif.Props.JsonNest`). -/
def convert (blank : A → Bool) : ℕ → PyDict Key (J A) → Except Err (PyDict Key (J A))
  | 0, _ => .error .exception
  | fuel + 1, d => loop blank (convert blank fuel) (PyDict.keys d) d

/-- The number of dots in the keys. -/
def dots (d : PyDict Key (J A)) : ℕ := (d.map fun x => x.1.count '.').sum

/-- One row as a nested record; it is converted twice (json_data.py:294-297). -/
def nest (blank : A → Bool) (d : PyDict Key (J A)) : Except Err (PyDict Key (J A)) := do
  let d' ← convert blank (dots d + 1) d
  convert blank (dots d' + 1) d'

end Verif.JsonNest
