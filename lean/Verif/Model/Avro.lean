import Verif.Model.Json

/-!
# Schemas of records

Models `AVROData._get_nested_key`, `_get_nested_keys_from_dicts` and `_get_schema_avro`
(dataprofiler/data_readers/avro_data.py:105-204).  Records are dictionaries of JSON values; lists are not looked into.  The dictionaries
are changed in place; what is left of them after an error is not modelled.
-/

namespace Verif.Avro

open Verif Verif.Json

variable {A : Type}

/-- What is known of a key: the number one, or the keys below it. -/
inductive Nested where
  | one
  | keys (d : List (Key × Nested))

mutual
/-- One item of a dictionary (avro_data.py:119-129); looking for a key in the number one raises. -/
def mergeField (k : Key) (known : PyDict Key Nested) : J A → Except Err (PyDict Key Nested)
  | .obj fields =>
    match PyDict.get? known k with
    | some .one => if fields.isEmpty then .ok (PyDict.set known k .one) else .error .typeError
    | some (.keys d) =>
      match mergeFields fields d with
      | .error e => .error e
      | .ok d' => .ok (PyDict.set known k (.keys d'))
    | none =>
      match mergeFields fields [] with
      | .error e => .error e
      | .ok d' => .ok (PyDict.set known k (.keys d'))
  | .val _ => if PyDict.has known k then .ok known else .ok (PyDict.set known k .one)
  | .list _ => if PyDict.has known k then .ok known else .ok (PyDict.set known k .one)

/-- `_get_nested_key` (avro_data.py:105-131). -/
def mergeFields : List (Key × J A) → PyDict Key Nested → Except Err (PyDict Key Nested)
  | [], known => .ok known
  | (k, v) :: rest, known =>
    match mergeField k known v with
    | .error e => .error e
    | .ok known' => mergeFields rest known'
end

/-- The loop over the records (avro_data.py:146-148). -/
def mergeAll : List (List (Key × J A)) → PyDict Key Nested → Except Err (PyDict Key Nested)
  | [], known => .ok known
  | r :: rs, known =>
    match mergeFields r known with
    | .error e => .error e
    | .ok known' => mergeAll rs known'

/-- `_get_nested_keys_from_dicts` (avro_data.py:133-149). -/
def nestedKeys (records : List (List (Key × J A))) : Except Err (PyDict Key Nested) := mergeAll records []

/-- Types of fields: texts or nothing, and records or nothing. -/
inductive Ty where
  | text
  | record (name : Key) (fields : List (Key × Ty))

/-- The fields `_get_schema_avro` adds (avro_data.py:188-204). -/
def schemaFields : List (Key × Nested) → List (Key × Ty)
  | [] => []
  | (k, .one) :: rest => (k, .text) :: schemaFields rest
  | (k, .keys d) :: rest => (k, .record k (schemaFields d)) :: schemaFields rest

/-- `_get_schema_avro` (avro_data.py:151-204) for a schema with the given name and fields. -/
def schema (name : Key) (fields : List (Key × Ty)) (known : PyDict Key Nested) : Ty := .record name (fields ++ schemaFields known)

/-- The schema of records, starting without fields. -/
def schemaOf (name : Key) (records : List (List (Key × J A))) : Except Err Ty :=
  match nestedKeys records with
  | .error e => .error e
  | .ok known => .ok (schema name [] known)

end Verif.Avro
