import Verif.Model.Avro

/-!
# Records and the schemas they fit
-/

namespace Verif.Spec.Avro

open Verif.Json Verif.Avro

variable {A : Type}

/-- The record has a value at a path of keys. -/
inductive At : List (Key × J A) → List Key → J A → Prop
  | here {fields k v} (h : (k, v) ∈ fields) : At fields [k] v
  | deeper {fields k o p v} (h : (k, .obj o) ∈ fields) (hp : At o p v) : At fields (k :: p) v

/-- The value is an object. -/
def Object : J A → Prop
  | .obj _ => True
  | _ => False

/-- The record has an object at a path (`true`), or something else (`false`). -/
def Has (r : List (Key × J A)) (p : List Key) (b : Bool) : Prop := ∃ v, At r p v ∧ (b = true ↔ Object v)

/-- The schema has a field of a type at a path. -/
inductive Field : List (Key × Ty) → List Key → Ty → Prop
  | here {fields k t} (h : (k, t) ∈ fields) : Field fields [k] t
  | deeper {fields k n f p t} (h : (k, .record n f) ∈ fields) (hp : Field f p t) : Field fields (k :: p) t

/-- The type is one of records. -/
def Record : Ty → Prop
  | .record _ _ => True
  | .text => False

/-- No record type has two fields of one name. -/
inductive Distinct : List (Key × Ty) → Prop
  | mk {fields} (h : (fields.map Prod.fst).Nodup) (hb : ∀ k n f, (k, .record n f) ∈ fields → Distinct f) : Distinct fields

/-- A value fits a type: scalars fit texts, nulls fit everything, objects fit records that have all their keys. -/
inductive Fits (null : A → Prop) : Ty → J A → Prop
  | text (a) : Fits null .text (.val a)
  | null {n f a} (h : null a) : Fits null (.record n f) (.val a)
  | record {n f o} (t : Key → J A → Ty) (h : ∀ k v, (k, v) ∈ o → (k, t k v) ∈ f) (hv : ∀ k v, (k, v) ∈ o → Fits null (t k v) v) :
    Fits null (.record n f) (.obj o)

/-- Records agree: what is an object in one is an object in all that have it. -/
def Agree (records : List (List (Key × J A))) : Prop :=
  ∀ r ∈ records, ∀ s ∈ records, ∀ p v o, At r p v → At s p (.obj o) → Object v

/-- Where a record has a scalar and another an object, the scalar is null and the object is not empty. -/
def Compatible (null : A → Prop) (records : List (List (Key × J A))) : Prop :=
  ∀ r ∈ records, ∀ s ∈ records, ∀ p a o, At r p (.val a) → At s p (.obj o) → null a ∧ o ≠ []

/-- There are no lists in the record. -/
def Plain (r : List (Key × J A)) : Prop := ∀ p xs, ¬ At r p (.list xs)

/-- The different keys, in the order in which they are first met. -/
def firsts (ks : List Key) : List Key := ks.foldl (fun seen k => if k ∈ seen then seen else seen ++ [k]) []

end Verif.Spec.Avro
