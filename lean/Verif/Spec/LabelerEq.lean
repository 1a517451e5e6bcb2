import Verif.Model.LabelerDisk

/-!
# When two data labelers are to compare equal
-/

namespace Verif.LabelerDisk.Spec

open Verif LabelerDisk

/-- Equality of values in Python: numbers by value, sequences of the same kind element by element, dictionaries by key
whatever their order, compiled expressions by text, generators as objects. -/
inductive PyEq : Val → Val → Prop where
  | none : PyEq .none .none
  | num {v w : Val} {q : ℚ} (hv : v.num? = some q) (hw : w.num? = some q) : PyEq v w
  | str (s : String) : PyEq (.str s) (.str s)
  | list {a b : List Val} (hl : a.length = b.length) (h : ∀ (i : ℕ) v w, a[i]? = some v → b[i]? = some w → PyEq v w) :
      PyEq (.list a) (.list b)
  | tuple {a b : List Val} (hl : a.length = b.length) (h : ∀ (i : ℕ) v w, a[i]? = some v → b[i]? = some w → PyEq v w) :
      PyEq (.tuple a) (.tuple b)
  | dict {a b : List (String × Val)} (hk : ∀ k, PyDict.get? a k = Option.none ↔ PyDict.get? b k = Option.none)
      (h : ∀ k v w, PyDict.get? a k = some v → PyDict.get? b k = some w → PyEq v w) : PyEq (.dict a) (.dict b)
  | pattern (s : String) : PyEq (.pattern s) (.pattern s)
  | rng {r s : Rng} (h : r.id = s.id) : PyEq (.rng r) (.rng s)

mutual
/-- There is no array in the value, and no dictionary in it has a key twice. -/
def tidy : Val → Bool
  | .list l => tidyList l
  | .tuple l => tidyList l
  | .dict d => decide (d.map Prod.fst).Nodup && tidyDict d
  | .array _ => false
  | _ => true
def tidyList : List Val → Bool
  | [] => true
  | v :: t => tidy v && tidyList t
def tidyDict : List (String × Val) → Bool
  | [] => true
  | (_, v) :: t => tidy v && tidyDict t
end

/-- The same parameters, with equal values. -/
def EqParams (a b : Params) : Prop :=
  (∀ k, PyDict.get? a k = none ↔ PyDict.get? b k = none) ∧
  ∀ k v w, PyDict.get? a k = some v → PyDict.get? b k = some w → PyEq v w

/-- No parameter has an array in it. -/
def Tidy (a : Params) : Prop := ∀ k v, PyDict.get? a k = some v → tidy v = true

/-- Equal processors: of one class, with equal parameters; the generator of the postprocessor for structured data does not
matter. -/
def EqProc (p q : Proc) : Prop :=
  p.cls = q.cls ∧ (p.cls ≠ .structCharPost → EqParams p.params q.params) ∧
  (p.cls = .structCharPost → ∀ k v w, k ≠ "random_state" → PyDict.get? p.params k = some v →
    PyDict.get? q.params k = some w → PyEq v w)

/-- Equal models: of one class, with equal parameters and the same labels. -/
def EqModel {W : Type} (m n : Model W) : Prop :=
  m.cls = n.cls ∧ EqParams m.params n.params ∧ ∀ l, PyDict.get? m.mapping l = PyDict.get? n.mapping l

end Verif.LabelerDisk.Spec
