/-!
# Python dictionaries

A Python `dict` (language reference, "insertion ordered mapping") is modelled as an
association list.  `set` overwrites in place when the key is present and appends otherwise, which
is CPython's insertion-order behaviour (3.7+).  `del` removes the key.  The data structure is part
of the Python runtime, not of `/repo`; it is used by the models of the repository code that
manipulates dictionaries.
-/

namespace Verif

/-- Insertion-ordered dictionary. Models the built-in `dict` (and `collections.defaultdict`,
whose default factory is passed explicitly where it is used). -/
abbrev PyDict (K V : Type) := List (K × V)

namespace PyDict

variable {K V : Type} [DecidableEq K]

/-- `d.get(k)` (with `None` as absence). -/
def get? : PyDict K V → K → Option V
  | [], _ => none
  | (k', v) :: d, k => if k' = k then some v else get? d k

/-- `d.get(k, default)`. -/
def getD (d : PyDict K V) (k : K) (v : V) : V := (get? d k).getD v

/-- `k in d`. -/
def has (d : PyDict K V) (k : K) : Bool := (get? d k).isSome

/-- `list(d.keys())`. -/
def keys (d : PyDict K V) : List K := d.map Prod.fst

/-- `list(d.values())`. -/
def values (d : PyDict K V) : List V := d.map Prod.snd

/-- `d[k] = v`. -/
def set : PyDict K V → K → V → PyDict K V
  | [], k, v => [(k, v)]
  | (k', v') :: d, k, v => if k' = k then (k, v) :: d else (k', v') :: set d k v

/-- `del d[k]` / `d.pop(k, None)`. -/
def del : PyDict K V → K → PyDict K V
  | [], _ => []
  | (k', v') :: d, k => if k' = k then d else (k', v') :: del d k

/-- The invariant of every Python dictionary: no key occurs twice. -/
def WF (d : PyDict K V) : Prop := (keys d).Nodup

instance (d : PyDict K V) : Decidable (WF d) := inferInstanceAs (Decidable (List.Nodup _))

end PyDict
end Verif
