import Mathlib.Data.List.Perm.Basic
import Verif.Model.Schema

/-!
# Specification vocabulary for schema matching
-/

namespace Verif.SchemaSpec

open Verif.Schema

/-- A name with upper and lower case identified. -/
def folded (lower : String → String) : Key → Key
  | .str s => .str (lower s)
  | .int n => .int n

/-- The names used for matching. -/
def names (lower : String → String) (cols : List Key) : List Key := cols.map (folded lower)

/-- The indices carrying a name, in order. -/
def positions (ns : List Key) (k : Key) : List ℕ := (List.range ns.length).filter fun i => ns[i]? = some k

/-- The two tables can be matched: every name occurs equally often, and repeated names at the same places. -/
def Compatible (ns ms : List Key) : Prop :=
  ∀ k, ns.count k = ms.count k ∧ (1 < ns.count k → positions ns k = positions ms k)

/-- `m` is a name-preserving bijection between the columns of the two tables. -/
structure Bijection (ns ms : List Key) (m : PyDict ℕ ℕ) : Prop where
  dom : (PyDict.keys m).Perm (List.range ns.length)
  cod : (PyDict.values m).Perm (List.range ms.length)
  name : ∀ i j, PyDict.get? m i = some j → ns[i]? = ms[j]?

end Verif.SchemaSpec
