import Verif.Model.PyDict
import Mathlib.Algebra.Group.Defs
import Mathlib.Algebra.Group.Nat.Defs

/-!
# Counting dictionaries

`collections.Counter` and `defaultdict(int)` as used by the profilers: `d[k] += c`, and the sum of two of them. The data
structures belong to the Python runtime; `addCounts` also models `add_nested_dictionaries` on flat dictionaries
(dataprofiler/profilers/profiler_utils.py:291-320).
-/

namespace Verif.Counter

open Verif

variable {K A : Type} [DecidableEq K] [AddCommMonoid A]

/-- `d[k]` with default 0. -/
def at0 (d : PyDict K A) (k : K) : A := PyDict.getD d k 0

/-- `d[k] += c`. -/
def bump (d : PyDict K A) (k : K) (c : A) : PyDict K A := PyDict.set d k (at0 d k + c)

/-- Several `d[k] += c`. -/
def bumps (d : PyDict K A) (l : List (K × A)) : PyDict K A := l.foldl (fun d kc => bump d kc.1 kc.2) d

/-- Sum of two dictionaries: keys of the first, then those of the second. -/
def addCounts (d1 d2 : PyDict K A) : PyDict K A := bumps d1 d2

/-- `collections.Counter(l)`. -/
def ofList (l : List K) : PyDict K ℕ := l.foldl (fun d k => bump d k 1) []

/-- `collections.Counter.__add__`: keeps only positive counts. -/
def plus (d1 d2 : PyDict K ℕ) : PyDict K ℕ := (addCounts d1 d2).filter fun kc => decide (0 < kc.2)

/-- Insertion of an item into a list sorted by falling counts, behind equals. -/
def insertDesc (x : K × ℕ) : List (K × ℕ) → List (K × ℕ)
  | [] => [x]
  | y :: ys => if y.2 < x.2 then x :: y :: ys else y :: insertDesc x ys

/-- `sorted(items, key=itemgetter(1), reverse=True)`: stable. -/
def sortDesc (l : List (K × ℕ)) : List (K × ℕ) := l.foldl (fun acc x => insertDesc x acc) []

/-- `Counter.most_common`. -/
def mostCommon (d : PyDict K ℕ) : Option ℕ → List (K × ℕ)
  | none => sortDesc d
  | some n => (sortDesc d).take n

end Verif.Counter
