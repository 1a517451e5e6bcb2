import Mathlib.Data.Nat.Notation
import Verif.Model.Basic
import Verif.Model.PyDict

/-!
# Chunked shuffle

Models `KeyDict` and `shuffle_in_chunks` (dataprofiler/profilers/profiler_utils.py:60-140).
-/

namespace Verif.Shuffle

open Verif

/-- `KeyDict.__getitem__` (profiler_utils.py:60-71): a missing key is its own value and is not
stored. -/
def look (d : PyDict ℕ ℕ) (k : ℕ) : ℕ := PyDict.getD d k k

/-- `indices[j], indices[k] = indices[k], indices[j]` (profiler_utils.py:130): both right-hand sides
are read before the two assignments. -/
def swapIn (d : PyDict ℕ ℕ) (j k : ℕ) : PyDict ℕ ℕ :=
  let a := look d k
  let b := look d j
  PyDict.set (PyDict.set d j a) k b

/-- The inner loop (profiler_utils.py:127-136): `cnt` more elements of the current chunk, starting at
position `j`. `draws j` is the element of `random_list` for position `j`, i.e. what
`rng.integers(j, data_length)` returned. Result: the values of the chunk, the dictionary. -/
def inner (draws : ℕ → ℕ) : ℕ → ℕ → PyDict ℕ ℕ → List ℕ × PyDict ℕ ℕ
  | 0, _, d => ([], d)
  | cnt + 1, j, d =>
    let k := draws j
    let d' := swapIn d j k
    let r := inner draws cnt (j + 1) d'
    (look d' j :: r.1, r.2)

/-- The outer loop (profiler_utils.py:115-138) over the remaining chunk indices. `j` is advanced by
the chunk just emitted. -/
def outer (n c : ℕ) (draws : ℕ → ℕ) : List ℕ → ℕ → PyDict ℕ ℕ → List (List ℕ)
  | [], _, _ => []
  | ind :: rest, j, d =>
    let size := min c (n - c * ind)
    let r := inner draws size j d
    r.1 :: outer n c draws rest (j + size) r.2

/-- `shuffle_in_chunks(data_length, chunk_size)` (profiler_utils.py:94-138), as the list of chunks
yielded. `math.ceil(n / c)` is taken as the exact ceiling. -/
def shuffleInChunks (n c : ℕ) (draws : ℕ → ℕ) : List (List ℕ) :=
  if n = 0 ∨ c = 0 then []
  else outer n c draws (List.range (max ((n + c - 1) / c) 1)) 0 []

end Verif.Shuffle
