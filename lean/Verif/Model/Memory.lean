import Verif.Model.Basic
import Mathlib.Data.Rat.Defs
import Mathlib.Algebra.Order.Field.Rat
import Mathlib.Data.Nat.Notation

/-!
# The memory of text

Models `get_memory_size` (dataprofiler/profilers/profiler_utils.py:668-688) and the attribute `memory_size` of `UnstructuredProfiler`
(dataprofiler/profilers/profile_builder.py:1277, 1309, 1370, 1470-1487), with the roundings of floats, which `Verif.Model.Unstructured` leaves
out.

Simplifications
* a text is the list of its code points; of its encoding only the number of bytes matters;
* floats are the rationals that the rounding `fl` returns;
* an update does nothing else than adding the memory of its lines.
-/

namespace Verif.Memory

open Verif

/-- A Python string, as its code points (profiler_utils.py:685). -/
abbrev PyText := List ℕ

/-- The number of bytes of a code point in UTF-8. The codec raises a UnicodeEncodeError (a ValueError) for surrogates (profiler_utils.py:686). -/
def width (c : ℕ) : Except Err ℕ :=
  if c < 0x80 then .ok 1
  else if c < 0x800 then .ok 2
  else if 0xD800 ≤ c ∧ c < 0xE000 then .error .valueError
  else if c < 0x10000 then .ok 3
  else .ok 4

/-- `len(sentence.encode("utf-8"))` (profiler_utils.py:686). -/
def encoded : PyText → Except Err ℕ
  | [] => .ok 0
  | c :: cs => do
    let n ← width c
    let m ← encoded cs
    .ok (n + m)

/-- `unit_map` (profiler_utils.py:678). -/
def power (unit : String) : Option ℕ :=
  if unit = "B" then some 0 else if unit = "K" then some 1 else if unit = "M" then some 2 else if unit = "G" then some 3 else none

/-- The loop (profiler_utils.py:684-686). The sum starts with the integer 0 and stays an integer. -/
def total (acc : ℕ) : List PyText → Except Err ℕ
  | [] => .ok acc
  | s :: rest => do
    let n ← encoded s
    total (acc + n) rest

/-- `get_memory_size` (profiler_utils.py:668-688). The sum becomes a float by the division. -/
def getMemorySize (fl : ℚ → ℚ) (data : List PyText) (unit : String) : Except Err ℚ :=
  match power unit with
  | none => .error .valueError
  | some k => do
    let n ← total 0 data
    .ok (fl (fl n / 1024 ^ k))

/-- Everything that can happen to a profile of text (profile_builder.py:1277, 1309, 1370). -/
inductive History where
  | new
  | update (h : History) (lines : List PyText)
  | merge (h1 h2 : History)

/-- `memory_size` (profile_builder.py:1277, 1309, 1370, 1470-1487). Updates with no lines do not change it (940-1000). -/
def run (fl : ℚ → ℚ) : History → Except Err ℚ
  | .new => .ok 0
  | .update h lines => do
    let m ← run fl h
    if lines = [] then .ok m
    else
      let d ← getMemorySize fl lines "M"
      .ok (fl (m + d))
  | .merge h1 h2 => do
    let a ← run fl h1
    let b ← run fl h2
    .ok (fl (a + b))

end Verif.Memory
