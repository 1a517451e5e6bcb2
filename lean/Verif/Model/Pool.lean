import Mathlib.Data.Rat.Floor
import Verif.Model.Basic

/-!
# Sizing and creating the process pool

Models `auto_multiprocess_toggle`, `suggest_pool_size` and `generate_pool`
(dataprofiler/profilers/profiler_utils.py:180-281).
-/

namespace Verif.Pool

open Verif

/-- What the operating system answers. `none` = the call raises `NotImplementedError`.
`available` is `psutil.virtual_memory().available` in bytes, `cpus` is `psutil.cpu_count()`. -/
structure Machine where
  available : Option ℚ
  cpus : Option ℕ

/-- `auto_multiprocess_toggle` (profiler_utils.py:180-205). -/
def autoMultiprocess (rows cols rowThr colThr : ℕ) : Bool := rows > rowThr || cols > colThr

/-- `max_pool_mem` (profiler_utils.py:223-229); float division is exact. -/
def memFigure (m : Machine) (size : ℕ) : ℚ :=
  match m.available with
  | some av => ((size : ℚ) * 50) / (av / 1000000)
  | none => 4

/-- `max_pool_cpu` (profiler_utils.py:231-235). -/
def cpuFigure (m : Machine) : ℚ :=
  match m.cpus with
  | some c => (c : ℚ) - 1
  | none => 1

/-- `min(suggested_pool_size, cols)` when `cols` is given (profiler_utils.py:239-240). -/
def limitCols (x : ℚ) (cols : Option ℕ) : ℚ :=
  match cols with
  | some c => min x (c : ℚ)
  | none => x

/-- `suggest_pool_size` (profiler_utils.py:208-242). `int()` truncates, which
is the floor for the non-negative values that occur. -/
def suggestPoolSize (m : Machine) (dataSize : Option ℕ) (cols : Option ℕ) : Option ℤ :=
  match dataSize with
  | none => none
  | some size =>
    let suggested := min (memFigure m size) (cpuFigure m)
    let suggested := limitCols suggested cols
    some ⌊suggested⌋

/-- `generate_pool` (profiler_utils.py:245-281): the size of the pool created, if any, and the
reported size. `poolWorks` tells whether `mp.Pool(…)` raises. -/
def generatePool (m : Machine) (poolWorks : Bool) (maxPoolSize : Option ℤ) (dataSize cols : Option ℕ) :
    Option ℤ × Option ℤ :=
  let suggested := suggestPoolSize m dataSize cols
  let maxPool := if maxPoolSize.isNone || suggested.isNone then suggested else maxPoolSize
  let pool := match maxPool with
    | some k => if k > 2 then (if poolWorks then some k else none) else none
    | none => none
  (pool, maxPool)

end Verif.Pool
