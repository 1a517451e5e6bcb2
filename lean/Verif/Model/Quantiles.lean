import Verif.Model.Basic
import Verif.Model.Double

/-!
# Quantiles of a report

Models `calculate_quantiles` (dataprofiler/profilers/helpers/report_helpers.py:9-37) and its call
(dataprofiler/profilers/profile_builder.py:2096-2099).

The stored quantiles are a list. `rnd` rounds the result of a float operation; the code corresponds to `Double.dbl`.
-/

namespace Verif.Quantiles

open Verif

variable {α : Type*}

/-- The number of groups used (report_helpers.py:21-23); a missing number counts as zero. -/
def groups (g : Option ℤ) (n : ℕ) : ℕ :=
  match g with
  | some g => if 0 < g ∧ g ≤ n + 1 then g.toNat else 4
  | none => 4

/-- The index of quantile `i` (report_helpers.py:24, 34). -/
def index (rnd : ℚ → ℚ) (g n i : ℕ) : ℤ := ⌈rnd (((i + 1 : ℕ) : ℚ) * rnd (((n + 1 : ℕ) : ℚ) / (g : ℚ)))⌉ - 1

/-- List indexing with a non-negative index; a negative index does not occur (`Quantiles.index_nonneg`). -/
def at? (qs : List α) (k : ℤ) : Except Err α :=
  match qs[k.toNat]? with
  | some v => .ok v
  | none => .error .indexError

/-- `calculate_quantiles` (report_helpers.py:9-37): the values listed by increasing key. -/
def calculate (rnd : ℚ → ℚ) (g : Option ℤ) (qs : List α) : Except Err (List α) :=
  (List.range (groups g qs.length - 1)).mapM fun i => at? qs (index rnd (groups g qs.length) qs.length i)

/-- The quantiles of a report (profile_builder.py:2096-2099): an empty list is left alone. -/
def reported (rnd : ℚ → ℚ) (g : Option ℤ) (qs : List α) : Except Err (List α) :=
  if qs = [] then .ok [] else calculate rnd g qs

end Verif.Quantiles
