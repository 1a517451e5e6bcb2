import Mathlib.Data.Rat.Floor
import Verif.Model.Nulls

/-!
# How many rows are sampled

Mirrors `StructuredColProfiler._get_sample_size` (profile_builder.py:519-531), `BaseProfiler._get_sample_size`
(profile_builder.py:843-858) and the choice made by `BaseProfiler.update_profile` (profile_builder.py:984-991).

Simplifications: the sampling ratio is an exact rational number and its product with the length is not rounded;
an unset or zero `sample_size` or `samples_per_update` (both falsy in Python) is `0` here.
-/

namespace Verif.SampleSize

/-- `_get_sample_size` without `_samples_per_update` (profile_builder.py:527-531, 855-858). -/
def bySize (ratio : ℚ) (minSize len : ℕ) : ℕ :=
  if len ≤ minSize then len else max ⌊ratio * len⌋.toNat minSize

/-- `BaseProfiler._get_sample_size` (profile_builder.py:852-858). -/
def ofProfiler (perUpdate : ℕ) (ratio : ℚ) (minSize len : ℕ) : ℕ :=
  if perUpdate ≠ 0 then perUpdate else bySize ratio minSize len

/-- `if not sample_size: sample_size = self._get_sample_size(data)` (profile_builder.py:988-989). -/
def chosen (arg perUpdate : ℕ) (ratio : ℚ) (minSize len : ℕ) : ℕ :=
  if arg = 0 then ofProfiler perUpdate ratio minSize len else arg

end Verif.SampleSize
