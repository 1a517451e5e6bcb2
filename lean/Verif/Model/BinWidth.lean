import Verif.Model.Basic
import Mathlib.Analysis.SpecialFunctions.Pow.Real
import Mathlib.Analysis.SpecialFunctions.Log.Base
import Mathlib.Analysis.Real.Sqrt
import Mathlib.Algebra.Order.Floor.Ring

/-!
# How many bins a merged profile suggests

Models `dataprofiler/profilers/histogram_utils.py`: the widths of bins computed from a profile (histogram_utils.py:21-236) and
`_calculate_bins_from_profile` (histogram_utils.py:316-350), which the merge of histograms calls (numerical_column_stats.py:258-262).

Floats are real numbers with the two infinities and NaN; rounding is left out. A warning (division by zero) is not modelled.
-/

namespace Verif.BinWidth

open Verif

/-- A float. -/
inductive Fl where
  | fin (x : ℝ)
  | pinf
  | ninf
  | nan

namespace Fl

/-- `np.subtract`. -/
def sub : Fl → Fl → Fl
  | fin x, fin y => fin (x - y)
  | nan, _ => nan
  | _, nan => nan
  | pinf, pinf => nan
  | ninf, ninf => nan
  | pinf, _ => pinf
  | ninf, _ => ninf
  | _, pinf => ninf
  | _, ninf => pinf

open Classical in
/-- Multiplication by a finite number. -/
noncomputable def scale (c : ℝ) : Fl → Fl
  | fin x => fin (c * x)
  | nan => nan
  | pinf => if c = 0 then nan else if 0 < c then pinf else ninf
  | ninf => if c = 0 then nan else if 0 < c then ninf else pinf

open Classical in
/-- Division; zeros have no sign. -/
noncomputable def div : Fl → Fl → Fl
  | nan, _ => nan
  | _, nan => nan
  | fin x, fin y => if y = 0 then (if x = 0 then nan else if 0 < x then pinf else ninf) else fin (x / y)
  | fin _, _ => fin 0
  | pinf, fin y => if 0 ≤ y then pinf else ninf
  | ninf, fin y => if 0 ≤ y then ninf else pinf
  | _, _ => nan

/-- `a < b`. -/
def lt : Fl → Fl → Prop
  | fin x, fin y => x < y
  | nan, _ => False
  | _, nan => False
  | ninf, ninf => False
  | ninf, _ => True
  | _, pinf => True
  | _, _ => False

/-- `bool(x)`. -/
def truthy : Fl → Prop
  | fin x => x ≠ 0
  | _ => True

/-- `np.isnan(x)`. -/
def isNan : Fl → Prop
  | nan => True
  | _ => False

/-- `int(np.ceil(x))`; NaN raises `ValueError`, infinities `OverflowError`. -/
noncomputable def ceilInt : Fl → Except Err ℤ
  | fin x => .ok ⌈x⌉
  | nan => .error .valueError
  | _ => .error .exception

end Fl

/-- The attributes of a profile that are used; `firstEdge` and `lastEdge` are those of its stored histogram. -/
structure Prof where
  n : ℕ
  minAttr : Option Fl
  maxAttr : Option Fl
  firstEdge : Fl
  lastEdge : Fl
  stddev : Fl
  skew : Fl
  p25 : Fl
  p75 : Fl

/-- `_get_maximum_from_profile` (histogram_utils.py:21-34). -/
def hi (p : Prof) : Fl := p.maxAttr.getD p.lastEdge

/-- `_get_minimum_from_profile` (histogram_utils.py:37-50). -/
def lo (p : Prof) : Fl := p.minAttr.getD p.firstEdge

/-- `_ptp(maximum, minimum)` (histogram_utils.py:69-82). -/
def ptp (p : Prof) : Fl := (hi p).sub (lo p)

/-- `sg1` (histogram_utils.py:102-104). -/
noncomputable def sg1 (n : ℕ) : ℝ := Real.sqrt (6 * ((n : ℝ) - 2) / (((n : ℝ) + 1) * ((n : ℝ) + 3)))

/-- `|x|` of a float. -/
noncomputable def Fl.abs : Fl → Fl
  | .fin x => .fin |x|
  | .nan => .nan
  | _ => .pinf

/-- `1.0 + np.log2(n) + np.log2(1.0 + |g1| / sg1)` (histogram_utils.py:109). -/
noncomputable def doaneDenominator (n : ℕ) (g1 : Fl) : Fl :=
  match g1.abs.div (.fin (sg1 n)) with
  | .fin x => .fin (1 + Real.logb 2 n + Real.logb 2 (1 + x))
  | .pinf => .pinf
  | _ => .nan

open Classical in
/-- `_calc_doane_bin_width_from_profile` (histogram_utils.py:85-111). -/
noncomputable def doane (p : Prof) : Fl :=
  if 2 < p.n ∧ Fl.lt (.fin 0) p.stddev then (ptp p).div (doaneDenominator p.n p.skew) else .fin 0

/-- `_calc_rice_bin_width_from_profile` (histogram_utils.py:114-130). -/
noncomputable def rice (p : Prof) : Fl := (ptp p).div (.fin (2 * (p.n : ℝ) ^ (1 / 3 : ℝ)))

/-- `_calc_sturges_bin_width_from_profile` (histogram_utils.py:133-149). -/
noncomputable def sturges (p : Prof) : Fl := (ptp p).div (.fin (Real.logb 2 p.n + 1))

/-- `_calc_sqrt_bin_width_from_profile` (histogram_utils.py:152-168). -/
noncomputable def sqrtWidth (p : Prof) : Fl := (ptp p).div (.fin (Real.sqrt p.n))

/-- `_calc_fd_bin_width_from_profile` (histogram_utils.py:171-186). -/
noncomputable def fd (p : Prof) : Fl := (p.p75.sub p.p25).scale (2 * (p.n : ℝ) ^ (-1 / 3 : ℝ))

open Classical in
/-- `_calc_auto_bin_width_from_profile` (histogram_utils.py:189-207); Python's `min` gives the first unless the second is less. -/
noncomputable def auto (p : Prof) : Fl :=
  if (fd p).truthy then (if Fl.lt (sturges p) (fd p) then sturges p else fd p) else sturges p

/-- `_calc_scott_bin_width_from_profile` (histogram_utils.py:210-225). -/
noncomputable def scott (p : Prof) : Fl := p.stddev.scale ((24 * Real.pi ^ (1 / 2 : ℝ) / p.n) ^ (1 / 3 : ℝ))

/-- `_hist_bin_width_selectors_for_profile` (histogram_utils.py:228-236). -/
noncomputable def selector (m : String) : Option (Prof → Fl) :=
  if m = "auto" then some auto
  else if m = "doane" then some doane
  else if m = "fd" then some fd
  else if m = "rice" then some rice
  else if m = "scott" then some scott
  else if m = "sqrt" then some sqrtWidth
  else if m = "sturges" then some sturges
  else none

open Classical in
/-- The number of bins for a width (histogram_utils.py:343-350). -/
noncomputable def binsOf (p : Prof) (w : Fl) : Except Err ℤ :=
  if w.truthy ∧ ¬ w.isNan then ((ptp p).div w).ceilInt else .ok 1

/-- `_calculate_bins_from_profile` (histogram_utils.py:316-350). -/
noncomputable def bins (p : Prof) (m : String) : Except Err ℤ :=
  match selector m with
  | none => .error .valueError
  | some f => if p.n = 0 then .ok 1 else binsOf p (f p)

end Verif.BinWidth
