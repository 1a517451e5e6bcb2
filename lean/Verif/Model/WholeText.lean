import Verif.Model.Basic
import Verif.Model.Double

/-!
# Values written as whole numbers

Models `convert_int_to_string` (dataprofiler/data_readers/data_utils.py:74-92) down to the rounding of `float(i)` of an integer. How
Python reads a text as a float and how it writes a float are parameters. The limit on the digits of `str(i)` (4300, in newer Pythons) is
not modelled.
-/

namespace Verif.WholeText

/-- A float. -/
inductive Fl
  | fin (q : ℚ)
  | inf (positive : Bool)
  | nan

/-- A value: `other` is one that `float` refuses, with what `str` writes for it (`None`, a list). -/
inductive Val
  | int (i : ℤ)
  | float (f : Fl)
  | str (s : String)
  | other (text : String)

/-- `float(i)` of an integer: the nearest double; `OverflowError` if it would not be below `2 ** 1024`. -/
def ofInt (i : ℤ) : Except Err Fl :=
  if i = 0 then .ok (.fin 0)
  else if 2 ^ 1024 ≤ Double.dbl i.natAbs then .error .exception
  else .ok (.fin (if i < 0 then -Double.dbl i.natAbs else Double.dbl i.natAbs))

/-- `float(x)` (data_utils.py:90); `parse` reads a text. -/
def toFloat (parse : String → Option Fl) : Val → Except Err Fl
  | .int i => ofInt i
  | .float f => .ok f
  | .str s => match parse s with
    | some f => .ok f
    | none => .error .valueError
  | .other _ => .error .typeError

/-- `int(f)` (data_utils.py:90): towards zero. -/
def toInt : Fl → Except Err ℤ
  | .fin q => .ok (if q < 0 then ⌈q⌉ else ⌊q⌋)
  | .inf _ => .error .exception
  | .nan => .error .valueError

/-- `str(x)` (data_utils.py:92); `write` writes a float. -/
def str (write : Fl → String) : Val → String
  | .int i => toString i
  | .float f => write f
  | .str s => s
  | .other t => t

/-- `convert_int_to_string` (data_utils.py:74-92). -/
def convert (parse : String → Option Fl) (write : Fl → String) (x : Val) : String :=
  match (toFloat parse x).bind toInt with
  | .ok i => toString i
  | .error _ => str write x

end Verif.WholeText
