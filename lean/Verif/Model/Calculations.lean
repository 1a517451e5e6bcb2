import Verif.Model.Basic
import Verif.Model.PyDict

/-!
# The dictionary of enabled calculations

Models `_filter_properties_w_options` and `_merge_calculations`
(dataprofiler/profilers/base_column_profilers.py:82-95, 125-148).
-/

namespace Verif.Calculations

open Verif

variable {F : Type}

/-- Loop body of `_filter_properties_w_options` (base_column_profilers.py:93-95). `enabled` is
`options.is_prop_enabled`; `none` stands for falsy `options`. -/
def filterStep (enabled : Option (String → Bool)) (calcs : PyDict String F) (prop : String) :
    PyDict String F :=
  match enabled with
  | none => calcs
  | some en => if en prop then calcs else PyDict.del calcs prop

/-- `_filter_properties_w_options` (base_column_profilers.py:82-95): iterates over a snapshot of the
keys. -/
def filterProps (enabled : Option (String → Bool)) (calcs : PyDict String F) : PyDict String F :=
  (PyDict.keys calcs).foldl (filterStep enabled) calcs

/-- Loop body of `_merge_calculations` (base_column_profilers.py:140-148): the merged dictionary and
the names warned about. -/
def mergeStep (c1 c2 : PyDict String F) (s : PyDict String F × List String) (name : String) :
    PyDict String F × List String :=
  if !PyDict.has c1 name || !PyDict.has c2 name then
    let m := PyDict.del s.1 name
    if PyDict.has c1 name || PyDict.has c2 name then (m, s.2 ++ [name]) else (m, s.2)
  else s

/-- `_merge_calculations` (base_column_profilers.py:125-148). -/
def mergeCalcs (merged c1 c2 : PyDict String F) : PyDict String F × List String :=
  (PyDict.keys merged).foldl (mergeStep c1 c2) (merged, [])

/-- `_perform_property_calcs` (base_column_profilers.py:97-122): run every calculation in dictionary
order on a state `S`. -/
def performCalcs {S : Type} (calcs : PyDict String (S → S)) (s : S) : S :=
  (PyDict.values calcs).foldl (fun s f => f s) s

end Verif.Calculations
