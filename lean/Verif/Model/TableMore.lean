import Verif.Model.TableStats
import Verif.Model.ColumnHist
import Verif.Model.ColumnLabel

/-!
# A table profile with precision and labels

The table profiler of `Model/TableStats` with what that leaves out of its columns: the precision of the profiles of decimals
(`Model/Precision`) and the label profiles (`Model/Labels`), fed as in `Model/ColumnHist` and `Model/ColumnLabel`
(dataprofiler/profilers/float_column_profile.py:65-123, 430-463; data_labeler_column_profile.py:130-194, 452-480;
column_profile_compilers.py:91-145, 163-222, 416-423).

Simplifications: those of the parts; histograms are left out.
-/

namespace Verif.TableMore

open Verif Verif.Table Verif.Column Verif.TableStats

/-- The statistics of one column profile. -/
inductive More where
  | plain (s : Stat)
  | float (s : Stat) (p : Precision.State)
  | label (c : Labels.Col)

/-- What precision and labels depend on; without a labeler the labels are disabled. -/
structure Setup where
  ratio : Option ℚ
  sample : List String → List String
  labeler : Option Labeler

/-- The constructors (column_profile_compilers.py:100-109; `type` of data_labeler_column_profile.py:20). -/
noncomputable def initMore (x : Setup) (o : Opts) (t : String) : Except Err More :=
  if t = "data_labeler" then
    match x.labeler with
    | some _ => .ok (.label Labels.new)
    | none => .error .keyError
  else match initStat o t with
    | .error e => .error e
    | .ok s => .ok (if t = "float" then .float s ⟨x.ratio, none⟩ else .plain s)

/-- `update` (column_profile_compilers.py:180-183). -/
noncomputable def updateMore (w : World) (draw : Draw) (x : Setup) (t : String) (s : More) (vals : List String) : Except Err More :=
  match s with
  | .plain s => (updateStat w draw t s vals).map .plain
  | .float s p => (updateStat w draw t s vals).map fun s' =>
      .float s' (Precision.update p ⟨decimals w vals, x.sample (decimals w vals)⟩)
  | .label c => match x.labeler with
    | some L => .ok (.label (L.feed c vals))
    | none => .error .attributeError

/-- `__add__` (column_profile_compilers.py:138-143). -/
noncomputable def mergeMore (w : World) (x : Setup) (t : String) (a b : More) : Except Err More :=
  match a, b with
  | .plain a, .plain b => (mergeStat w t a b).map .plain
  | .float a p, .float b q => match mergeStat w t a b with
    | .error e => .error e
    | .ok s => (Precision.merge p q).map (.float s)
  | .label a, .label b => match x.labeler with
    | some L => (Labels.merge L.order a b).map .label
    | none => .error .attributeError
  | _, _ => .error .typeError

/-- The table profiler. -/
noncomputable def moreEnv {η : Type} (w : World) (o : Opts) (x : Setup) (a : Around η) : Table.Env More η :=
  ⟨⟨fun t _ => initMore x o t, updateMore w a.draw x, mergeMore w x, a.safe⟩, a.hll, a.lower, fun _ _ => w.isNull, w.setOrder, a.hash,
    a.kinds⟩

end Verif.TableMore
