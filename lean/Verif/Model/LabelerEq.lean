import Verif.Model.LabelerDisk

/-!
# Which profiles of labels may be merged

Models `DataLabelerColumn.assert_equal_conditions` (dataprofiler/profilers/data_labeler_column_profile.py:77-131) and the
properties it reads (data_labeler_column_profile.py:196-214). `==` of labelers is in `Verif.Model.LabelerDisk`.

Simplification: the list of possible labels, which the code derives from the labeler when first asked for, is a field of its
own, and the settings, constants of the constructor in the code, may be anything.
-/

namespace Verif.LabelerDisk

open Verif

/-- The settings of a profile of labels (data_labeler_column_profile.py:43-73). -/
structure LabelProfile (W : Type) where
  labeler : Labeler W
  topVotes : ℕ
  minVote : ℚ
  minDifference : ℚ
  topLabels : ℕ
  minTop : ℚ
  possible : List String

/-- `assert_equal_conditions` (data_labeler_column_profile.py:77-131). -/
def assertEqual {W : Type} (a b : LabelProfile W) : Except Err Unit :=
  if a.topVotes ≠ b.topVotes then .error .valueError
  else if a.minVote ≠ b.minVote then .error .valueError
  else if a.minDifference ≠ b.minDifference then .error .valueError
  else if a.topLabels ≠ b.topLabels then .error .valueError
  else if a.minTop ≠ b.minTop then .error .valueError
  else if a.possible ≠ b.possible then .error .valueError
  else if !labelerEq a.labeler b.labeler then .error .valueError
  else .ok ()

end Verif.LabelerDisk
