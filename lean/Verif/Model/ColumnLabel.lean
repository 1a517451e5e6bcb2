import Verif.Model.Column
import Verif.Model.Labels

/-!
# Labels inside a column profile

Models how the label profile (`Model/Labels`) is fed when a column profile is updated or merged
(dataprofiler/profilers/profile_builder.py:149-254, 480-517; column_profile_compilers.py:91-145, 163-222, 416-423;
data_labeler_column_profile.py:36-46, 130-194, 455-480).

Simplifications
* those of `Model/Labels`; the labeler gives each value its confidences, whatever the other values (see C92);
* all profiles use the same labeler and the same maximum of values per batch;
* an exception of the label profile is what the whole update or merge raises; only this profile is followed here.
-/

namespace Verif.Column

open Verif

/-- A labeler and how it is used: its labels, the order of sets of them, the position of the largest confidence, the confidences of a
value, the values drawn from a batch (data_labeler_column_profile.py:36-56, 463-464). -/
structure Labeler where
  labels : List String
  order : List String → List String
  pick : List ℚ → ℕ
  conf : String → List ℚ
  draw : List String → List String

/-- `update` (data_labeler_column_profile.py:452-480): the confidences of the values drawn. -/
def Labeler.feed (L : Labeler) (c : Labels.Col) (vals : List String) : Labels.Col :=
  if vals.isEmpty then c else Labels.update L.labels L.pick c ((L.draw vals).map L.conf)

/-- The label profile of a column; nothing before the first data (profile_builder.py:149-254, 480-517). -/
def runLabel (w : World) (L : Labeler) : History → Except Err (Option Labels.Col)
  | .new _ => .ok none
  | .update h b =>
    match runLabel w L h with
    | .error x => .error x
    | .ok c =>
      match Nulls.clean w.isNull w.setOrder b.col b.sampleSize b.minTrue b.given b.chunks with
      | .error x => .error x
      | .ok (vals, _) => .ok (some (L.feed (c.getD Labels.new) vals))
  | .merge h1 h2 =>
    match runLabel w L h1 with
    | .error x => .error x
    | .ok c =>
      match runLabel w L h2 with
      | .error x => .error x
      | .ok d =>
        match c, d with
        | some c, some d => (Labels.merge L.order c d).map some
        | _, _ => .ok none

end Verif.Column
