import Verif.Model.ColumnLabel
import Verif.Spec.Column
import Verif.Spec.Labels

/-!
# What the label profile of a column should say
-/

namespace Verif.Spec.ColumnLabel

open Verif Verif.Column Verif.Spec.Column Verif.LabelsSpec

/-- A sensible labeler: different labels, a confidence for each, and at most `n` different values of a batch are looked at. -/
structure Works (L : Labeler) (n : ℕ) : Prop where
  labels : L.labels.Nodup
  some : L.labels ≠ []
  order : Rearranges L.order
  pick : Picks L.pick
  conf : ∀ x, (L.conf x).length = L.labels.length
  pos : 0 < n
  draw : ∀ l, (L.draw l).Subperm l ∧ (L.draw l).length = min l.length n

/-- Some cell looked at is not null. -/
def Valued (isNull : String → Bool) (h : History) : Prop := ∃ cs, Looked isNull h cs ∧ ∃ x ∈ cs, isNull x = false

/-- Values are not merged with none. -/
def Balanced (isNull : String → Bool) : History → Prop
  | .new _ => True
  | .update h _ => Balanced isNull h
  | .merge h1 h2 => Balanced isNull h1 ∧ Balanced isNull h2 ∧ (Valued isNull h1 ↔ Valued isNull h2)

/-- Batches of at most `n` cells. -/
def Within (n : ℕ) : History → Prop
  | .new _ => True
  | .update h b => Within n h ∧ b.col.length ≤ n
  | .merge h1 h2 => Within n h1 ∧ Within n h2

/-- The values, given at once. -/
def once (L : Labeler) (ys : List String) : Labels.History := .update .new (ys.map L.conf)

/-- Shares of the votes, mean confidences and the label reported are those of the values `ys`. -/
structure Tells (L : Labeler) (ys : List String) (c : Labels.Col) : Prop where
  shares : ∃ rep, Labels.representation L.labels c = some rep ∧ PyDict.keys rep = L.labels ∧
    ∀ i l, L.labels[i]? = some l → PyDict.get? rep l = some (share L.pick (once L ys) i)
  means : ∃ avg, Labels.average L.labels c = some avg ∧ PyDict.keys avg = L.labels ∧
    ∀ i l, L.labels[i]? = some l → PyDict.get? avg l = some (LabelsSpec.mean (once L ys) i)
  unclear : Labels.dataLabel L.labels c = some .undetermined ↔ ∀ l ∈ L.labels, shareOf L.labels L.pick (once L ys) l < 35 / 100
  label : ∀ ls, Labels.dataLabel L.labels c = some (.labels ls) → ∃ first rest, ls = first :: rest ∧ (∀ l ∈ ls, l ∈ L.labels) ∧
    (∀ l ∈ L.labels, votesOf L.labels L.pick (once L ys) l ≤ votesOf L.labels L.pick (once L ys) first) ∧
    ∀ l ∈ ls, shareOf L.labels L.pick (once L ys) first - 20 / 100 ≤ shareOf L.labels L.pick (once L ys) l

end Verif.Spec.ColumnLabel
