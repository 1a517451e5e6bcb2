import Verif.Spec.TableStats
import Verif.Spec.ColumnHist
import Verif.Spec.ColumnLabel
import Verif.Model.TableMore

/-!
# What a table profile with precision and labels should say about its columns
-/

namespace Verif.Spec.TableMore

open Verif Verif.Table Verif.Column Verif.TableStats Verif.TableMore Verif.Spec.Column Verif.Spec.TableStats

/-- Nothing limits the precision, the values drawn for it are different ones (all up to 20000, then 20000 or a twentieth), and the
labeler works with at most `n` values of a batch. -/
structure Sound (x : Setup) (n : ℕ) : Prop where
  ratio : x.ratio = none
  sample : ∀ l, (x.sample l).Subperm l ∧ (x.sample l).length = if l.length ≤ 20000 then l.length else max 20000 (l.length / 20)
  labeler : ∀ L, x.labeler = some L → ColumnLabel.Works L n

/-- Column `c` has a profile of the given compiler and type, with statistics `s`. -/
def ShowsMore (c : Col More) (kind type : String) (s : More) : Prop :=
  ∃ kc ∈ c.compilers, kc.1 = kind ∧ ∃ tp ∈ kc.2.profs, tp.1 = type ∧ tp.2.state = s

/-- What the statistics `s` of a profile of the given type should say about the values `vals`. -/
structure TellsMore (w : World) (o : Opts) (draw : Draw) (x : Setup) (n : ℕ) (vals : List String) (type : String) (s : More) : Prop where
  plain : type ≠ "float" → type ≠ "data_labeler" → ∃ m, s = .plain m ∧ Tells w o draw vals type m
  float : type = "float" → ∃ m p ys, s = .float m p ∧ Tells w o draw vals type m ∧
    ys.Subperm (ColumnHist.written w.number vals) ∧ (ys = [] ↔ ColumnHist.written w.number vals = []) ∧
    (vals.length ≤ 20000 → ys.Perm (ColumnHist.written w.number vals)) ∧ (ys = [] → p.prec = none) ∧
    (ys ≠ [] → ∃ q, p.prec = some q ∧ PrecisionSpec.Describes (PrecisionSpec.counts ys) q)
  label : type = "data_labeler" → ∃ L c ys, x.labeler = some L ∧ s = .label c ∧ ys.Subperm vals ∧ (ys = [] ↔ vals = []) ∧
    (vals.length ≤ n → ys.Perm vals) ∧ c.sampleSize = ys.length ∧
    (ys = [] → Labels.representation L.labels c = none ∧ Labels.dataLabel L.labels c = none) ∧
    (ys ≠ [] → ColumnLabel.Tells L ys c)

end Verif.Spec.TableMore
