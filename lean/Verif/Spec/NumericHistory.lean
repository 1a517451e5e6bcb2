import Verif.Spec.Moments
import Verif.Model.NumericStats

/-!
# What a profiling history has seen

Reads off a history of API calls (create / update / `+`) the data it contains, with no reference to
how profiles are computed.
-/

namespace Verif.Numeric.History

open Verif

/-- All batches of strings handed to `update`, oldest first. -/
def batches : History → List (List String)
  | .new _ _ => []
  | .update h b => h.batches ++ [b]
  | .add h1 h2 => h1.batches ++ h2.batches

/-- All cells seen, in order. -/
def cells (h : History) : List String := h.batches.flatten

/-- All values that are of the column's type. -/
noncomputable def values (parse : String → Option ℝ) (h : History) : List ℝ :=
  h.cells.filterMap parse

/-- Every profile of the history was created with options accepted by validation. -/
def Valid : History → Prop
  | .new c _ => c.valid = true
  | .update h _ => h.Valid
  | .add h1 h2 => h1.Valid ∧ h2.Valid

/-- `on f` : the statistic selected by `f` is enabled in every profile of the history. -/
def on (f : Calcs → Bool) : History → Prop
  | .new c _ => f c = true
  | .update h _ => h.on f
  | .add h1 h2 => h1.on f ∧ h2.on f

/-- Bias correction enabled in every profile of the history. -/
def biasOn : History → Prop
  | .new _ b => b = true
  | .update h _ => h.biasOn
  | .add h1 h2 => h1.biasOn ∧ h2.biasOn

/-- Every batch is `Resolved` (deviation sums not in `(0, 1e-14)`). -/
def ResolvedBatches (parse : String → Option ℝ) (h : History) : Prop :=
  ∀ b ∈ h.batches, Spec.Resolved (b.filterMap parse)

/-- No `update` is ever applied to a profile whose data so far has minimum exactly `0`. -/
def NoZeroMin (parse : String → Option ℝ) : History → Prop
  | .new _ _ => True
  | .update h _ => ¬ Spec.IsMinOf 0 (h.values parse) ∧ h.NoZeroMin parse
  | .add h1 h2 => h1.NoZeroMin parse ∧ h2.NoZeroMin parse

/-- No `update` is ever applied to a profile whose data so far has maximum exactly `0`. -/
def NoZeroMax (parse : String → Option ℝ) : History → Prop
  | .new _ _ => True
  | .update h _ => ¬ Spec.IsMaxOf 0 (h.values parse) ∧ h.NoZeroMax parse
  | .add h1 h2 => h1.NoZeroMax parse ∧ h2.NoZeroMax parse

end Verif.Numeric.History
