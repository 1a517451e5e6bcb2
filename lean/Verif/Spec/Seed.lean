import Verif.Model.Seed
import Mathlib.Data.List.Nodup

/-!
# What is expected of seeds and generators
-/

namespace Verif.Spec.Seed

open Verif Verif.Seed

variable {G R : Type}

/-- The seed in force: the one that was set, and if none was set the one of the environment. -/
def InForce (w : World G R) (n : ℕ) : Prop := w.setting = some n ∨ (w.setting = none ∧ w.env = some (some (n : ℤ)))

/-- What the documentation of the generators promises. -/
structure Lawful (lib : Lib G R) : Prop where
  integers_length : ∀ g lows n, (lib.integers g lows n).1.length = lows.length
  integers_range : ∀ g (lows : List ℕ) (n i a b : ℕ), lows[i]? = some a → (lib.integers g lows n).1[i]? = some b → a < n → a ≤ b ∧ b < n
  choice_length : ∀ g l k, k ≤ l.length → (lib.choice g l k).length = k
  choice_from : ∀ g l k, k ≤ l.length → (lib.choice g l k).Subperm l
  sample_length : ∀ r n k, k ≤ n → (lib.sample r n k).1.length = k
  sample_distinct : ∀ r n k, k ≤ n → (lib.sample r n k).1.Nodup
  sample_range : ∀ r n k, k ≤ n → ∀ i ∈ (lib.sample r n k).1, i < n

/-- The statistics of a result, without the values kept for display. -/
def statistics (r : Except Err (List Col)) : Except Err (List Nulls.ColState) := r.map fun cs => cs.map Col.stats

end Verif.Spec.Seed
