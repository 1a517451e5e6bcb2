import Mathlib.Algebra.BigOperators.Group.List.Basic
import Verif.Model.Categorical

/-!
# Specification vocabulary for categorical columns
-/

namespace Verif.CatSpec

open Verif.Categorical

variable {K : Type} [DecidableEq K]

/-- All values a history has seen, in order (merging appends). -/
def seen : History K → List K
  | .new _ _ => []
  | .update h b => seen h ++ b
  | .merge h1 h2 => seen h1 ++ seen h2

/-- The stop options given to the profiles of a history. -/
def optsIn : History K → List StopOpts
  | .new o _ => [o]
  | .update h _ => optsIn h
  | .merge h1 h2 => optsIn h1 ++ optsIn h2

/-- Number of different values. -/
def distinct (l : List K) : ℕ := l.dedup.length

/-- Share of different values among all values, 0 for no values. -/
def ratio (l : List K) : ℚ := (distinct l : ℚ) / l.length

/-- Options `o` ask to stop on data `l`. -/
def Asks (o : StopOpts) (l : List K) : Prop :=
  ∃ m r, o.maxSample = some m ∧ o.ratio = some r ∧ m ≤ l.length ∧ r ≤ ratio l

/-- Number of ordered pairs of positions holding different values. -/
def differingPairs (l : List K) : ℕ := (l.product l).countP fun p => decide (p.1 ≠ p.2)

/-- All values a sketch history has seen. -/
def seenCms : CmsHistory K → List K
  | .new _ _ => []
  | .update h b => seenCms h ++ b
  | .merge h1 h2 => seenCms h1 ++ seenCms h2

/-- The size of the sketch of a profile: that of the first operand of a merge. -/
def sketchSize : CmsHistory K → ℕ × ℕ
  | .new _ p => p
  | .update h _ => sketchSize h
  | .merge h1 _ => sketchSize h1

/-- Whether a profile is the result of a merge. -/
def Merged : CmsHistory K → Prop
  | .new _ _ => False
  | .update h _ => Merged h
  | .merge _ _ => True

/-- Only sketches of one size are merged, and nothing is done to a merged profile but merging it as the second operand. -/
def Works : CmsHistory K → Prop
  | .new _ _ => True
  | .update h b => Works h ∧ (Merged h → b = [])
  | .merge h1 h2 => Works h1 ∧ Works h2 ∧ ¬ Merged h1 ∧ sketchSize h1 = sketchSize h2

end Verif.CatSpec
