import Verif.Model.Labels

/-!
# What a label profile should report
-/

namespace Verif.LabelsSpec

open Verif.Labels

/-- All rows of confidences of a history. -/
def rows : History → List (List ℚ)
  | .new => []
  | .update h rs => rows h ++ rs
  | .merge h1 h2 => rows h1 ++ rows h2

/-- Every row has a confidence for every label. -/
def Valid (labels : List String) (h : History) : Prop := ∀ row ∈ rows h, row.length = labels.length

/-- No profile that has seen data is merged with one that has not. -/
def Mergeable : History → Prop
  | .new => True
  | .update h _ => Mergeable h
  | .merge h1 h2 => Mergeable h1 ∧ Mergeable h2 ∧ (rows h1 = [] ↔ rows h2 = [])

/-- `pick` finds a position with the largest confidence. -/
def Picks (pick : List ℚ → ℕ) : Prop :=
  ∀ row : List ℚ, row ≠ [] → ∃ p, row[pick row]? = some p ∧ ∀ q ∈ row, q ≤ p

/-- Rearranging a collection. -/
def Rearranges (order : List String → List String) : Prop := ∀ l, (order l).Perm l

/-- The row votes for label number `i`. -/
def VotesFor (pick : List ℚ → ℕ) (i : ℕ) (row : List ℚ) : Prop := pick row = i ∧ ∃ p, row[i]? = some p ∧ 1 / 5 < p

instance (pick : List ℚ → ℕ) (i : ℕ) : DecidablePred (VotesFor pick i) := fun row =>
  match h : row[i]? with
  | none => isFalse fun hv => by obtain ⟨_, p, hp, _⟩ := hv; rw [h] at hp; cases hp
  | some p =>
    if hc : pick row = i ∧ 1 / 5 < p then isTrue ⟨hc.1, p, h, hc.2⟩
    else isFalse fun hv => by
      obtain ⟨h1, q, hq, h2⟩ := hv
      rw [h] at hq
      exact hc ⟨h1, by rw [Option.some.inj hq]; exact h2⟩

/-- Number of votes for label number `i`. -/
def votes (pick : List ℚ → ℕ) (h : History) (i : ℕ) : ℕ := (rows h).countP fun row => decide (VotesFor pick i row)

/-- Number of rows that vote at all: some confidence is above 0.20. -/
def cast (h : History) : ℕ := (rows h).countP fun row => row.any fun p => decide (1 / 5 < p)

/-- Share of the votes of label number `i`; 0 if there are no votes. -/
def share (pick : List ℚ → ℕ) (h : History) (i : ℕ) : ℚ := (votes pick h i : ℚ) / (cast h : ℚ)

/-- Votes for a label. -/
def votesOf (labels : List String) (pick : List ℚ → ℕ) (h : History) (l : String) : ℕ := votes pick h (labels.idxOf l)

/-- Share of the votes of a label. -/
def shareOf (labels : List String) (pick : List ℚ → ℕ) (h : History) (l : String) : ℚ := share pick h (labels.idxOf l)

/-- Mean confidence for label number `i`. -/
def mean (h : History) (i : ℕ) : ℚ := ((rows h).map fun row => row.getD i 0).sum / ((rows h).length : ℚ)

end Verif.LabelsSpec
