import Verif.Model.Mergeable

/-! # Specification of profiles that can be merged -/

namespace Verif.Spec.Mergeable

open Verif.Mergeable

variable {Λ S σ : Type}

/-- The labelers go together, where there are any. -/
def SameLabeler (a b : Profile Λ S σ) : Prop :=
  (a.cls.kind = .labeler ∨ a.cls.kind = .entities → a.labeler = b.labeler) ∧ (a.cls.kind = .labeler → a.maxSize = b.maxSize)

/-- The votes are counted alike, where there are any. -/
def SameVotes (a b : Profile Λ S σ) : Prop := a.cls.kind = .labeler → a.settings = b.settings

/-- The column is the same. -/
def SameColumn (a b : Profile Λ S σ) : Prop :=
  (a.cls.kind ≠ .entities → a.name = b.name ∧ a.name ≠ .nan) ∧ (a.cls.kind ≠ .entities → a.cls.kind ≠ .words → a.index = b.index)

/-- Profiles that go together. -/
def Compatible (a b : Profile Λ S σ) : Prop :=
  a.cls.kind = b.cls.kind ∧ SameLabeler a b ∧ SameVotes a b ∧ SameColumn a b

/-- The profiles that are added. -/
def leaves {α : Type} : Tree α → List α
  | .leaf a => [a]
  | .node l r => leaves l ++ leaves r

/-- The name is one that is equal to itself, where names count. -/
def Named (a : Profile Λ S σ) : Prop := a.cls.kind ≠ .entities → a.name ≠ .nan

end Verif.Spec.Mergeable
