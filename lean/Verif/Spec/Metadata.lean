import Verif.Model.Metadata

/-! # Specification of metadata of JSON documents -/

namespace Verif.Spec.Metadata

open Verif.Metadata
open Verif.Json (Key)

variable {V : Type}

/-- The cells of a row, none if there is no such row. -/
def cellsAt (f : Frame V) (i : ℕ) : List (Key × V) := (f[i]?).getD []

/-- Two frames side by side: as many rows as the longer one, and in each the cells of both. -/
def SideBySide (a b c : Frame V) : Prop :=
  c.length = max a.length b.length ∧ ∀ i, cellsAt c i = cellsAt a i ++ cellsAt b i

/-- A frame has a cell. -/
def HasCell (f : Frame V) : Prop := ∃ row ∈ f, row ≠ []

/-- The format after steps. -/
def formatAfter (f : Format) : List Step → Format
  | [] => f
  | .format g :: rest => formatAfter g rest
  | _ :: rest => formatAfter f rest

/-- The data were read in the flattened format at some step. -/
def Flattened (f : Format) : List Step → Prop
  | [] => False
  | .data :: rest => f = .flattened ∨ Flattened f rest
  | .both :: rest => f = .flattened ∨ Flattened f rest
  | .metadata :: rest => Flattened f rest
  | .format g :: rest => Flattened g rest

end Verif.Spec.Metadata
