import Mathlib.Data.List.Forall2
import Verif.Model.TableRead

/-!
# Specification vocabulary for reading tables
-/

namespace Verif.Spec.TableRead

open Verif Verif.TableRead

/-! ### Parquet -/

variable {D : Type}

/-- All columns are divided into the row groups of the file. -/
def Well (f : File D) : Prop := ∀ c ∈ f.columns, c.2.sizes = f.sizes

/-- The number of rows. -/
def rows (f : File D) : ℕ := f.sizes.sum

/-- Two columns of the same cells, however they are divided. -/
inductive Same : Column D → Column D → Prop
  | ints {g h} (e : g.flatten = h.flatten) : Same (.ints g) (.ints h)
  | floats {g h} (e : g.flatten = h.flatten) : Same (.floats g) (.floats h)
  | bools {g h} (e : g.flatten = h.flatten) : Same (.bools g) (.bools h)
  | texts {g h} (e : g.flatten = h.flatten) : Same (.texts g) (.texts h)

/-- Two files of the same cells. -/
def SameCells (f g : File D) : Prop := List.Forall₂ (fun c d => c.1 = d.1 ∧ Same c.2 d.2) f.columns g.columns

/-- The text of a cell, by what is in it. -/
inductive CellText (E : Doubles D) : Column D → ℕ → String → Prop
  | int {g i z} (h : g.flatten[i]? = some (some z)) : CellText E (.ints g) i (E.dec z)
  | noInt {g i} (h : g.flatten[i]? = some none) : CellText E (.ints g) i (E.shown E.nan)
  | float {g i d} (h : g.flatten[i]? = some (some d)) : CellText E (.floats g) i (E.shown d)
  | noFloat {g i} (h : g.flatten[i]? = some none) : CellText E (.floats g) i (E.shown E.nan)
  | yes {g i} (h : g.flatten[i]? = some (some true)) : CellText E (.bools g) i "True"
  | no {g i} (h : g.flatten[i]? = some (some false)) : CellText E (.bools g) i "False"
  | noBool {g i} (h : g.flatten[i]? = some none) : CellText E (.bools g) i "None"
  | text {g i s} (h : g.flatten[i]? = some (some s)) : CellText E (.texts g) i s
  | noText {g i} (h : g.flatten[i]? = some none) : CellText E (.texts g) i "None"

/-- A column of integers with a null somewhere. -/
def Holed : Column D → Prop
  | .ints g => none ∈ g.flatten
  | _ => False

/-- The texts are those of the cells: as many as there are rows, each of its own cell. -/
def Faithful (E : Doubles D) (n : ℕ) (c : Column D) (texts : List String) : Prop :=
  texts.length = n ∧ ∀ i, (h : i < texts.length) → CellText E c i texts[i]

/-- The columns that are asked for: all, or those of the names, in this order. -/
def Chosen {α : Type} (selected : List String) (all got : List (String × α)) : Prop :=
  if selected = [] then got = all else got.map Prod.fst = selected ∧ ∀ c ∈ got, c ∈ all

/-- The rows of a sample: ascending. -/
structure Rows (n total : ℕ) (keep : List ℕ) : Prop where
  ascending : keep.Pairwise (· < ·)
  bound : ∀ i ∈ keep, i < total
  length : keep.length = min n total

/-! ### Delimited files -/

/-- The lines of a text, without their ends. -/
structure Lines (text : List Char) (ls : List (List Char)) : Prop where
  some : ls ≠ []
  inner : ∀ l ∈ ls, '\n' ∉ l
  joined : text = (ls.intersperse ['\n']).flatten

/-- What is used for a setting: the one given, if it is a text that is not empty, or the one guessed. -/
def used (given guess : Option String) : Option String :=
  match given with
  | none => guess
  | some t => if t.length = 0 then guess else some t

/-- The delimiter occurs once in the line. -/
def Once (d : Char) (line : List Char) : Prop := line.count d = 1

/-- The delimiter occurs once, and after it there are only blanks. -/
def EndsWith (blank : Char → Bool) (d : Char) (line : List Char) : Prop :=
  ∃ head tail, line = head ++ d :: tail ∧ d ∉ head ∧ d ∉ tail ∧ (∀ c ∈ tail, blank c = true) ∧ blank d = false

/-- Every line that is not empty ends with its only delimiter. -/
def OnlyEnds (blank : Char → Bool) (d : Char) (ls : List (List Char)) : Prop := ∀ l ∈ ls, l ≠ [] → EndsWith blank d l

/-- A line of blanks with one delimiter. -/
def Hollow (blank : Char → Bool) (d : Char) (ls : List (List Char)) : Prop := ∃ l ∈ ls, Once d l ∧ ∀ c ∈ l, blank c = true

end Verif.Spec.TableRead
