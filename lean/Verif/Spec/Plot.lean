import Mathlib.Data.List.Forall2
import Mathlib.Data.Rat.Defs
import Mathlib.Algebra.Order.Ring.Unbundled.Rat
import Verif.Model.Plot

/-!
# Specification vocabulary for the plots of a report
-/

namespace Verif.Spec.Plot

open Verif Verif.Plot

/-- The column was found to hold numbers. -/
def Numeric (c : Column) : Prop := c.selected = some "int" ∨ c.selected = some "float"

instance (c : Column) : Decidable (Numeric c) := by unfold Numeric; infer_instance

/-- A histogram whose bins have a width. -/
def Proper (h : Hist) : Prop := h.edges.length = h.counts.length + 1 ∧ h.edges.Pairwise (· < ·)

/-- The types of the column were looked at, and it has a histogram if it holds numbers. -/
def Ready (c : Column) : Prop := c.compiled = true ∧ (Numeric c → ∃ h, c.hist = some h ∧ Proper h)

/-- The panel shows the column: its name, its bins, and a bar for each bin as high as its count. -/
def Faithful (c : Column) (p : Panel) : Prop :=
  p.title = c.name ∧ ∃ h, c.hist = some h ∧ p.edges = h.edges ∧ p.bars = h.counts

/-- The figure shows the columns, one panel each in this order, and nothing else; there is no figure without columns. -/
def Draws : Option Figure → List Column → Prop
  | none, chosen => chosen = []
  | some f, chosen => chosen ≠ [] ∧ chosen.length ≤ f.rows * f.cols ∧
    ∃ panels, List.Forall₂ Faithful chosen panels ∧
      f.cells = panels.map Cell.shown ++ List.replicate (f.rows * f.cols - chosen.length) Cell.off

/-- A column is called so, up to upper and lower case. -/
def Called (lower : String → String) (s : String) (c : Column) : Prop := ∃ t, c.name = .str t ∧ lower t = lower s

instance (lower : String → String) (s : String) (c : Column) : Decidable (Called lower s c) :=
  match h : c.name with
  | .str t => if e : lower t = lower s then .isTrue ⟨t, h, e⟩
    else .isFalse fun ⟨t', h', e'⟩ => e (by rw [h] at h'; cases h'; exact e')
  | .int n => .isFalse fun ⟨t', h', _⟩ => by rw [h] at h'; cases h'

/-- The column at an index, which counts from the end when negative. -/
def At (cols : List Column) (i : ℤ) (c : Column) : Prop :=
  (∃ k : ℕ, i = k ∧ cols[k]? = some c) ∨ (∃ k : ℕ, i = (k : ℤ) - cols.length ∧ i < 0 ∧ cols[k]? = some c)

/-! ## Missing values -/

/-- A point lies inside a rectangle, whichever way this one was drawn. -/
def Inside (r : Rect) (x y : ℚ) : Prop :=
  (r.left < x ∧ x < r.left + r.width) ∧
    ((r.bottom < y ∧ y < r.bottom + r.height) ∨ (r.bottom + r.height < y ∧ y < r.bottom))

instance (r : Rect) (x y : ℚ) : Decidable (Inside r x y) := by unfold Inside; infer_instance

/-- The rectangles mark a row of a column with a null value. -/
def Marks (rects : List Rect) (col : ℕ) (t : String) (row : ℤ) : Prop :=
  ∃ r ∈ rects, r.label = some ("\"" ++ t ++ "\"") ∧ Inside r (col + 1 / 2) row

instance (rects : List Rect) (col : ℕ) (t : String) (row : ℤ) : Decidable (Marks rects col t row) := by
  unfold Marks; infer_instance

/-- A row with neighbours on neither side, and rows on both sides farther away. -/
def Lonely (rows : List ℤ) (r : ℤ) : Prop :=
  r ∈ rows ∧ r - 1 ∉ rows ∧ r + 1 ∉ rows ∧ (∃ a ∈ rows, a < r) ∧ ∃ b ∈ rows, r < b

instance (rows : List ℤ) (r : ℤ) : Decidable (Lonely rows r) := by unfold Lonely; infer_instance

/-- `order` lists the elements of a set of rows in increasing order. -/
def Sorts (order : List ℤ → List ℤ) : Prop :=
  ∀ l, (∀ x, x ∈ order l ↔ x ∈ l) ∧ (order l).Pairwise (· < ·)

/-- The null values of the columns in the order they first occur. -/
def kinds (cols : List NullColumn) : List String :=
  (cols.flatMap fun c => PyDict.keys c.nulls).foldl (fun seen t => if t ∈ seen then seen else seen ++ [t]) []

/-- Every null value has rows, and its own place in the dictionary. -/
def Filled (c : NullColumn) : Prop := PyDict.WF c.nulls ∧ ∀ p ∈ c.nulls, p.2 ≠ []

end Verif.Spec.Plot
