import Mathlib.Data.List.Sort
import Verif.Model.Nulls

/-!
# Specification vocabulary for null detection
-/

namespace Verif.NullsSpec

open Verif.Nulls

/-- The cells at the given positions. -/
def cellsAt (col : List Cell) (ps : List ℕ) : List Cell := ps.filterMap (col[·]?)

/-- Cells with a null text. -/
def nullCells (isNull : String → Bool) (cs : List Cell) : List Cell := cs.filter fun c => isNull c.2

/-- Cells with a proper text. -/
def trueCells (isNull : String → Bool) (cs : List Cell) : List Cell := cs.filter fun c => !isNull c.2

/-- The rows of the first `k` chunks. -/
def firstRows (b : Batch) (k : ℕ) : List Cell := cellsAt b.col (b.chunks.take k).flatten

/-- The first `k` chunks suffice. -/
def Enough (isNull : String → Bool) (b : Batch) (k : ℕ) : Prop :=
  b.minTrue ≤ (trueCells isNull (firstRows b k)).length ∧ b.sampleSize ≤ (firstRows b k).length

/-- `k` is the number of chunks looked at: the first that suffice, or all of them. -/
structure Taken (isNull : String → Bool) (b : Batch) (k : ℕ) : Prop where
  le : k ≤ b.chunks.length
  pos : 0 < k
  stop : k = b.chunks.length ∨ Enough isNull b k
  first : ∀ j, 0 < j → j < k → ¬ Enough isNull b j

/-- A sensible call: distinct labels, distinct existing positions, something to look at. -/
structure Valid (b : Batch) : Prop where
  labels : (b.col.map Prod.fst).Nodup
  positions : b.chunks.flatten.Nodup
  inRange : ∀ p ∈ b.chunks.flatten, p < b.col.length
  some : b.chunks ≠ []
  nonempty : ∀ c ∈ b.chunks, c ≠ []

/-- All rows looked at during a history, batch by batch. -/
inductive Sampled (isNull : String → Bool) : History → List Cell → Prop where
  | new : Sampled isNull .new []
  | update {h : History} {cs : List Cell} {b : Batch} {k : ℕ} (hs : Sampled isNull h cs) (ht : Taken isNull b k) :
      Sampled isNull (.update h b) (cs ++ firstRows b k)
  | merge {h1 h2 : History} {cs ds : List Cell} (h1s : Sampled isNull h1 cs) (h2s : Sampled isNull h2 ds) :
      Sampled isNull (.merge h1 h2) (cs ++ ds)

/-- Some batch was profiled. -/
def Fed : History → Prop
  | .new => False
  | .update _ _ => True
  | .merge h1 h2 => Fed h1 ∨ Fed h2

/-- Sensible batches with non-negative labels, and no merging with a fresh profile. -/
def Sensible : History → Prop
  | .new => True
  | .update h b => Sensible h ∧ Valid b ∧ ∀ c ∈ b.col, 0 ≤ c.1
  | .merge h1 h2 => Sensible h1 ∧ Sensible h2 ∧ Fed h1 ∧ Fed h2

/-- The null statistics `s` describe the cells `cs`. -/
structure Describes (isNull : String → Bool) (s : ColState) (cs : List Cell) : Prop where
  sampleSize : s.sampleSize = cs.length
  nullCount : s.nullCount = (nullCells isNull cs).length
  types : s.nullTypes.Nodup ∧ ∀ t, t ∈ s.nullTypes ↔ t ∈ (nullCells isNull cs).map Prod.snd
  indexKeys : ∀ t, t ∈ PyDict.keys s.index ↔ t ∈ (nullCells isNull cs).map Prod.snd
  indexRows : ∀ t, (PyDict.getD s.index t []).Nodup ∧
    (PyDict.getD s.index t []).length = (nullCells isNull cs).countP fun c => c.2 = t

end Verif.NullsSpec
