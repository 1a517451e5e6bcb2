import Verif.Lemmas.Chunks

/-! # C25: chunking loses nothing -/

namespace Verif.Chunks

open Verif

variable {α : Type}

/-- **C25** `partition(data, n)` cuts the data into pieces of size `n`, for every positive `n`; size 0
raises `ValueError`. -/
theorem C25_partition (data : List α) (size : ℕ) :
    (0 < size → ∃ ps, partition data size = .ok ps ∧ CutsInto data size ps) ∧
    (size = 0 → partition data size = .error .valueError) := by
  refine ⟨fun h => ⟨_, partition_eq data h, chunk_cuts data h⟩, ?_⟩
  rintro rfl; rfl

/-- **C25** `chunk(lst, n)` cuts the list into pieces of size `n`, for every positive `n`. -/
theorem C25_chunk (l : List α) (size : ℕ) (h : 0 < size) : CutsInto l size (chunk l size) :=
  chunk_cuts l h

/-- **C25** The text reader cuts its text into blocks of (at most) the requested number of
characters, losing none, for every positive option value. -/
theorem C25_text_blocks (text : List Char) (samplesPerLine : ℕ) (h : 0 < samplesPerLine) :
    ∃ ps, textBlocks text samplesPerLine = .ok ps ∧
      CutsInto text (min (max text.length 1) samplesPerLine) ps := by
  unfold textBlocks
  have hc : 0 < min (max text.length 1) samplesPerLine := by omega
  simp only
  rw [if_neg (by omega), map_slice_eq_chunk' text hc]
  exact ⟨_, rfl, chunk_cuts text hc⟩

/-- **C25** The record view groups all rows, in order, when there is at least one row. -/
theorem C25_records (rows : List α) (dflt : ℕ) (h : 0 < dflt) (hr : rows ≠ []) :
    ∃ ps, recordGroups rows dflt = .ok ps ∧ CutsInto rows (min rows.length dflt) ps := by
  have := List.length_pos_iff.2 hr
  have hc : 0 < min rows.length dflt := by omega
  unfold recordGroups
  simp only
  rw [if_neg (by omega), map_slice_eq_chunk' rows hc]
  exact ⟨_, rfl, chunk_cuts rows hc⟩

/-- The record view of an empty data set raises `ZeroDivisionError`: the rows hypothesis above is
needed. -/
theorem C25_records_empty_fails (dflt : ℕ) :
    recordGroups ([] : List α) dflt = .error .zeroDivision := by simp [recordGroups]

/-- **C25** The batch generator, whatever permutation numpy draws, yields every row exactly once, in
non-empty batches of the requested size (the last possibly shorter). -/
theorem C25_batch_generator [Inhabited α] (data : List α) (indices : List ℕ) (batchSize : ℕ)
    (hb : 0 < batchSize) (hp : indices.Perm (List.range data.length)) :
    ∃ bs, batches data indices batchSize = .ok bs ∧
      bs.flatten.Perm data ∧ CutsInto (bs.flatten) batchSize bs := by
  refine ⟨_, batches_eq data indices hb hp, ?_, ?_⟩
  · have := (chunk_cuts indices hb).concat
    rw [← List.map_flatten, this]
    have h2 := hp.map (data[·]!)
    rwa [map_get!_range] at h2
  · have hc := chunk_cuts indices hb
    refine ⟨rfl, ?_, ?_, ?_⟩
    · intro p hp
      obtain ⟨c, hc', rfl⟩ := List.mem_map.1 hp
      simpa using hc.nonempty c hc'
    · intro p hp
      obtain ⟨c, hc', rfl⟩ := List.mem_map.1 hp
      simpa using hc.bounded c hc'
    · intro p hp
      rw [← List.map_dropLast] at hp
      obtain ⟨c, hc', rfl⟩ := List.mem_map.1 hp
      simpa using hc.full c hc'

/-- **C25** (partial) The JSON text view keeps an initial segment of the text, in blocks of equal size; it loses
the incomplete last block. Full claim (no loss) holds exactly when the block size divides the length,
in particular whenever the text is no longer than the default block size of 5·10⁹. -/
theorem C25_json_blocks_partial (text : List Char) (dflt : ℕ) (h : 0 < dflt) :
    (jsonBlocks text dflt).flatten <+: text ∧
    (text.length ≤ dflt → (jsonBlocks text dflt).flatten = text) ∧
    ((jsonBlocks text dflt).flatten = text ↔ text.length % min text.length dflt = 0) := by
  unfold jsonBlocks
  by_cases ht : text = []
  · subst ht; rw [zipGroups]; simp
  · have hpos := List.length_pos_iff.2 ht
    have hc : 0 < min text.length dflt := by omega
    obtain ⟨a, _⟩ := zipGroups_flatten text hc
    rw [a]
    have key : (text.take (text.length / min text.length dflt * min text.length dflt) = text ↔
        text.length % min text.length dflt = 0) := by
      have hself : ∀ k, (text.take k = text ↔ text.length ≤ k) := fun k =>
        ⟨fun h => by have := congrArg List.length h; rw [List.length_take] at this; omega,
          List.take_of_length_le⟩
      rw [hself]
      have := Nat.div_add_mod text.length (min text.length dflt)
      have h2 := Nat.mul_comm (min text.length dflt) (text.length / min text.length dflt)
      omega
    refine ⟨List.take_prefix _ _, ?_, key⟩
    intro hle
    rw [key, Nat.min_eq_left hle, Nat.mod_self]

/-- The JSON text view does lose characters when the text is longer than a block. -/
theorem C25_json_blocks_fails :
    (jsonBlocks ['[', '1', ']'] 2).flatten ≠ ['[', '1', ']'] := by
  rw [Ne, (C25_json_blocks_partial _ 2 (by decide)).2.2]; decide

example : chunk [1, 2, 3, 4, 5] 2 = [[1, 2], [3, 4], [5]] := by
  simp [chunk]

example : partition [1, 2, 3, 4, 5] 2 = .ok [[1, 2], [3, 4], [5]] := by
  rw [partition_eq _ (by decide)]; simp [chunk]

example : ∃ bs, batches ["a", "b", "c"] [2, 0, 1] 2 = .ok bs ∧ bs.flatten.Perm ["a", "b", "c"] := by
  obtain ⟨bs, h, hp, _⟩ := C25_batch_generator ["a", "b", "c"] [2, 0, 1] 2 (by decide) (by decide)
  exact ⟨bs, h, hp⟩

end Verif.Chunks
