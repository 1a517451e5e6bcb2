import Mathlib.Data.List.Perm.Basic
import Verif.Model.Vocab

/-!
# The vocabulary of a text column (C35)
-/

namespace Verif.Vocab

/-- All values given to a history. -/
def values : History → List String
  | .new => []
  | .update h data => values h ++ data
  | .merge h1 h2 => values h1 ++ values h2

theorem combineUnique_spec (order : List Char → List Char) (ho : ∀ l, (order l).Perm l) (a b : List Char) :
    (combineUnique order a b).Nodup ∧ ∀ c, c ∈ combineUnique order a b ↔ c ∈ a ∨ c ∈ b := by
  unfold combineUnique
  split_ifs with h1 h2 h3
  · simp [h1.1, h1.2]
  · exact ⟨(ho _).nodup_iff.2 (List.nodup_dedup _), fun c => by simp [(ho _).mem_iff, h2]⟩
  · exact ⟨(ho _).nodup_iff.2 (List.nodup_dedup _), fun c => by simp [(ho _).mem_iff, h3]⟩
  · exact ⟨(ho _).nodup_iff.2 (List.nodup_dedup _), fun c => by simp [(ho _).mem_iff]⟩

theorem updateVocab_spec (order : List Char → List Char) (ho : ∀ l, (order l).Perm l) (v : List Char)
    (data : List (List Char)) :
    (updateVocab order v data).Nodup ∧ ∀ c, c ∈ updateVocab order v data ↔ c ∈ v ∨ ∃ x ∈ data, c ∈ x := by
  obtain ⟨h1, h2⟩ := combineUnique_spec order ho v (order data.flatten.dedup)
  refine ⟨h1, fun c => ?_⟩
  rw [updateVocab, h2, (ho _).mem_iff]
  simp

/-- **Vocabulary**: after any updates and merges the vocabulary lists every character of every value seen, each once, and
nothing else. -/
theorem C35_vocab (order : List Char → List Char) (ho : ∀ l, (order l).Perm l) (h : History) :
    (run order h).Nodup ∧ ∀ c, c ∈ run order h ↔ ∃ x ∈ values h, c ∈ x.toList := by
  induction h with
  | new => simp [run, values]
  | update h data ih =>
    simp only [run, update, values]
    split_ifs with he
    · simpa [he] using ih
    · obtain ⟨h1, h2⟩ := updateVocab_spec order ho (run order h) (data.map String.toList)
      refine ⟨h1, fun c => ?_⟩
      rw [h2, ih.2]
      simp only [List.mem_map, List.mem_append]
      constructor
      · rintro (⟨x, hx, hc⟩ | ⟨_, ⟨x, hx, rfl⟩, hc⟩)
        · exact ⟨x, Or.inl hx, hc⟩
        · exact ⟨x, Or.inr hx, hc⟩
      · rintro ⟨x, hx | hx, hc⟩
        · exact Or.inl ⟨x, hx, hc⟩
        · exact Or.inr ⟨_, ⟨x, hx, rfl⟩, hc⟩
  | merge h1 h2 ih1 ih2 =>
    obtain ⟨g1, g2⟩ := updateVocab_spec order ho (run order h1) ((run order h2).map fun c => [c])
    refine ⟨g1, fun c => ?_⟩
    simp only [run, merge, values]
    rw [g2, ih1.2]
    simp only [List.mem_map, List.mem_append]
    constructor
    · rintro (⟨x, hx, hc⟩ | ⟨_, ⟨d, hd, rfl⟩, hc⟩)
      · exact ⟨x, Or.inl hx, hc⟩
      · rw [List.mem_singleton] at hc
        subst hc
        obtain ⟨x, hx, hc⟩ := (ih2.2 c).1 hd
        exact ⟨x, Or.inr hx, hc⟩
    · rintro ⟨x, hx | hx, hc⟩
      · exact Or.inl ⟨x, hx, hc⟩
      · exact Or.inr ⟨_, ⟨c, (ih2.2 c).2 ⟨x, hx, hc⟩, rfl⟩, List.mem_singleton.2 rfl⟩

/-- The vocabulary does not depend on how values were batched and merged, up to its order. -/
theorem C35_batching (order order' : List Char → List Char) (ho : ∀ l, (order l).Perm l) (ho' : ∀ l, (order' l).Perm l)
    (h1 h2 : History) (hv : ∀ x, x ∈ values h1 ↔ x ∈ values h2) : (run order h1).Perm (run order' h2) := by
  obtain ⟨a1, a2⟩ := C35_vocab order ho h1
  obtain ⟨b1, b2⟩ := C35_vocab order' ho' h2
  rw [List.perm_ext_iff_of_nodup a1 b1]
  intro c
  rw [a2, b2]
  simp only [hv]

example : (∀ l : List Char, (List.reverse l).Perm l) ∧
    run List.reverse (.merge (.update .new ["ab", "b"]) (.update .new ["", "bc"])) = ['b', 'c', 'a'] := by
  exact ⟨List.reverse_perm, by decide⟩

end Verif.Vocab
