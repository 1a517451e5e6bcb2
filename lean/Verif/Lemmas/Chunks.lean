import Mathlib.Tactic.Ring
import Verif.Model.Chunks
import Verif.Spec.Chunks

/-! Helper lemmas about chunking. -/

namespace Verif.Chunks

open Verif

variable {α : Type}

theorem chunk_nil (size : ℕ) : chunk ([] : List α) size = [] := by
  rw [chunk]; simp

theorem chunk_step {l : List α} {size : ℕ} (hl : l ≠ []) (hs : 0 < size) :
    chunk l size = l.take size :: chunk (l.drop size) size := by
  rw [chunk]
  have : ¬ l.take size = [] := by
    rw [List.take_eq_nil_iff]; push Not; exact ⟨by omega, hl⟩
  simp [this]

theorem chunk_cuts (l : List α) {size : ℕ} (hs : 0 < size) : CutsInto l size (chunk l size) := by
  induction h : l.length using Nat.strong_induction_on generalizing l with
  | _ n ih =>
    by_cases hl : l = []
    · subst hl; rw [chunk_nil]; exact ⟨rfl, by simp, by simp, by simp⟩
    · have hpos := List.length_pos_iff.2 hl
      have hi := ih (l.drop size).length (by rw [List.length_drop]; omega) (l.drop size) rfl
      rw [chunk_step hl hs]
      refine ⟨?_, ?_, ?_, ?_⟩
      · rw [List.flatten_cons, hi.concat, List.take_append_drop]
      · intro p hp
        rcases List.mem_cons.1 hp with rfl | hp
        · rw [Ne, List.take_eq_nil_iff]; push Not; exact ⟨by omega, hl⟩
        · exact hi.nonempty p hp
      · intro p hp
        rcases List.mem_cons.1 hp with rfl | hp
        · rw [List.length_take]; omega
        · exact hi.bounded p hp
      · intro p hp
        by_cases hd : l.drop size = []
        · rw [hd, chunk_nil] at hp; simp at hp
        · have hne : chunk (l.drop size) size ≠ [] := by
            rw [chunk_step hd hs]; simp
          rw [List.dropLast_cons_of_ne_nil hne] at hp
          rcases List.mem_cons.1 hp with rfl | hp
          · rw [List.length_take]
            have := List.length_pos_iff.2 hd
            rw [List.length_drop] at this
            omega
          · exact hi.full p hp

theorem slice_drop (l : List α) (a i j : ℕ) :
    slice (l.drop a) i j = slice l (i + a) (j + a) := by
  unfold slice
  rw [List.drop_drop, Nat.add_comm a i]
  congr 1
  omega

theorem map_slice_eq_chunk (l : List α) {c : ℕ} (hc : 0 < c) :
    (List.range ((l.length + c - 1) / c)).map (fun i => slice l (i * c) (i * c + c)) = chunk l c := by
  induction h : l.length using Nat.strong_induction_on generalizing l with
  | _ n ih =>
    by_cases hl : l = []
    · subst hl
      simp at h; subst h
      rw [chunk_nil, show (0 + c - 1) / c = 0 from Nat.div_eq_of_lt (by omega)]; rfl
    · have hpos := List.length_pos_iff.2 hl
      have hlen : (l.drop c).length = n - c := by rw [List.length_drop, h]
      have hi := ih (n - c) (by omega) (l.drop c) hlen
      have hdiv : (n + c - 1) / c = (n - c + c - 1) / c + 1 := by
        by_cases hnc : c ≤ n
        · rw [show n + c - 1 = (n - c + c - 1) + c by omega, Nat.add_div_right _ hc]
        · rw [show n - c = 0 by omega, show n + c - 1 = (n - 1) + c by omega,
            Nat.add_div_right _ hc, Nat.div_eq_of_lt (by omega : n - 1 < c),
            Nat.div_eq_of_lt (by omega : 0 + c - 1 < c)]
      rw [hdiv, List.range_succ_eq_map, List.map_cons, List.map_map, chunk_step hl hc, ← hi]
      congr 1
      · simp [slice]
      · apply List.map_congr_left
        intro i _
        simp only [Function.comp, slice_drop]
        congr 1 <;> rw [Nat.succ_mul]

theorem map_slice_eq_chunk' (l : List α) {c : ℕ} (hc : 0 < c) :
    (List.range ((l.length + c - 1) / c)).map (fun i => slice l (i * c) ((i + 1) * c)) =
      chunk l c := by
  rw [← map_slice_eq_chunk l hc]
  apply List.map_congr_left
  intro i _
  rw [Nat.succ_mul]

theorem partition_eq (l : List α) {c : ℕ} (hc : 0 < c) : partition l c = .ok (chunk l c) := by
  unfold partition rangeStep
  rw [if_neg (by omega)]
  simp only [bind, Except.bind, List.map_map, ← map_slice_eq_chunk l hc]
  rfl

theorem mapM_ok {ε β γ : Type} {f : β → Except ε γ} {g : β → γ} (l : List β)
    (h : ∀ x ∈ l, f x = .ok (g x)) : l.mapM f = .ok (l.map g) := by
  induction l with
  | nil => rfl
  | cons x xs ih =>
    rw [List.mapM_cons, h x (by simp), ih (fun y hy => h y (by simp [hy]))]
    rfl

theorem gather_ok [Inhabited α] (data : List α) (idx : List ℕ) (h : ∀ k ∈ idx, k < data.length) :
    gather data idx = .ok (idx.map (data[·]!)) := by
  unfold gather
  apply mapM_ok
  intro k hk
  have := h k hk
  simp [this]

theorem map_get!_range [Inhabited α] (data : List α) :
    (List.range data.length).map (data[·]!) = data := by
  apply List.ext_getElem
  · simp
  · intro i h1 h2
    simp at h1
    simp [h1]

theorem batches_eq [Inhabited α] (data : List α) (indices : List ℕ) {b : ℕ} (hb : 0 < b)
    (hp : indices.Perm (List.range data.length)) :
    batches data indices b = .ok ((chunk indices b).map fun c => c.map (data[·]!)) := by
  have hlen : indices.length = data.length := by simpa using hp.length_eq
  have hmem : ∀ k ∈ indices, k < data.length := fun k hk => by simpa using hp.mem_iff.1 hk
  unfold batches rangeStep
  rw [if_neg (by omega)]
  simp only [bind, Except.bind]
  have e := map_slice_eq_chunk indices hb
  rw [← e, hlen, List.map_map]
  rw [mapM_ok (g := fun i => (slice indices i (i + b)).map (data[·]!))]
  · rw [List.map_map]; rfl
  · intro i _
    apply gather_ok
    intro k hk
    unfold slice at hk
    exact hmem k (List.mem_of_mem_drop (List.mem_of_mem_take hk))

theorem zipGroups_flatten (l : List α) {c : ℕ} (hc : 0 < c) :
    (zipGroups l c).flatten = l.take (l.length / c * c) ∧ ∀ g ∈ zipGroups l c, g.length = c := by
  induction h : l.length using Nat.strong_induction_on generalizing l with
  | _ n ih =>
    rw [zipGroups]
    by_cases hlt : n < c
    · rw [dif_pos (Or.inr (by omega)), Nat.div_eq_of_lt hlt]; simp
    · rw [dif_neg (by omega)]
      obtain ⟨a, b⟩ := ih (n - c) (by omega) (l.drop c) (by simp [h])
      constructor
      · rw [List.flatten_cons, a]
        have : n / c = (n - c) / c + 1 := by
          conv_lhs => rw [show n = (n - c) + c by omega]
          rw [Nat.add_div_right _ hc]
        rw [this, Nat.succ_mul, Nat.add_comm _ c, List.take_add]
      · intro g hg
        rcases List.mem_cons.1 hg with rfl | hg
        · rw [List.length_take]; omega
        · exact b g hg

end Verif.Chunks
