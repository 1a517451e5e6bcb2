import Mathlib.Tactic.Linarith
import Verif.Spec.Network
import Verif.Lemmas.CharProcess

/-!
# Lemmas about the networks of the character models
-/

namespace Verif.Network

open Verif Verif.Spec.Network

variable {W R : Type}

/-! ### Encoding -/

theorem encode_length (c n : ℕ) (s : List ℕ) : (encode c n s).length = n := by
  unfold encode
  simp only [List.length_append, List.length_replicate, List.length_take, List.length_map]
  omega

theorem encode_get (c n : ℕ) (s : List ℕ) (i : ℕ) (h : i < n) :
    (encode c n s)[i]? = some (if h : i < s.length then min s[i] c + 1 else 0) := by
  unfold encode
  simp only [List.length_take, List.length_map]
  by_cases hi : i < s.length
  · rw [List.getElem?_append_left (by simp only [List.length_take, List.length_map]; omega)]
    rw [List.getElem?_take_of_lt h]
    simp only [List.getElem?_map, List.getElem?_eq_getElem hi, Option.map_some, hi, dif_pos]
    congr 1
    omega
  · rw [List.getElem?_append_right (by simp only [List.length_take, List.length_map]; omega)]
    rw [List.getElem?_replicate]
    simp only [List.length_take, List.length_map, hi, dif_neg, not_false_eq_true]
    rw [if_pos (by omega)]

theorem encode_lt (c n : ℕ) (s : List ℕ) : ∀ x ∈ encode c n s, x < c + 2 := by
  intro x hx
  unfold encode at hx
  rcases List.mem_append.1 hx with h | h
  · obtain ⟨y, _, rfl⟩ := List.mem_map.1 (List.mem_of_mem_take h)
    omega
  · rw [List.mem_replicate] at h
    omega

theorem encode_eq_iff (c n : ℕ) (s t : List ℕ) :
    encode c n s = encode c n t ↔ (s.take n).map (min · c) = (t.take n).map (min · c) := by
  constructor
  · intro h
    have key : ∀ i, i < n → ((if h : i < s.length then min s[i] c + 1 else 0) = if h : i < t.length then min t[i] c + 1 else 0) := by
      intro i hi
      have := congrArg (·[i]?) h
      simp only [encode_get c n _ i hi, Option.some.injEq] at this
      exact this
    apply List.ext_getElem?
    intro i
    by_cases hi : i < n
    · have := key i hi
      simp only [List.getElem?_map, List.getElem?_take_of_lt hi]
      by_cases h1 : i < s.length <;> by_cases h2 : i < t.length <;> simp only [h1, h2, dif_pos, dif_neg, not_false_eq_true] at this
      · simp only [List.getElem?_eq_getElem h1, List.getElem?_eq_getElem h2, Option.map_some, Option.some.injEq]
        omega
      · omega
      · omega
      · rw [List.getElem?_eq_none (by omega), List.getElem?_eq_none (by omega)]
    · simp only [List.getElem?_map]
      rw [List.getElem?_eq_none (by simp; omega), List.getElem?_eq_none (by simp; omega)]
  · intro h
    have hlen : (s.take n).length = (t.take n).length := by simpa using congrArg List.length h
    have e : ∀ u : List ℕ, (u.map fun x => min (1 + x) (c + 1)).take n = ((u.take n).map (min · c)).map (· + 1) := by
      intro u
      rw [← List.map_take, List.map_map]
      refine List.map_congr_left fun x _ => ?_
      simp only [Function.comp_apply]
      omega
    unfold encode
    simp only [e, h]

/-! ### Largest numbers -/

theorem foldl_max_ge (t : List ℚ) (a : ℚ) : a ≤ t.foldl max a ∧ ∀ x ∈ t, x ≤ t.foldl max a := by
  induction t generalizing a with
  | nil => simp
  | cons b t ih =>
    simp only [List.foldl_cons, List.mem_cons]
    have h := ih (max a b)
    refine ⟨le_trans (le_max_left _ _) h.1, ?_⟩
    rintro x (rfl | hx)
    · exact le_trans (le_max_right _ _) h.1
    · exact h.2 x hx

theorem foldl_max_mem (t : List ℚ) (a : ℚ) : t.foldl max a = a ∨ t.foldl max a ∈ t := by
  induction t generalizing a with
  | nil => simp
  | cons b t ih =>
    simp only [List.foldl_cons, List.mem_cons]
    rcases ih (max a b) with h | h
    · rcases max_choice a b with h' | h'
      · left; rw [h, h']
      · right; left; rw [h, h']
    · exact .inr (.inr h)

theorem largest_spec {row : List ℚ} (h : row ≠ []) : largest row ∈ row ∧ ∀ x ∈ row, x ≤ largest row := by
  cases row with
  | nil => exact absurd rfl h
  | cons a t =>
    refine ⟨?_, ?_⟩
    · show t.foldl max a ∈ a :: t
      rcases foldl_max_mem t a with h | h
      · rw [h]; exact List.mem_cons_self
      · exact List.mem_cons_of_mem _ h
    · intro x hx
      rcases List.mem_cons.1 hx with rfl | hx
      · exact (foldl_max_ge t x).1
      · exact (foldl_max_ge t a).2 x hx

theorem argmax_spec {row : List ℚ} (h : row ≠ []) :
    ∃ hi : argmax row < row.length, row[argmax row] = largest row ∧ ∀ j (hj : j < argmax row), row[j] < largest row := by
  have hs := largest_spec h
  have hlt : argmax row < row.length := by
    unfold argmax
    rw [List.findIdx_lt_length]
    exact ⟨_, hs.1, by simpa using hs.2⟩
  have hp : ∀ y ∈ row, y ≤ row[argmax row] := by
    have := List.findIdx_getElem (w := hlt)
    simp only [List.all_eq_true, decide_eq_true_eq] at this
    exact this
  refine ⟨hlt, le_antisymm (hs.2 _ (List.getElem_mem _)) (hp _ hs.1), fun j hj => ?_⟩
  have hj' : j < row.length := lt_trans hj hlt
  have hnot : ¬ (row.all fun y => decide (y ≤ row[j])) = true := by
    have := List.not_of_lt_findIdx (show j < row.findIdx (fun x => row.all fun y => decide (y ≤ x)) from hj)
    simpa using this
  refine lt_of_le_of_ne (hs.2 _ (List.getElem_mem hj')) fun he => hnot ?_
  simp only [List.all_eq_true, decide_eq_true_eq]
  intro y hy
  rw [he]
  exact hs.2 y hy

/-! ### Names of layers -/

theorem zipIdx_pairwise {α : Type} (l : List α) (k : ℕ) : (l.zipIdx k).Pairwise fun a b => a.2 ≠ b.2 := by
  induction l generalizing k with
  | nil => exact .nil
  | cons a t ih =>
    rw [List.zipIdx_cons]
    refine List.Pairwise.cons (fun x hx => ?_) (ih (k + 1))
    have := List.le_snd_of_mem_zipIdx hx
    simp only [ne_eq]
    omega

/-- The layers before those for labels. -/
def bodyOf (p : Params) : List (Cls × (String × ℕ) × ℕ) :=
  [(.input, ("input_layer", 0), 0), (.encoding p.maxCode p.maxLen, ("encoding_layer", 0), 0),
    (.embedding (p.maxCode + 2), ("embedding", 0), p.dim)] ++
  (p.filters.zipIdx.flatMap fun x => (.conv, ("conv1d", x.2), x.1) ::
    ((if p.dropout then [(.dropout, ("dropout", x.2), 0)] else []) ++ [(.norm, ("batch_normalization", x.2), 0)])) ++
  (p.dense.zipIdx.flatMap fun x => (.dense, ("dense", x.2), x.1) ::
    (if p.dropout then [(.dropout, ("dropout", p.filters.length + x.2), 0)] else []))

theorem skeleton_eq (p : Params) (n d : ℕ) :
    skeleton p n d = bodyOf p ++ [(.dense, ("dense", p.dense.length), n), (.thresh d, ("thresh_arg_max_layer", 0), 0)] := rfl

/-- Names of the layers before those for labels. -/
theorem mem_bodyOf {p : Params} {x : Cls × (String × ℕ) × ℕ} (h : x ∈ bodyOf p) :
    x.2.1 ∈ [("input_layer", 0), ("encoding_layer", 0), ("embedding", 0)] ∨
      (∃ i < p.filters.length, x.2.1 ∈ [("conv1d", i), ("dropout", i), ("batch_normalization", i)]) ∨
      ∃ i < p.dense.length, x.2.1 = ("dense", i) ∨ x.2.1 = ("dropout", p.filters.length + i) := by
  unfold bodyOf at h
  rw [List.mem_append, List.mem_append] at h
  rcases h with (h | h) | h
  · left
    simp only [List.mem_cons, List.not_mem_nil, or_false] at h
    rcases h with rfl | rfl | rfl <;> simp
  · right; left
    obtain ⟨y, hy, hx⟩ := List.mem_flatMap.1 h
    have := List.snd_lt_of_mem_zipIdx hy
    refine ⟨y.2, by omega, ?_⟩
    simp at hx; rcases hx with rfl | ⟨_, rfl⟩ | rfl <;> simp
  · right; right
    obtain ⟨y, hy, hx⟩ := List.mem_flatMap.1 h
    have := List.snd_lt_of_mem_zipIdx hy
    refine ⟨y.2, by omega, ?_⟩
    simp at hx; rcases hx with rfl | ⟨_, rfl⟩ <;> simp

theorem bodyOf_nodup (p : Params) : ((bodyOf p).map fun x => x.2.1).Nodup := by
  unfold bodyOf
  rw [List.map_append, List.map_append, List.nodup_append, List.nodup_append]
  refine ⟨⟨by simp, ?_, ?_⟩, ?_, ?_⟩
  · rw [List.map_flatMap, List.nodup_flatMap]
    refine ⟨fun x _ => by by_cases hd : p.dropout = true <;> simp [hd], (zipIdx_pairwise _ 0).imp ?_⟩
    intro a b hab y ha hb
    simp at ha hb; rcases ha with rfl | ⟨_, rfl⟩ | rfl <;> simp at hb <;> tauto
  · intro a ha b hb
    rw [List.map_flatMap] at hb
    obtain ⟨y, _, hb⟩ := List.mem_flatMap.1 hb
    simp at ha
    simp at hb; rcases hb with rfl | ⟨_, rfl⟩ | rfl <;> rcases ha with rfl | rfl | rfl <;> simp
  · rw [List.map_flatMap, List.nodup_flatMap]
    refine ⟨fun x _ => by by_cases hd : p.dropout = true <;> simp [hd], (zipIdx_pairwise _ 0).imp ?_⟩
    intro a b hab y ha hb
    simp at ha hb; rcases ha with rfl | ⟨_, rfl⟩ <;> simp at hb <;> tauto
  · intro a ha b hb
    rw [List.map_flatMap] at hb
    obtain ⟨y, _, hb⟩ := List.mem_flatMap.1 hb
    rw [List.mem_append] at ha
    rcases ha with ha | ha
    · simp at ha
      simp at hb; rcases hb with rfl | ⟨_, rfl⟩ <;> rcases ha with rfl | rfl | rfl <;> simp
    · rw [List.map_flatMap] at ha
      obtain ⟨z, hz, ha⟩ := List.mem_flatMap.1 ha
      have := List.snd_lt_of_mem_zipIdx hz
      simp at hb ha; rcases hb with rfl | ⟨_, rfl⟩ <;> rcases ha with rfl | ⟨_, rfl⟩ | rfl <;> simp
      omega

theorem dense_not_mem {p : Params} {k : ℕ} (h : p.dense.length ≤ k) : ("dense", k) ∉ (bodyOf p).map fun x => x.2.1 := by
  intro hm
  obtain ⟨x, hx, he⟩ := List.mem_map.1 hm
  rcases mem_bodyOf hx with h1 | ⟨i, hi, h1⟩ | ⟨i, hi, h1 | h1⟩
  · rw [he] at h1; simp at h1
  · rw [he] at h1; simp at h1
  · rw [he] at h1; simp at h1; omega
  · rw [he] at h1; simp at h1

theorem dense_mem {p : Params} {k : ℕ} (h : k < p.dense.length) : ("dense", k) ∈ (bodyOf p).map fun x => x.2.1 := by
  refine List.mem_map.2 ⟨(.dense, ("dense", k), p.dense[k]), ?_, rfl⟩
  unfold bodyOf
  refine List.mem_append_right _ (List.mem_flatMap.2 ⟨(p.dense[k], k), ?_, List.mem_cons_self⟩)
  exact List.mem_zipIdx_iff_getElem?.2 (by simp [h])

theorem thresh_not_mem {p : Params} {k : ℕ} : ("thresh_arg_max_layer", k) ∉ (bodyOf p).map fun x => x.2.1 := by
  intro hm
  obtain ⟨x, hx, he⟩ := List.mem_map.1 hm
  rcases mem_bodyOf hx with h1 | ⟨i, hi, h1⟩ | ⟨i, hi, h1 | h1⟩ <;> (rw [he] at h1; simp at h1)

end Verif.Network
