import Verif.Model.LabelMap
import Verif.Spec.LabelMap
import Verif.Lemmas.PyDict
import Mathlib.Data.List.Induction
import Mathlib.Tactic.SplitIfs
import Mathlib.Tactic.Tauto

/-!
# Lemmas about label mappings
-/

namespace Verif.LabelMap

open Verif Verif.Spec.LabelMap

variable {K : Type} [DecidableEq K] {A V : Type} [DecidableEq A]

/-! ### Dictionaries from pairs -/

theorem ofPairs_nodup (l : List (A × V)) (h : (l.map (·.1)).Nodup) : l.foldl (fun d x => PyDict.set d x.1 x.2) [] = l := by
  induction l using List.reverseRecOn with
  | nil => rfl
  | append_singleton l x ih =>
    rw [List.map_append, List.nodup_append] at h
    rw [List.foldl_append, List.foldl_cons, List.foldl_nil, ih h.1, PyDict.set_of_not_mem]
    intro hx
    exact h.2.2 x.1 hx x.1 (by simp) rfl

theorem mem_set {d : PyDict A V} (h : PyDict.WF d) (k : A) (v : V) (x : A × V) :
    x ∈ PyDict.set d k v ↔ x = (k, v) ∨ (x.1 ≠ k ∧ x ∈ d) := by
  obtain ⟨a, b⟩ := x
  rw [PyDict.mem_iff_get? (PyDict.WF_set h k v), PyDict.get?_set, PyDict.mem_iff_get? h]
  split_ifs with hk
  · subst hk
    simp [eq_comm]
  · constructor
    · intro hg; exact .inr ⟨Ne.symm hk, hg⟩
    · rintro (hg | hg)
      · injection hg with h1 h2; exact absurd h1.symm hk
      · exact hg.2

theorem foldl_append_singleton {B C : Type} (f : C → B → C) (c : C) (l : List B) (x : B) :
    (l ++ [x]).foldl f c = f (l.foldl f c) x := by rw [List.foldl_append]; rfl

/-! ### The reverse mapping -/

theorem reverse_wf (m : PyDict K ℕ) : PyDict.WF (reverseMap m) := by
  unfold reverseMap
  induction m using List.reverseRecOn with
  | nil => exact PyDict.WF_nil
  | append_singleton l x ih => rw [foldl_append_singleton]; exact PyDict.WF_set ih _ _

theorem reverse_mem (m : PyDict K ℕ) (x : ℕ × K) (h : x ∈ reverseMap m) : (x.2, x.1) ∈ m := by
  unfold reverseMap at h
  induction m using List.reverseRecOn with
  | nil => exact nomatch h
  | append_singleton l y ih =>
    rw [foldl_append_singleton] at h
    replace h := (mem_set (reverse_wf l) _ _ x).1 h
    rcases h with rfl | ⟨-, h⟩
    · simp
    · exact List.mem_append_left _ (ih h)

theorem reverse_keys (m : PyDict K ℕ) (id : ℕ) : id ∈ PyDict.keys (reverseMap m) ↔ ∃ k, (k, id) ∈ m := by
  unfold reverseMap
  induction m using List.reverseRecOn with
  | nil => simp [PyDict.keys]
  | append_singleton l y ih =>
    rw [foldl_append_singleton, PyDict.mem_keys_iff, PyDict.get?_set]
    split_ifs with h
    · subst h
      exact ⟨fun _ => ⟨y.1, by simp⟩, fun _ => by simp⟩
    · rw [← PyDict.mem_keys_iff, ih]
      constructor
      · rintro ⟨k, hk⟩; exact ⟨k, List.mem_append_left _ hk⟩
      · rintro ⟨k, hk⟩
        rcases List.mem_append.mp hk with hk | hk
        · exact ⟨k, hk⟩
        · rw [List.mem_singleton] at hk
          exact absurd (by rw [← hk]) h

omit [DecidableEq K] in
theorem reverse_append (m : PyDict K ℕ) (k : K) (id : ℕ) : reverseMap (m ++ [(k, id)]) = PyDict.set (reverseMap m) id k := by
  unfold reverseMap
  rw [foldl_append_singleton]

/-! ### Sorting -/

theorem strict_ext {B : Type} (key : B → ℕ) (l1 l2 : List B) (k1 : l1.Pairwise fun a b => key a < key b)
    (k2 : l2.Pairwise fun a b => key a < key b) (hmem : ∀ r, r ∈ l1 ↔ r ∈ l2) : l1 = l2 := by
  induction l1 generalizing l2 with
  | nil =>
    cases l2 with
    | nil => rfl
    | cons b o2 => exact absurd ((hmem b).2 (by simp)) (by simp)
  | cons a o1 ih =>
    cases l2 with
    | nil => exact absurd ((hmem a).1 (by simp)) (by simp)
    | cons b o2 =>
      rw [List.pairwise_cons] at k1 k2
      have hab : a = b := by
        rcases List.mem_cons.mp ((hmem a).1 (by simp)) with h | h
        · exact h
        · rcases List.mem_cons.mp ((hmem b).2 (by simp)) with h' | h'
          · exact h'.symm
          · have := k1.1 b h'
            have := k2.1 a h
            omega
      subst hab
      congr 1
      refine ih o2 k1.2 k2.2 fun r => ⟨fun h => ?_, fun h => ?_⟩
      · rcases List.mem_cons.mp ((hmem r).1 (by simp [h])) with h' | h'
        · subst h'; exact absurd (k1.1 r h) (Nat.lt_irrefl _)
        · exact h'
      · rcases List.mem_cons.mp ((hmem r).2 (by simp [h])) with h' | h'
        · subst h'; exact absurd (k2.1 r h) (Nat.lt_irrefl _)
        · exact h'

/-- Sorted by keys. -/
def sorted (d : PyDict ℕ K) : List (ℕ × K) := d.insertionSort fun a b => a.1 ≤ b.1

omit [DecidableEq K] in
theorem sorted_mem (d : PyDict ℕ K) (x : ℕ × K) : x ∈ sorted d ↔ x ∈ d := List.mem_insertionSort _

omit [DecidableEq K] in
theorem sorted_strict {d : PyDict ℕ K} (h : PyDict.WF d) : (sorted d).Pairwise fun a b => a.1 < b.1 := by
  have : Std.Total (fun a b : ℕ × K => a.1 ≤ b.1) := ⟨fun a b => Nat.le_total _ _⟩
  have : IsTrans (ℕ × K) (fun a b : ℕ × K => a.1 ≤ b.1) := ⟨fun a b c => Nat.le_trans⟩
  have h1 := List.pairwise_insertionSort (fun a b : ℕ × K => a.1 ≤ b.1) d
  have h2 : ((sorted d).map (·.1)).Nodup := ((List.perm_insertionSort (fun a b : ℕ × K => a.1 ≤ b.1) d).map (fun x : ℕ × K => x.1)).nodup_iff.mpr h
  have h3 : (sorted d).Pairwise fun a b => a.1 ≠ b.1 := List.pairwise_map.mp h2
  exact (h1.and h3).imp fun h => Nat.lt_of_le_of_ne h.1 h.2

omit [DecidableEq K] in
theorem sorted_append {d : PyDict ℕ K} (h : PyDict.WF d) (id : ℕ) (k : K) (hlt : ∀ x ∈ d, x.1 < id) :
    sorted (d ++ [(id, k)]) = sorted d ++ [(id, k)] := by
  have hwf : PyDict.WF (d ++ [(id, k)]) := by
    unfold PyDict.WF PyDict.keys
    rw [List.map_append, List.nodup_append]
    refine ⟨h, by simp, fun a ha b hb => ?_⟩
    obtain ⟨x, hx, rfl⟩ := List.mem_map.mp ha
    have := hlt x hx
    simp at hb
    omega
  refine strict_ext (·.1) _ _ (sorted_strict hwf) ?_ fun r => ?_
  · rw [List.pairwise_append]
    refine ⟨sorted_strict h, by simp, fun a ha b hb => ?_⟩
    rw [List.mem_singleton] at hb
    subst hb
    exact hlt a ((sorted_mem d a).1 ha)
  · rw [sorted_mem, List.mem_append, List.mem_append, sorted_mem]

omit [DecidableEq K] in
theorem sorted_self {d : PyDict ℕ K} (h : d.Pairwise fun a b => a.1 < b.1) : sorted d = d := by
  have hwf : PyDict.WF d := List.pairwise_map.mpr (h.imp fun h => Nat.ne_of_lt h)
  exact strict_ext (·.1) _ _ (sorted_strict hwf) h fun r => sorted_mem d r

theorem labels_spec (m : PyDict K ℕ) : IsLabels m (labels m) := by
  refine ⟨(sorted (reverseMap m)).map (·.1), ?_, ?_, ?_, ?_⟩
  · rw [List.pairwise_map]; exact sorted_strict (reverse_wf m)
  · unfold labels sortedValues
    rw [List.length_map, List.length_map]; rfl
  · intro i id k h1 h2
    unfold labels sortedValues at h2
    rw [List.getElem?_map, Option.map_eq_some_iff] at h1 h2
    obtain ⟨x, hx, rfl⟩ := h1
    obtain ⟨y, hy, rfl⟩ := h2
    have : x = y := by
      have : some x = some y := hx.symm.trans hy
      injection this
    subst this
    exact reverse_mem m x ((sorted_mem _ x).1 (List.mem_of_getElem? hx))
  · intro id
    rw [← reverse_keys]
    unfold PyDict.keys
    simp only [List.mem_map, sorted_mem]

/-! ### Numbers -/

theorem le_foldl_max (l : List ℕ) (a : ℕ) :
    a ≤ l.foldl max a ∧ (∀ x ∈ l, x ≤ l.foldl max a) ∧ (l.foldl max a = a ∨ l.foldl max a ∈ l) := by
  induction l generalizing a with
  | nil => exact ⟨Nat.le_refl _, by simp, .inl rfl⟩
  | cons y l ih =>
    obtain ⟨h1, h2, h3⟩ := ih (max a y)
    rw [List.foldl_cons]
    refine ⟨by omega, fun x hx => ?_, ?_⟩
    · rcases List.mem_cons.mp hx with rfl | hx
      · omega
      · exact h2 x hx
    · rcases h3 with h3 | h3
      · rw [h3]
        rcases Nat.le_total a y with h | h
        · right; rw [Nat.max_eq_right h]; simp
        · left; rw [Nat.max_eq_left h]
      · exact .inr (List.mem_cons_of_mem _ h3)

omit [DecidableEq K] in
theorem lt_num {m : PyDict K ℕ} {x : K × ℕ} (h : x ∈ m) : x.2 < numLabels m := by
  have := (le_foldl_max (m.map (·.2)) 0).2.1 x.2 (List.mem_map_of_mem h)
  unfold numLabels
  omega

omit [DecidableEq K] in
theorem num_mem {m : PyDict K ℕ} (h : m ≠ []) : ∃ k, (k, numLabels m - 1) ∈ m := by
  unfold numLabels
  rw [Nat.add_sub_cancel]
  rcases (le_foldl_max (m.map (·.2)) 0).2.2 with h1 | h1
  · obtain ⟨x, hx⟩ := List.exists_mem_of_ne_nil m h
    have := (le_foldl_max (m.map (·.2)) 0).2.1 x.2 (List.mem_map_of_mem hx)
    rw [h1] at this ⊢
    have h0 : x.2 = 0 := by omega
    exact ⟨x.1, by rw [← h0]; exact hx⟩
  · obtain ⟨x, hx, he⟩ := List.mem_map.mp h1
    exact ⟨x.1, by rw [← he]; exact hx⟩

omit [DecidableEq K] in
theorem num_append (m : PyDict K ℕ) (k : K) (id : ℕ) : numLabels (m ++ [(k, id)]) = max (numLabels m) (id + 1) := by
  unfold numLabels
  rw [List.map_append, List.map_cons, List.map_nil, foldl_append_singleton]
  dsimp only
  omega

end Verif.LabelMap
