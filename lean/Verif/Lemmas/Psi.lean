import Verif.Lemmas.Categorical
import Verif.Model.Psi
import Verif.Spec.Psi
import Mathlib.Algebra.Order.BigOperators.Group.Finset

namespace Verif.Psi

open Verif Verif.Categorical Verif.PsiSpec

variable {K : Type} [DecidableEq K]

theorem pad_get? (order : List K) (d : PyDict K ℕ) (k : K) :
    PyDict.get? (pad order d) k = match PyDict.get? d k with
      | some x => some x
      | none => if k ∈ order then some 0 else none := by
  unfold pad
  induction order generalizing d with
  | nil => cases h : PyDict.get? d k <;> simp [h]
  | cons a ks ih =>
    rw [List.foldl_cons, ih]
    by_cases ha : PyDict.has d a = true
    · rw [if_pos ha]
      cases hk : PyDict.get? d k with
      | some x => rfl
      | none =>
        have hne : k ≠ a := by
          rintro rfl
          simp [PyDict.has, hk] at ha
        simp [hne]
    · rw [if_neg ha, PyDict.get?_set]
      by_cases hak : a = k
      · subst hak
        have : PyDict.get? d a = none := by
          cases h : PyDict.get? d a with
          | none => rfl
          | some x => simp [PyDict.has, h] at ha
        simp [this]
      · have hne : k ≠ a := fun h => hak h.symm
        simp only [hak, hne, if_false, List.mem_cons, false_or]

theorem pad_wf (order : List K) (d : PyDict K ℕ) (h : PyDict.WF d) : PyDict.WF (pad order d) := by
  unfold pad
  induction order generalizing d with
  | nil => exact h
  | cons a ks ih =>
    rw [List.foldl_cons]
    apply ih
    split_ifs
    · exact h
    · exact PyDict.WF_set h _ _

theorem loop_eq (d2 : PyDict K ℕ) (n1 n2 : ℕ) (h1 : n1 ≠ 0) (h2 : n2 ≠ 0) (f : K → ℕ) (l : PyDict K ℕ)
    (hf : ∀ kv ∈ l, PyDict.get? d2 kv.1 = some (f kv.1)) (t : ℝ) :
    loop d2 n1 n2 l t = .ok (t + (l.map fun kv => term ((kv.2 : ℝ) / n1) ((f kv.1 : ℝ) / n2)).sum) := by
  induction l generalizing t with
  | nil => simp [loop]
  | cons p l ih =>
    obtain ⟨k, c⟩ := p
    have hk : PyDict.get? d2 k = some (f k) := hf (k, c) (by simp)
    rw [loop, if_neg h1, hk]
    dsimp only
    rw [if_neg h2, ih (fun kv hkv => hf kv (List.mem_cons_of_mem _ hkv))]
    simp [add_assoc]

theorem counts_keys {d : PyDict K ℕ} {l : List K} (h : Counts d l) (k : K) : k ∈ PyDict.keys d ↔ k ∈ l := by
  rw [PyDict.mem_keys_iff, h.get]
  by_cases hk : k ∈ l <;> simp [hk]

theorem psi_eq (order : List K) (d1 d2 : PyDict K ℕ) (l1 l2 : List K) (h1 : Counts d1 l1) (h2 : Counts d2 l2)
    (ho : ∀ k, k ∈ order ↔ k ∈ l1 ∨ k ∈ l2) (n1 : l1 ≠ []) (n2 : l2 ≠ []) :
    psi order d1 l1.length d2 l2.length = .ok (some (index l1 l2)) := by
  have p1 : l1.length ≠ 0 := (List.length_pos_iff.2 n1).ne'
  have p2 : l2.length ≠ 0 := (List.length_pos_iff.2 n2).ne'
  have g1 : ∀ k, PyDict.get? (pad order d1) k = if k ∈ l1 ∨ k ∈ l2 then some (l1.count k) else none := by
    intro k
    rw [pad_get?, h1.get]
    by_cases hk : k ∈ l1
    · simp [hk]
    · by_cases hk2 : k ∈ l2
      · have : k ∈ order := (ho k).2 (Or.inr hk2)
        simp [hk, hk2, this, List.count_eq_zero.2 hk]
      · have : k ∉ order := fun h => by rcases (ho k).1 h with h | h <;> contradiction
        simp [hk, hk2, this]
  have g2 : ∀ k, PyDict.get? (pad order d2) k = if k ∈ l1 ∨ k ∈ l2 then some (l2.count k) else none := by
    intro k
    rw [pad_get?, h2.get]
    by_cases hk : k ∈ l2
    · simp [hk]
    · by_cases hk2 : k ∈ l1
      · have : k ∈ order := (ho k).2 (Or.inl hk2)
        simp [hk, hk2, this, List.count_eq_zero.2 hk]
      · have : k ∉ order := fun h => by rcases (ho k).1 h with h | h <;> contradiction
        simp [hk, hk2, this]
  have wf1 := pad_wf order d1 h1.wf
  have hmem : ∀ kv, kv ∈ pad order d1 ↔ (kv.1 ∈ l1 ∨ kv.1 ∈ l2) ∧ kv.2 = l1.count kv.1 := by
    rintro ⟨k, c⟩
    rw [PyDict.mem_iff_get? wf1, g1]
    by_cases hk : k ∈ l1 ∨ k ∈ l2
    · simp [hk, eq_comm]
    · simp [hk]
  unfold psi
  have hl := loop_eq (pad order d2) l1.length l2.length p1 p2 (fun k => l2.count k) (pad order d1)
    (by
      rintro kv hkv
      rw [g2, if_pos ((hmem kv).1 hkv).1]) 0
  dsimp only
  rw [hl]
  have hne : pad order d1 ≠ [] := by
    obtain ⟨x, hx⟩ := List.exists_mem_of_ne_nil l1 n1
    intro hnil
    have : (x, l1.count x) ∈ pad order d1 := (hmem _).2 ⟨Or.inl hx, rfl⟩
    rw [hnil] at this; simp at this
  show (Except.ok (if pad order d1 = [] then none else some _) : Except Err (Option ℝ)) = _
  rw [if_neg hne, zero_add]
  congr 2
  -- sum over the keys
  have hmap : (pad order d1).map (fun kv => term ((kv.2 : ℝ) / l1.length) ((l2.count kv.1 : ℝ) / l2.length)) =
      (PyDict.keys (pad order d1)).map fun k => term (freq l1 k) (freq l2 k) := by
    unfold PyDict.keys
    rw [List.map_map]
    apply List.map_congr_left
    rintro kv hkv
    rw [((hmem kv).1 hkv).2]
    rfl
  rw [hmap]
  have hnd : (PyDict.keys (pad order d1)).Nodup := wf1
  rw [← List.sum_toFinset _ hnd]
  have hset : (PyDict.keys (pad order d1)).toFinset = l1.toFinset ∪ l2.toFinset := by
    ext k
    rw [List.mem_toFinset, PyDict.mem_keys_iff, g1]
    by_cases hk : k ∈ l1 ∨ k ∈ l2
    · simp [hk]
    · simp [hk]
  rw [hset]
  unfold index
  symm
  have hsub : l1.toFinset ∩ l2.toFinset ⊆ l1.toFinset ∪ l2.toFinset :=
    Finset.inter_subset_left.trans Finset.subset_union_left
  rw [← Finset.sum_subset hsub]
  · apply Finset.sum_congr rfl
    intro k hk
    simp only [Finset.mem_inter, List.mem_toFinset] at hk
    unfold term
    rw [if_pos]
    have c1 : (l1.count k : ℝ) ≠ 0 := by exact_mod_cast (List.count_pos_iff.2 hk.1).ne'
    have c2 : (l2.count k : ℝ) ≠ 0 := by exact_mod_cast (List.count_pos_iff.2 hk.2).ne'
    have q1 : (l1.length : ℝ) ≠ 0 := by exact_mod_cast p1
    have q2 : (l2.length : ℝ) ≠ 0 := by exact_mod_cast p2
    exact ⟨div_ne_zero c2 q2, div_ne_zero c1 q1⟩
  · intro k _ hk
    simp only [Finset.mem_inter, List.mem_toFinset, not_and_or] at hk
    unfold term
    rw [if_neg]
    rintro ⟨a, b⟩
    rcases hk with hk | hk
    · exact b (by simp [freq, List.count_eq_zero.2 hk])
    · exact a (by simp [freq, List.count_eq_zero.2 hk])

theorem freq_pos {l : List K} {k : K} (h : k ∈ l) : 0 < freq l k := by
  unfold freq
  have h1 : 0 < l.count k := List.count_pos_iff.2 h
  have h2 : 0 < l.length := List.length_pos_of_mem h
  positivity

theorem summand_nonneg {p q : ℝ} (hp : 0 < p) (hq : 0 < q) : 0 ≤ (q - p) * Real.log (q / p) := by
  rcases le_total p q with h | h
  · exact mul_nonneg (sub_nonneg.2 h) (Real.log_nonneg ((one_le_div hp).2 h))
  · exact mul_nonneg_of_nonpos_of_nonpos (sub_nonpos.2 h)
      (Real.log_nonpos (div_nonneg hq.le hp.le) ((div_le_one hp).2 h))

theorem summand_zero_iff {p q : ℝ} (hp : 0 < p) (hq : 0 < q) : (q - p) * Real.log (q / p) = 0 ↔ q = p := by
  rw [mul_eq_zero, sub_eq_zero]
  constructor
  · rintro (h | h)
    · exact h
    · have := Real.eq_one_of_pos_of_log_eq_zero (div_pos hq hp) h
      rwa [div_eq_one_iff_eq hp.ne'] at this
  · exact Or.inl

end Verif.Psi
