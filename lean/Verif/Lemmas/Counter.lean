import Verif.Model.Counter
import Verif.Lemmas.PyDict
import Mathlib.Algebra.BigOperators.Group.List.Basic
import Mathlib.Tactic.SplitIfs
import Mathlib.Algebra.Order.Group.Nat
import Mathlib.Data.List.Nodup

/-!
# Lemmas about counting dictionaries
-/

namespace Verif.Counter

open Verif

variable {K A : Type} [DecidableEq K] [AddCommMonoid A]

/-- Sum of all counts. -/
def total (d : PyDict K A) : A := (PyDict.values d).sum

theorem at0_nil (k : K) : at0 ([] : PyDict K A) k = 0 := rfl

theorem at0_bump (d : PyDict K A) (k k' : K) (c : A) : at0 (bump d k c) k' = at0 d k' + if k = k' then c else 0 := by
  unfold bump
  rw [at0, PyDict.getD, PyDict.get?_set]
  split_ifs with h
  · subst h; rfl
  · simp [at0, PyDict.getD]

theorem wf_bump {d : PyDict K A} (h : PyDict.WF d) (k : K) (c : A) : PyDict.WF (bump d k c) := PyDict.WF_set h k _

theorem mem_keys_bump (d : PyDict K A) (k k' : K) (c : A) :
    k' ∈ PyDict.keys (bump d k c) ↔ k' ∈ PyDict.keys d ∨ k' = k := by
  rw [PyDict.mem_keys_iff, PyDict.mem_keys_iff, bump, PyDict.get?_set]
  split_ifs with h
  · subst h; simp
  · simp [Ne.symm h]

theorem total_bump (d : PyDict K A) (k : K) (c : A) : total (bump d k c) = total d + c := by
  unfold bump
  induction d with
  | nil => simp [total, PyDict.set, PyDict.values, at0, PyDict.getD, PyDict.get?]
  | cons kv d ih =>
    obtain ⟨k', v⟩ := kv
    by_cases h : k' = k
    · subst h
      simp [total, PyDict.set, PyDict.values, at0, PyDict.getD, PyDict.get?, add_assoc, add_comm]
    · have e : at0 ((k', v) :: d) k = at0 d k := by simp [at0, PyDict.getD, PyDict.get?, h]
      rw [e]
      simp only [total, PyDict.values, PyDict.set, if_neg h, List.map_cons, List.sum_cons] at ih ⊢
      rw [ih, add_assoc]

theorem at0_bumps (d : PyDict K A) (l : List (K × A)) (k : K) :
    at0 (bumps d l) k = at0 d k + (l.map fun kc => if kc.1 = k then kc.2 else 0).sum := by
  unfold bumps
  induction l generalizing d with
  | nil => simp
  | cons kc l ih => rw [List.foldl_cons, ih, at0_bump, List.map_cons, List.sum_cons, add_assoc]

theorem wf_bumps {d : PyDict K A} (h : PyDict.WF d) (l : List (K × A)) : PyDict.WF (bumps d l) := by
  unfold bumps
  induction l generalizing d with
  | nil => exact h
  | cons kc l ih => exact ih (wf_bump h kc.1 kc.2)

theorem mem_keys_bumps (d : PyDict K A) (l : List (K × A)) (k : K) :
    k ∈ PyDict.keys (bumps d l) ↔ k ∈ PyDict.keys d ∨ ∃ c, (k, c) ∈ l := by
  unfold bumps
  induction l generalizing d with
  | nil => simp
  | cons kc l ih =>
    rw [List.foldl_cons, ih, mem_keys_bump]
    obtain ⟨k', c'⟩ := kc
    simp only [List.mem_cons, Prod.mk.injEq]
    constructor
    · rintro ((h | rfl) | ⟨c, h⟩)
      · exact Or.inl h
      · exact Or.inr ⟨c', Or.inl ⟨rfl, rfl⟩⟩
      · exact Or.inr ⟨c, Or.inr h⟩
    · rintro (h | ⟨c, ⟨rfl, rfl⟩ | h⟩)
      · exact Or.inl (Or.inl h)
      · exact Or.inl (Or.inr rfl)
      · exact Or.inr ⟨c, h⟩

theorem total_bumps (d : PyDict K A) (l : List (K × A)) : total (bumps d l) = total d + (l.map (·.2)).sum := by
  unfold bumps
  induction l generalizing d with
  | nil => simp
  | cons kc l ih => rw [List.foldl_cons, ih, total_bump, List.map_cons, List.sum_cons, add_assoc]

/-- The entries of a dictionary under a key add up to its value. -/
theorem sum_entries {d : PyDict K A} (h : PyDict.WF d) (k : K) :
    (d.map fun kc => if kc.1 = k then kc.2 else 0).sum = at0 d k := by
  induction d with
  | nil => simp [at0, PyDict.getD, PyDict.get?]
  | cons kv d ih =>
    obtain ⟨k', v⟩ := kv
    have hd : PyDict.WF d := (List.nodup_cons.1 h).2
    have hk : k' ∉ PyDict.keys d := (List.nodup_cons.1 h).1
    rw [List.map_cons, List.sum_cons, ih hd]
    by_cases e : k' = k
    · subst e
      have : at0 d k' = 0 := by
        rw [at0, PyDict.getD, (PyDict.get?_eq_none_iff d k').2 hk]; rfl
      rw [this, if_pos rfl, add_zero]
      simp [at0, PyDict.getD, PyDict.get?]
    · simp [e, at0, PyDict.getD, PyDict.get?]

theorem at0_addCounts {d1 d2 : PyDict K A} (h : PyDict.WF d2) (k : K) :
    at0 (addCounts d1 d2) k = at0 d1 k + at0 d2 k := by
  rw [addCounts, at0_bumps, sum_entries h]

theorem wf_addCounts {d1 d2 : PyDict K A} (h : PyDict.WF d1) : PyDict.WF (addCounts d1 d2) := wf_bumps h _

theorem total_addCounts (d1 d2 : PyDict K A) : total (addCounts d1 d2) = total d1 + total d2 := by
  rw [addCounts, total_bumps]; rfl

theorem mem_keys_addCounts (d1 d2 : PyDict K A) (k : K) :
    k ∈ PyDict.keys (addCounts d1 d2) ↔ k ∈ PyDict.keys d1 ∨ k ∈ PyDict.keys d2 := by
  rw [addCounts, mem_keys_bumps]
  simp [PyDict.keys]

/-! ### Counters -/

theorem at0_ofList (l : List K) (k : K) : at0 (ofList l) k = l.countP fun x => decide (x = k) := by
  have h : ofList l = bumps [] (l.map fun k => (k, 1)) := by
    unfold ofList bumps
    rw [List.foldl_map]
  rw [h, at0_bumps, at0_nil, Nat.zero_add, List.map_map]
  induction l with
  | nil => rfl
  | cons a as ih =>
    rw [List.map_cons, List.sum_cons, ih (by unfold ofList bumps; rw [List.foldl_map]), List.countP_cons]
    by_cases hk : a = k
    · subst hk; simp [Nat.add_comm]
    · simp [hk]

theorem wf_ofList (l : List K) : PyDict.WF (ofList l) := by
  have h : ofList l = bumps [] (l.map fun k => (k, 1)) := by
    unfold ofList bumps
    rw [List.foldl_map]
  rw [h]
  exact wf_bumps PyDict.WF_nil _

theorem at0_filter_pos {d : PyDict K ℕ} (h : PyDict.WF d) (k : K) :
    at0 (d.filter fun kc => decide (0 < kc.2)) k = at0 d k := by
  induction d with
  | nil => rfl
  | cons kv d ih =>
    obtain ⟨k', v⟩ := kv
    have hd : PyDict.WF d := (List.nodup_cons.1 h).2
    have hk : k' ∉ PyDict.keys d := (List.nodup_cons.1 h).1
    have ih := ih hd
    unfold at0 PyDict.getD at ih ⊢
    by_cases hv : 0 < v
    · rw [List.filter_cons_of_pos (by simpa using hv), PyDict.get?_cons, PyDict.get?_cons]
      split_ifs
      · rfl
      · exact ih
    · rw [List.filter_cons_of_neg (by simpa using hv), PyDict.get?_cons, ih]
      split_ifs with hkk
      · subst hkk
        rw [(PyDict.get?_eq_none_iff d k').2 hk]
        simp; omega
      · rfl

omit [DecidableEq K] [AddCommMonoid A] in
theorem wf_filter {d : PyDict K A} (h : PyDict.WF d) (p : K × A → Bool) : PyDict.WF (d.filter p) :=
  List.Nodup.sublist (List.filter_sublist.map _) h

theorem at0_plus {d1 d2 : PyDict K ℕ} (h1 : PyDict.WF d1) (h2 : PyDict.WF d2) (k : K) :
    at0 (plus d1 d2) k = at0 d1 k + at0 d2 k := by
  rw [plus, at0_filter_pos (wf_addCounts h1), at0_addCounts h2]

theorem wf_plus {d1 d2 : PyDict K ℕ} (h1 : PyDict.WF d1) : PyDict.WF (plus d1 d2) := wf_filter (wf_addCounts h1) _

theorem mem_keys_plus {d1 d2 : PyDict K ℕ} {k : K} (h : k ∈ PyDict.keys (plus d1 d2)) :
    k ∈ PyDict.keys d1 ∨ k ∈ PyDict.keys d2 := by
  rw [← mem_keys_addCounts]
  exact (List.filter_sublist.map _).subset h

theorem at0_of_not_mem {d : PyDict K A} {k : K} (h : k ∉ PyDict.keys d) : at0 d k = 0 := by
  rw [at0, PyDict.getD, (PyDict.get?_eq_none_iff d k).2 h]; rfl

omit [AddCommMonoid A] in
theorem mem_keys_del {d : PyDict K A} (h : PyDict.WF d) (k k' : K) :
    k' ∈ PyDict.keys (PyDict.del d k) ↔ k' ≠ k ∧ k' ∈ PyDict.keys d := by
  rw [PyDict.mem_keys_iff, PyDict.mem_keys_iff, PyDict.get?_del h]
  by_cases hk : k = k'
  · subst hk; simp
  · simp [hk, Ne.symm hk]

theorem at0_del {d : PyDict K A} (h : PyDict.WF d) (k k' : K) :
    at0 (PyDict.del d k) k' = if k = k' then 0 else at0 d k' := by
  rw [at0, PyDict.getD, PyDict.get?_del h]
  split_ifs <;> rfl

/-! ### Sorting by counts -/

omit [DecidableEq K] in
theorem insertDesc_perm (x : K × ℕ) (l : List (K × ℕ)) : (insertDesc x l).Perm (x :: l) := by
  induction l with
  | nil => exact List.Perm.refl _
  | cons y ys ih =>
    unfold insertDesc
    split_ifs
    · exact List.Perm.refl _
    · exact (ih.cons y).trans (List.Perm.swap _ _ _)

omit [DecidableEq K] in
theorem insertDesc_sorted {x : K × ℕ} {l : List (K × ℕ)} (h : l.Pairwise fun a b => b.2 ≤ a.2) :
    (insertDesc x l).Pairwise fun a b => b.2 ≤ a.2 := by
  induction l with
  | nil => simp [insertDesc]
  | cons y ys ih =>
    obtain ⟨h1, h2⟩ := List.pairwise_cons.1 h
    unfold insertDesc
    split_ifs with hc
    · refine List.pairwise_cons.2 ⟨fun z hz => ?_, h⟩
      rcases List.mem_cons.1 hz with rfl | hz
      · exact hc.le
      · exact (h1 z hz).trans hc.le
    · refine List.pairwise_cons.2 ⟨fun z hz => ?_, ih h2⟩
      rcases List.mem_cons.1 ((insertDesc_perm x ys).mem_iff.1 hz) with rfl | hz
      · exact not_lt.1 hc
      · exact h1 z hz

omit [DecidableEq K] in
theorem sortDesc_aux (l acc : List (K × ℕ)) (h : acc.Pairwise fun a b => b.2 ≤ a.2) :
    (l.foldl (fun acc x => insertDesc x acc) acc).Perm (l ++ acc) ∧
      (l.foldl (fun acc x => insertDesc x acc) acc).Pairwise fun a b => b.2 ≤ a.2 := by
  induction l generalizing acc with
  | nil => exact ⟨List.Perm.refl _, h⟩
  | cons x xs ih =>
    obtain ⟨h1, h2⟩ := ih (insertDesc x acc) (insertDesc_sorted h)
    refine ⟨h1.trans ?_, h2⟩
    exact ((insertDesc_perm x acc).append_left xs).trans List.perm_middle

omit [DecidableEq K] in
theorem sortDesc_perm (l : List (K × ℕ)) : (sortDesc l).Perm l := by
  have := (sortDesc_aux l [] List.Pairwise.nil).1
  rwa [List.append_nil] at this

omit [DecidableEq K] in
theorem sortDesc_sorted (l : List (K × ℕ)) : (sortDesc l).Pairwise fun a b => b.2 ≤ a.2 :=
  (sortDesc_aux l [] List.Pairwise.nil).2

omit [DecidableEq K] in
/-- The `n` most common items. -/
theorem mostCommon_spec {d : PyDict K ℕ} (h : PyDict.WF d) (n : Option ℕ) :
    PyDict.WF (mostCommon d n) ∧ (∀ x ∈ mostCommon d n, x ∈ d) ∧
      (mostCommon d n).Pairwise (fun a b => b.2 ≤ a.2) ∧
      (mostCommon d n).length = (match n with | none => d.length | some n => min n d.length) ∧
      ∀ x ∈ d, x ∉ mostCommon d n → ∀ y ∈ mostCommon d n, x.2 ≤ y.2 := by
  have hperm := sortDesc_perm d
  have hsort := sortDesc_sorted d
  have hwf : PyDict.WF (sortDesc d) := (hperm.map _).nodup_iff.2 h
  cases n with
  | none => exact ⟨hwf, fun x hx => hperm.mem_iff.1 hx, hsort, hperm.length_eq,
      fun x hx hn => absurd (hperm.mem_iff.2 hx) hn⟩
  | some n =>
    have hsub := List.take_sublist n (sortDesc d)
    refine ⟨List.Nodup.sublist (hsub.map _) hwf, fun x hx => hperm.mem_iff.1 (hsub.subset hx), hsort.sublist hsub, ?_, ?_⟩
    · show ((sortDesc d).take n).length = _
      rw [List.length_take, hperm.length_eq]
    · intro x hx hn y hy
      have hx' := hperm.mem_iff.2 hx
      rw [← List.take_append_drop n (sortDesc d)] at hx' hsort
      rcases List.mem_append.1 hx' with hx' | hx'
      · exact absurd hx' hn
      · exact (List.pairwise_append.1 hsort).2.2 y hy x hx'

end Verif.Counter
