import Verif.Spec.Words
import Verif.Lemmas.Counter
import Verif.Lemmas.PyDict
import Mathlib.Tactic.SplitIfs

/-!
# Lemmas on the profile of words
-/

namespace Verif.Words

open Verif WordsSpec Counter

variable {ch : Chars}

/-! ### Batches -/

theorem addWord_fold (stop : List Word) {items : PyDict Word ℕ} (hi : PyDict.WF items) {d : PyDict Word ℕ}
    (hd : PyDict.WF d) :
    PyDict.WF (items.foldl (addWord ch stop) d) ∧
      (∀ w, w ∈ PyDict.keys (items.foldl (addWord ch stop) d) →
        w ∈ PyDict.keys d ∨ (w ≠ [] ∧ ch.lower w ∉ stop ∧ w ∈ PyDict.keys items)) ∧
      ∀ w, at0 (items.foldl (addWord ch stop) d) w =
        at0 d w + if w ≠ [] ∧ ch.lower w ∉ stop then at0 items w else 0 := by
  induction items generalizing d with
  | nil => exact ⟨hd, fun w h => Or.inl h, fun w => by simp [at0_nil]⟩
  | cons kc items ih =>
    obtain ⟨k, c⟩ := kc
    have hi' : PyDict.WF items := (List.nodup_cons.1 hi).2
    have hk : k ∉ PyDict.keys items := (List.nodup_cons.1 hi).1
    have hat : ∀ w, at0 ((k, c) :: items) w = if k = w then c else at0 items w := by
      intro w
      rw [at0, PyDict.getD, PyDict.get?_cons]
      split_ifs <;> rfl
    rw [List.foldl_cons]
    by_cases hc : k ≠ [] ∧ ch.lower k ∉ stop
    · have e : addWord ch stop d (k, c) = bump d k c := if_pos hc
      rw [e]
      obtain ⟨h1, h2, h3⟩ := ih hi' (wf_bump hd k c)
      refine ⟨h1, fun w hw => ?_, fun w => ?_⟩
      · rcases h2 w hw with h | h
        · rcases (mem_keys_bump _ _ _ _).1 h with h | rfl
          · exact Or.inl h
          · exact Or.inr ⟨hc.1, hc.2, by simp [PyDict.keys]⟩
        · exact Or.inr ⟨h.1, h.2.1, by simp only [PyDict.keys, List.map_cons]; exact List.mem_cons_of_mem _ h.2.2⟩
      · rw [h3, at0_bump, hat, Nat.add_assoc]
        congr 1
        by_cases hkw : k = w
        · subst hkw
          rw [if_pos rfl, if_pos hc, if_pos hc, if_pos rfl, at0_of_not_mem hk, Nat.add_zero]
        · rw [if_neg hkw, if_neg hkw, Nat.zero_add]
    · have e : addWord ch stop d (k, c) = d := if_neg hc
      rw [e]
      obtain ⟨h1, h2, h3⟩ := ih hi' hd
      refine ⟨h1, fun w hw => ?_, fun w => ?_⟩
      · rcases h2 w hw with h | h
        · exact Or.inl h
        · exact Or.inr ⟨h.1, h.2.1, by simp only [PyDict.keys, List.map_cons]; exact List.mem_cons_of_mem _ h.2.2⟩
      · rw [h3, hat]
        congr 1
        by_cases hkw : k = w
        · subst hkw
          rw [if_neg hc, if_neg hc]
        · rw [if_neg hkw]

/-! ### Stop words -/

theorem mem_union (s t : List Word) (w : Word) : w ∈ union s t ↔ w ∈ s ∨ w ∈ t := by
  unfold union
  rw [List.mem_append, List.mem_filter]
  by_cases h : w ∈ s <;> simp [h]

theorem union_length (s t : List Word) : (union s t).length = s.length ↔ ∀ w ∈ t, w ∈ s := by
  unfold union
  rw [List.length_append]
  constructor
  · intro h w hw
    by_contra hs
    have : w ∈ t.filter fun w => decide (w ∉ s) := List.mem_filter.2 ⟨hw, by simpa using hs⟩
    have := List.length_pos_of_mem this
    omega
  · intro h
    have : t.filter (fun w => decide (w ∉ s)) = [] := by
      rw [List.filter_eq_nil_iff]
      intro w hw
      simpa using h w hw
    rw [this]; rfl

theorem removeStopped_aux (stop : List Word) (ks : List Word) {d : PyDict Word ℕ} (hd : PyDict.WF d) :
    PyDict.WF (ks.foldl (fun d w => if ch.lower w ∈ stop then PyDict.del d w else d) d) ∧
      (∀ w, w ∈ PyDict.keys (ks.foldl (fun d w => if ch.lower w ∈ stop then PyDict.del d w else d) d) ↔
        w ∈ PyDict.keys d ∧ ¬(w ∈ ks ∧ ch.lower w ∈ stop)) ∧
      ∀ w, at0 (ks.foldl (fun d w => if ch.lower w ∈ stop then PyDict.del d w else d) d) w =
        if w ∈ ks ∧ ch.lower w ∈ stop then 0 else at0 d w := by
  induction ks generalizing d with
  | nil => exact ⟨hd, fun w => by simp, fun w => by simp⟩
  | cons k ks ih =>
    rw [List.foldl_cons]
    by_cases hk : ch.lower k ∈ stop
    · rw [if_pos hk]
      obtain ⟨h1, h2, h3⟩ := ih (PyDict.WF_del hd k)
      refine ⟨h1, fun w => ?_, fun w => ?_⟩
      · rw [h2, mem_keys_del hd]
        by_cases hw : w = k
        · subst hw; simp [hk]
        · simp [hw]
      · rw [h3, at0_del hd]
        by_cases hw : k = w
        · subst hw; simp [hk]
        · simp [hw, Ne.symm hw]
    · rw [if_neg hk]
      obtain ⟨h1, h2, h3⟩ := ih hd
      refine ⟨h1, fun w => ?_, fun w => ?_⟩
      · rw [h2]
        by_cases hw : w = k
        · subst hw; simp [hk]
        · simp [hw]
      · rw [h3]
        by_cases hw : w = k
        · subst hw; simp [hk]
        · simp [hw]

theorem removeStopped_spec (stop : List Word) {d : PyDict Word ℕ} (hd : PyDict.WF d) :
    PyDict.WF (removeStopped ch stop d) ∧
      (∀ w, w ∈ PyDict.keys (removeStopped ch stop d) ↔ w ∈ PyDict.keys d ∧ ch.lower w ∉ stop) ∧
      ∀ w, ch.lower w ∉ stop → at0 (removeStopped ch stop d) w = at0 d w := by
  obtain ⟨h1, h2, h3⟩ := removeStopped_aux (ch := ch) stop (PyDict.keys d) hd
  refine ⟨h1, fun w => ?_, fun w hw => ?_⟩
  · refine (h2 w).trans ?_
    constructor
    · rintro ⟨a, b⟩; exact ⟨a, fun h => b ⟨a, h⟩⟩
    · rintro ⟨a, b⟩; exact ⟨a, fun h => b h.2⟩
  · refine (h3 w).trans ?_
    rw [if_neg fun h => hw h.2]

/-! ### Lower case -/

theorem lowerKeys_aux (hs : Sane ch) {items : List (Word × ℕ)} (hn : (items.map (·.1)).Nodup) {d : PyDict Word ℕ}
    (hd : PyDict.WF d) (hit : ∀ wc ∈ items, ch.islower wc.1 = false → at0 d wc.1 = wc.2) :
    PyDict.WF (lowerKeys ch items d) ∧
      (∀ w, w ∈ PyDict.keys (lowerKeys ch items d) →
        (w ∈ PyDict.keys d ∧ (w ∈ items.map (·.1) → ch.islower w = true)) ∨ ∃ wc ∈ items, w = ch.lower wc.1) ∧
      ∀ v, at0 (lowerKeys ch items d) v +
          (items.map fun wc => if ch.islower wc.1 = false ∧ wc.1 = v then wc.2 else 0).sum =
        at0 d v + (items.map fun wc => if ch.islower wc.1 = false ∧ ch.lower wc.1 = v then wc.2 else 0).sum := by
  induction items generalizing d with
  | nil => exact ⟨hd, fun w hw => Or.inl ⟨hw, fun h => by cases h⟩, fun v => by simp [lowerKeys]⟩
  | cons wc items ih =>
    obtain ⟨w, c⟩ := wc
    have hn' : (items.map (·.1)).Nodup := (List.nodup_cons.1 hn).2
    have hw : w ∉ items.map (·.1) := (List.nodup_cons.1 hn).1
    by_cases hl : ch.islower w = true
    · have e : lowerKeys ch ((w, c) :: items) d = lowerKeys ch items d := by
        unfold lowerKeys
        rw [List.foldl_cons]
        simp only [hl, if_true]
      rw [e]
      obtain ⟨h1, h2, h3⟩ := ih hn' hd fun wc h => hit wc (List.mem_cons_of_mem _ h)
      refine ⟨h1, fun k hk => ?_, fun v => ?_⟩
      · rcases h2 k hk with ⟨a, b⟩ | ⟨x, hx, hx2⟩
        · refine Or.inl ⟨a, fun h => ?_⟩
          rcases List.mem_cons.1 h with rfl | h
          · exact hl
          · exact b h
        · exact Or.inr ⟨x, List.mem_cons_of_mem _ hx, hx2⟩
      · simp only [List.map_cons, List.sum_cons, hl, Bool.true_eq_false, false_and, if_false, Nat.zero_add]
        exact h3 v
    · have hl' : ch.islower w = false := by simpa using hl
      have hdw : at0 d w = c := hit (w, c) List.mem_cons_self hl'
      have e : lowerKeys ch ((w, c) :: items) d = lowerKeys ch items (bump (PyDict.del d w) (ch.lower w) c) := by
        unfold lowerKeys
        rw [List.foldl_cons]
        simp only [hl', Bool.false_eq_true, if_false]
      have hat : ∀ v, at0 (bump (PyDict.del d w) (ch.lower w) c) v =
          (if w = v then 0 else at0 d v) + if ch.lower w = v then c else 0 := by
        intro v
        rw [at0_bump, at0_del hd]
      rw [e]
      obtain ⟨h1, h2, h3⟩ := ih hn' (wf_bump (PyDict.WF_del hd w) (ch.lower w) c) (by
        intro wc hwc hlow
        rw [hat]
        have hne : w ≠ wc.1 := fun h => hw (List.mem_map.2 ⟨wc, hwc, h.symm⟩)
        rw [if_neg hne, hit wc (List.mem_cons_of_mem _ hwc) hlow]
        by_cases h : ch.lower w = wc.1
        · exfalso
          have hww : ch.lower w ≠ w := fun h' => hne (h'.symm.trans h)
          have := hs.lowered w hww
          rw [h, hlow] at this
          cases this
        · rw [if_neg h, Nat.add_zero])
      refine ⟨h1, fun k hk => ?_, fun v => ?_⟩
      · rcases h2 k hk with ⟨a, b⟩ | ⟨x, hx, hx2⟩
        · rcases (mem_keys_bump _ _ _ _).1 a with a | a
          · rw [mem_keys_del hd] at a
            refine Or.inl ⟨a.2, fun h => ?_⟩
            rcases List.mem_cons.1 h with h | h
            · exact absurd h a.1
            · exact b h
          · exact Or.inr ⟨(w, c), List.mem_cons_self, a⟩
        · exact Or.inr ⟨x, List.mem_cons_of_mem _ hx, hx2⟩
      · have := h3 v
        rw [hat] at this
        simp only [List.map_cons, List.sum_cons, hl', true_and]
        by_cases h1 : w = v
        · subst h1
          simp only [if_true] at this ⊢
          omega
        · simp only [h1, if_false] at this ⊢
          omega

theorem lowerKeys_spec (hs : Sane ch) {d : PyDict Word ℕ} (hd : PyDict.WF d) :
    PyDict.WF (lowerKeys ch d d) ∧
      (∀ w, w ∈ PyDict.keys (lowerKeys ch d d) → ∃ k ∈ PyDict.keys d, w = ch.lower k) ∧
      ∀ v, at0 (lowerKeys ch d d) v = (d.map fun wc => if ch.lower wc.1 = v then wc.2 else 0).sum := by
  obtain ⟨h1, h2, h3⟩ := lowerKeys_aux hs (items := d) hd hd (by
    intro wc hwc _
    rw [at0, PyDict.getD, PyDict.get?_of_mem hd (k := wc.1) (v := wc.2) hwc]
    rfl)
  refine ⟨h1, fun w hw => ?_, fun v => ?_⟩
  · rcases h2 w hw with ⟨a, b⟩ | ⟨x, hx, hx2⟩
    · exact ⟨w, a, (hs.islower w (b a)).symm⟩
    · exact ⟨x.1, List.mem_map.2 ⟨x, hx, rfl⟩, hx2⟩
  · have e1 : at0 d v = (d.map fun wc => if ch.islower wc.1 = false ∧ wc.1 = v then wc.2 else 0).sum +
        (d.map fun wc => if ch.islower wc.1 = true ∧ wc.1 = v then wc.2 else 0).sum := by
      rw [← sum_entries hd v, ← List.sum_map_add]
      congr 1
      refine List.map_congr_left fun wc _ => ?_
      cases ch.islower wc.1 <;> simp
    have e2 : (d.map fun wc => if ch.lower wc.1 = v then wc.2 else 0).sum =
        (d.map fun wc => if ch.islower wc.1 = false ∧ ch.lower wc.1 = v then wc.2 else 0).sum +
        (d.map fun wc => if ch.islower wc.1 = true ∧ wc.1 = v then wc.2 else 0).sum := by
      rw [← List.sum_map_add]
      congr 1
      refine List.map_congr_left fun wc _ => ?_
      cases hl : ch.islower wc.1
      · simp
      · rw [hs.islower _ hl]; simp
    have := h3 v
    omega

/-! ### Sums over keys -/

theorem sum_if_mem {ks : List Word} (hn : ks.Nodup) (p : Word → Bool) (x : Word) :
    (ks.map fun k => if p k = true ∧ x = k then 1 else 0).sum = if p x = true ∧ x ∈ ks then 1 else 0 := by
  induction ks with
  | nil => simp
  | cons k ks ih =>
    obtain ⟨h1, h2⟩ := List.nodup_cons.1 hn
    rw [List.map_cons, List.sum_cons, ih h2]
    by_cases hk : x = k
    · subst hk
      simp [h1]
    · simp [hk]

theorem sum_keys {ks : List Word} (hn : ks.Nodup) (p : Word → Bool) (f : Word → Word) (L : List Word) :
    (ks.map fun k => if p k = true then L.countP (fun u => decide (f u = k)) else 0).sum =
      L.countP fun u => decide (p (f u) = true ∧ f u ∈ ks) := by
  induction L with
  | nil =>
    refine List.sum_eq_zero fun x hx => ?_
    obtain ⟨k, _, rfl⟩ := List.mem_map.1 hx
    simp
  | cons u L ih =>
    rw [List.countP_cons, ← ih]
    have e := sum_if_mem hn p (f u)
    have e2 : (if decide (p (f u) = true ∧ f u ∈ ks) = true then 1 else 0) =
        (ks.map fun k => if p k = true ∧ f u = k then 1 else 0).sum := by
      rw [e]; simp only [decide_eq_true_eq]
    rw [e2, ← List.sum_map_add]
    congr 1
    refine List.map_congr_left fun k _ => ?_
    rw [List.countP_cons]
    by_cases hp : p k = true <;> simp [hp]

/-- Summing a table of counts over the keys that satisfy `p`. -/
theorem sum_table {d : PyDict Word ℕ} (hd : PyDict.WF d) (p : Word → Bool) (f : Word → Word) (L : List Word)
    (h : ∀ k, p k = true → at0 d k = L.countP fun u => decide (f u = k)) :
    (d.map fun wc => if p wc.1 = true then wc.2 else 0).sum = L.countP fun u => p (f u) := by
  have e1 : (d.map fun wc => if p wc.1 = true then wc.2 else 0) =
      (PyDict.keys d).map fun k => if p k = true then L.countP (fun u => decide (f u = k)) else 0 := by
    unfold PyDict.keys
    rw [List.map_map]
    refine List.map_congr_left fun wc hwc => ?_
    show _ = if p wc.1 = true then _ else 0
    by_cases hp : p wc.1 = true
    · rw [if_pos hp, if_pos hp, ← h _ hp, at0, PyDict.getD, PyDict.get?_of_mem hd (k := wc.1) (v := wc.2) hwc]
      rfl
    · rw [if_neg hp, if_neg hp]
  rw [e1, sum_keys hd]
  refine List.countP_congr fun u hu => ?_
  rw [decide_eq_true_iff]
  constructor
  · exact fun h => h.1
  · intro hp
    refine ⟨hp, ?_⟩
    by_contra hk
    have h0 := h _ hp
    rw [at0_of_not_mem hk] at h0
    have : 0 < L.countP fun v => decide (f v = f u) := List.countP_pos_iff.2 ⟨u, hu, by simp⟩
    omega

end Verif.Words
