import Mathlib.Data.Set.Basic
import Verif.Model.ColumnName
import Verif.Spec.ColumnName
import Verif.Lemmas.Postprocess
import Mathlib.Data.List.Induction
import Mathlib.Tactic.SplitIfs
import Mathlib.Tactic.Linarith
import Mathlib.Algebra.Order.Field.Rat

/-!
# Labels of column names (C64)
-/

namespace Verif.ColumnName

open Verif Verif.Spec.ColumnName

variable {N L : Type}

theorem best_fold (s : ℚ) (l : List ℚ) :
    IsBest (s :: l) (l.zipIdx 1 |>.foldl (fun b x => if b.1 < x.1 then x else b) (s, 0)).2
      (l.zipIdx 1 |>.foldl (fun b x => if b.1 < x.1 then x else b) (s, 0)).1 := by
  induction l using List.reverseRecOn with
  | nil =>
    refine ⟨rfl, fun j t h => ?_, fun j t hj => absurd hj (Nat.not_lt_zero _)⟩
    cases j with
    | zero => injection h with h; exact le_of_eq h.symm
    | succ j => exact nomatch h
  | append_singleton l a ih =>
    rw [List.zipIdx_append, List.foldl_append]
    obtain ⟨b, hb⟩ : ∃ b, b = (l.zipIdx 1 |>.foldl (fun b x => if b.1 < x.1 then x else b) (s, 0)) := ⟨_, rfl⟩
    rw [← hb] at ih ⊢
    obtain ⟨h1, h2, h3⟩ := ih
    have hget : ∀ (j : ℕ) t, (s :: (l ++ [a]))[j]? = some t → (s :: l)[j]? = some t ∨ (j = l.length + 1 ∧ t = a) := by
      intro j t h
      cases j with
      | zero => exact .inl h
      | succ j =>
        rw [List.getElem?_cons_succ] at h ⊢
        by_cases hj : j < l.length
        · rw [List.getElem?_append_left hj] at h; exact .inl h
        · rw [List.getElem?_append_right (by omega)] at h
          right
          have h0 : j - l.length = 0 := by
            by_contra hne
            rw [List.getElem?_eq_none (by simp; omega)] at h
            exact nomatch h
          rw [h0] at h
          injection h with h
          exact ⟨by omega, h.symm⟩
    have hold : ∀ (j : ℕ) t, (s :: l)[j]? = some t → (s :: (l ++ [a]))[j]? = some t := by
      intro j t h
      rw [← List.cons_append]
      exact (List.getElem?_append_left (List.getElem?_eq_some_iff.mp h).1).trans h
    have hlast : (s :: (l ++ [a]))[l.length + 1]? = some a := by
      rw [List.getElem?_cons_succ, List.getElem?_append_right (Nat.le_refl _), Nat.sub_self]; rfl
    have hz : ([a].zipIdx (1 + l.length)) = [(a, l.length + 1)] := by rw [Nat.add_comm]; rfl
    rw [hz, List.foldl_cons, List.foldl_nil]
    dsimp only
    split_ifs with hlt
    · refine ⟨hlast, fun j t h => ?_, fun j t hj h => ?_⟩
      · rcases hget j t h with h | ⟨-, h⟩
        · exact le_trans (h2 j t h) (le_of_lt hlt)
        · exact le_of_eq h
      · rcases hget j t h with h | ⟨h, -⟩
        · exact lt_of_le_of_lt (h2 j t h) hlt
        · dsimp only at hj; omega
    · refine ⟨hold _ _ h1, fun j t h => ?_, fun j t hj h => ?_⟩
      · rcases hget j t h with h | ⟨-, h⟩
        · exact h2 j t h
        · rw [h]; exact le_of_not_gt hlt
      · rcases hget j t h with h | ⟨h, -⟩
        · exact h3 j t hj h
        · have := (List.getElem?_eq_some_iff.mp h1).1
          rw [List.length_cons] at this
          omega

theorem best_spec (l : List ℚ) (b : ℚ × ℕ) (h : best l = .ok b) : IsBest l b.2 b.1 := by
  cases l with
  | nil => exact nomatch h
  | cons s l =>
    injection h with h
    rw [← h]
    exact best_fold s l

theorem best_ok (l : List ℚ) (h : l ≠ []) : ∃ b, best l = .ok b := by
  cases l with
  | nil => exact absurd rfl h
  | cons s l => exact ⟨_, rfl⟩

theorem isBest_gt {A : Type} (l : List A) (f : A → ℚ) (i : ℕ) (s thr : ℚ) (h : IsBest (l.map f) i s) :
    (thr < s ↔ ∃ a ∈ l, thr < f a) ∧ (s < thr ↔ ∀ a ∈ l, f a < thr) := by
  obtain ⟨h1, h2, -⟩ := h
  rw [List.getElem?_map, Option.map_eq_some_iff] at h1
  obtain ⟨a, ha, rfl⟩ := h1
  have ham := List.mem_of_getElem? ha
  have hle : ∀ b ∈ l, f b ≤ f a := by
    intro b hb
    obtain ⟨j, hj⟩ := List.mem_iff_getElem?.mp hb
    exact h2 j _ (by rw [List.getElem?_map, hj]; rfl)
  exact ⟨⟨fun h => ⟨a, ham, h⟩, fun ⟨b, hb, h⟩ => lt_of_lt_of_le h (hle b hb)⟩,
    ⟨fun h b hb => lt_of_le_of_lt (hle b hb) h, fun h => h a ham⟩⟩

/-- The names left after false positives: those less similar than the threshold to all of them, in order. -/
theorem C64_negative (sim : N → N → ℚ) (fps : List N) (thr : ℚ) (hf : fps ≠ []) (names : List N) :
    compareNegative sim fps thr names = .ok (names.filter fun n => fps.all fun f => sim n f < thr) := by
  induction names with
  | nil => rfl
  | cons n ns ih =>
    unfold compareNegative
    obtain ⟨b, hb⟩ := best_ok (fps.map (sim n)) (by simpa using hf)
    have hs := (isBest_gt fps (sim n) _ _ thr (best_spec _ b hb)).2
    rw [hb, ih]
    show Except.ok _ = Except.ok _
    congr 1
    rw [List.filter_cons]
    by_cases hlt : b.1 < thr
    · rw [if_pos hlt, if_pos]
      rw [List.all_eq_true]
      intro f hfm
      simpa using hs.1 hlt f hfm
    · rw [if_neg hlt, if_neg]
      rw [List.all_eq_true]
      intro hall
      exact hlt (hs.2 fun f hfm => by simpa using hall f hfm)

/-- A name gets a label if an entry is more similar than the threshold: that of the first most similar one. -/
theorem positive_spec (sim : N → N → ℚ) (tps : List (Entry N L)) (thr : ℚ) (ht : tps ≠ []) (n : N) :
    ∃ i s e, tps[i]? = some e ∧ IsBest (tps.map fun e => sim n e.attr) i s ∧
      positive sim tps thr true n = .ok (if thr < s then some (e.label, s) else none) := by
  obtain ⟨b, hb⟩ := best_ok (tps.map fun e => sim n e.attr) (by simpa using ht)
  have hs := best_spec _ b hb
  obtain ⟨e, he, -⟩ : ∃ e, tps[b.2]? = some e ∧ sim n e.attr = b.1 := by
    have := hs.1
    rwa [List.getElem?_map, Option.map_eq_some_iff] at this
  refine ⟨b.2, b.1, e, he, hs, ?_⟩
  unfold positive
  rw [hb]
  show (if thr < b.1 then _ else _) = _
  by_cases hlt : thr < b.1
  · rw [if_pos hlt, if_pos hlt, if_pos rfl, he]
  · rw [if_neg hlt, if_neg hlt]

/-- Predictions: the names left after false positives that are similar enough to an entry get, in order, the label of the first most
similar entry, with its similarity; other names get none. -/
theorem C64_predict (sim : N → N → ℚ) (fps : List N) (negThr : ℚ) (tps : List (Entry N L)) (posThr : ℚ) (names : List N)
    (ht : tps ≠ []) :
    ∃ out, predict sim fps negThr tps posThr true names = .ok out ∧
      List.Forall₂ (fun n (x : L × ℚ) => ∃ i e, tps[i]? = some e ∧ e.label = x.1 ∧ IsBest (tps.map fun e => sim n e.attr) i x.2)
        ((names.filter fun n => fps.all fun f => sim n f < negThr).filter fun n => tps.any fun e => posThr < sim n e.attr) out := by
  obtain ⟨kept, hk⟩ : ∃ kept, kept = names.filter fun n => fps.all fun f => sim n f < negThr := ⟨_, rfl⟩
  have hkept : filtered sim fps negThr names = Except.ok (ε := Err) kept := by
    unfold filtered
    split_ifs with h
    · rw [List.isEmpty_iff] at h
      subst h
      rw [hk]
      simp
    · rw [C64_negative sim fps negThr (by simpa using h), hk]
  have hmap : ∀ l : List N, ∃ outs, l.mapM (positive sim tps posThr true) = .ok outs ∧
      List.Forall₂ (fun n (x : L × ℚ) => ∃ i e, tps[i]? = some e ∧ e.label = x.1 ∧ IsBest (tps.map fun e => sim n e.attr) i x.2)
        (l.filter fun n => tps.any fun e => posThr < sim n e.attr) (outs.filterMap id) := by
    intro l
    induction l with
    | nil => exact ⟨[], rfl, .nil⟩
    | cons n l ih =>
      obtain ⟨outs, h1, h2⟩ := ih
      obtain ⟨i, s, e, he, hb, hp⟩ := positive_spec sim tps posThr ht n
      have hiff := (isBest_gt tps (fun e => sim n e.attr) i s posThr hb).1
      refine ⟨(if posThr < s then some (e.label, s) else none) :: outs, ?_, ?_⟩
      · rw [List.mapM_cons, hp, h1]; rfl
      · rw [List.filter_cons]
        by_cases hlt : posThr < s
        · rw [if_pos hlt, if_pos (by
            obtain ⟨a, ha, hg⟩ := hiff.1 hlt
            rw [List.any_eq_true]; exact ⟨a, ha, by simpa using hg⟩)]
          exact .cons ⟨i, e, he, rfl, hb⟩ h2
        · rw [if_neg hlt, if_neg (by
            intro hany
            rw [List.any_eq_true] at hany
            obtain ⟨a, ha, hg⟩ := hany
            exact hlt (hiff.2 ⟨a, ha, by simpa using hg⟩))]
          exact h2
  obtain ⟨outs, h1, h2⟩ := hmap kept
  refine ⟨outs.filterMap id, ?_, by rw [← hk]; exact h2⟩
  unfold predict
  rw [hkept]
  show (do let out ← kept.mapM (positive sim tps posThr true); Except.ok (out.filterMap id)) = _
  rw [h1]
  rfl

/-- If every name is labelled, the predictions stand beside the names. -/
theorem C64_aligned_partial (sim : N → N → ℚ) (fps : List N) (negThr : ℚ) (tps : List (Entry N L)) (posThr : ℚ) (names : List N)
    (ht : tps ≠ []) (hn : ∀ n ∈ names, ∀ f ∈ fps, sim n f < negThr) (hp : ∀ n ∈ names, ∃ e ∈ tps, posThr < sim n e.attr) :
    ∃ out, predict sim fps negThr tps posThr true names = .ok out ∧
      List.Forall₂ (fun n (x : L × ℚ) => ∃ i e, tps[i]? = some e ∧ e.label = x.1 ∧ IsBest (tps.map fun e => sim n e.attr) i x.2)
        names out := by
  obtain ⟨out, h1, h2⟩ := C64_predict sim fps negThr tps posThr names ht
  refine ⟨out, h1, ?_⟩
  have e1 : (names.filter fun n => fps.all fun f => sim n f < negThr) = names := by
    rw [List.filter_eq_self]
    intro n hm
    rw [List.all_eq_true]
    intro f hf
    simpa using hn n hm f hf
  have e2 : (names.filter fun n => tps.any fun e => posThr < sim n e.attr) = names := by
    rw [List.filter_eq_self]
    intro n hm
    rw [List.any_eq_true]
    obtain ⟨e, he, hg⟩ := hp n hm
    exact ⟨e, he, by simpa using hg⟩
  rw [e1, e2] at h2
  exact h2

/-- Otherwise the list of labels is shorter than the list of names, and labels stand at other positions than their names. -/
theorem C64_aligned_fails : ∃ (sim : String → String → ℚ) (names : List String),
    (predict sim [] 0 [⟨"ssn", "SSN"⟩] 50 true names).toOption = some [("SSN", 100)] ∧ names = ["age", "ssn"] :=
  ⟨fun a b => if a = b then 100 else 0, _, by decide +kernel, rfl⟩

/-- Without labels in the results, a similar name raises. -/
theorem C64_nolabel (sim : N → N → ℚ) (tps : List (Entry N L)) (posThr : ℚ) (n : N) (e : Entry N L) (he : e ∈ tps)
    (hs : posThr < sim n e.attr) : predict sim [] 0 tps posThr false [n] = .error .indexError := by
  have ht : tps ≠ [] := List.ne_nil_of_mem he
  obtain ⟨b, hb⟩ := best_ok (tps.map fun e => sim n e.attr) (by simpa using ht)
  have hiff := (isBest_gt tps (fun e => sim n e.attr) _ _ posThr (best_spec _ b hb)).1
  have hp : positive sim tps posThr false n = .error .indexError := by
    unfold positive
    rw [hb]
    show (if posThr < b.1 then _ else _) = _
    rw [if_pos (hiff.2 ⟨e, he, hs⟩)]
    rfl
  unfold predict filtered
  show (do let out ← [n].mapM (positive sim tps posThr false); Except.ok (out.filterMap id)) = _
  rw [List.mapM_cons, hp]
  rfl

/-- The check of the labels looks at the first entry only: it is refused exactly if its texts are strictly more than the labels. -/
theorem C64_labels (labels : List String) (e : Entry String String) (tps : List (Entry String String)) :
    labelsOk labels (e :: tps) = false ↔ {l | l ∈ labels} ⊂ ({e.attr, e.label} : Set String) := by
  unfold labelsOk
  simp only [decide_eq_false_iff_not, not_not]
  rw [Set.ssubset_iff_subset_ne]
  constructor
  · rintro ⟨h1, h2⟩
    refine ⟨fun l hl => h1 l hl, fun h => ?_⟩
    rcases h2 with h2 | h2
    · exact h2 (show e.attr ∈ {l | l ∈ labels} by rw [h]; exact .inl rfl)
    · exact h2 (show e.label ∈ {l | l ∈ labels} by rw [h]; exact .inr rfl)
  · rintro ⟨h1, h2⟩
    refine ⟨fun l hl => h1 hl, ?_⟩
    by_contra h
    push Not at h
    refine h2 (Set.Subset.antisymm h1 ?_)
    rintro l (rfl | rfl)
    · exact h.1
    · exact h.2

example : labelsOk ["SSN"] [⟨"ssn", "SSN"⟩] = false ∧ labelsOk ["SSN", "ssn"] [⟨"ssn", "SSN"⟩] = true ∧
    labelsOk ["AGE"] [⟨"ssn", "SSN"⟩] = true := by decide +kernel

/-- Labels unknown to the model are accepted, and predicted. -/
theorem C64_labels_fails : ∃ (labels : List String) (tps : List (Entry String String)),
    labelsOk labels tps = true ∧ "SSN" ∉ labels ∧
    (predict (fun a b => if a = b then 100 else 0) [] 0 tps 50 true ["ssn"]).toOption = some [("SSN", 100)] :=
  ⟨["AGE"], [⟨"ssn", "SSN"⟩], by decide +kernel, by decide +kernel, by decide +kernel⟩

end Verif.ColumnName
