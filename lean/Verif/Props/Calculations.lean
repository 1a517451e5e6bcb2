import Verif.Lemmas.PyDict
import Verif.Model.Calculations

/-! # C49: enabled calculations -/

namespace Verif.Calculations

open Verif

variable {F : Type}

private theorem foldl_del (p : String → Bool) (ks : List String) (d : PyDict String F) (h : PyDict.WF d) :
    PyDict.WF (ks.foldl (fun d k => if p k then d else PyDict.del d k) d) ∧
    ∀ k, PyDict.get? (ks.foldl (fun d k => if p k then d else PyDict.del d k) d) k =
      if k ∈ ks ∧ p k = false then none else PyDict.get? d k := by
  induction ks generalizing d with
  | nil => simp [h]
  | cons x ks ih =>
    rw [List.foldl_cons]
    cases hp : p x with
    | true =>
      simp only [if_true]
      refine ⟨(ih d h).1, fun k => ?_⟩
      rw [(ih d h).2 k]
      by_cases hk : k = x
      · subst hk; simp [hp]
      · simp [hk]
    | false =>
      simp only [Bool.false_eq_true, if_false]
      have hw := PyDict.WF_del h x
      refine ⟨(ih _ hw).1, fun k => ?_⟩
      rw [(ih _ hw).2 k, PyDict.get?_del h]
      by_cases hk : x = k
      · subst hk; simp [hp]
      · have : ¬ k = x := fun e => hk e.symm
        simp [hk, this]

/-- **C49** After filtering with options a calculation is present exactly when it was present and the
options enable it; the function stored for it does not change. Without options nothing changes. -/
theorem C49_filter (calcs : PyDict String F) (h : PyDict.WF calcs) (en : String → Bool) (k : String) :
    PyDict.get? (filterProps (some en) calcs) k =
      (if en k then PyDict.get? calcs k else none) ∧
    filterProps none calcs = calcs := by
  constructor
  · have := (foldl_del en (PyDict.keys calcs) calcs h).2 k
    unfold filterProps
    have e : (filterStep (F := F) (some en)) = fun d k => if en k then d else PyDict.del d k := by
      funext d k; rfl
    rw [e, this]
    cases hk : en k
    · by_cases hm : k ∈ PyDict.keys calcs
      · simp [hm]
      · rw [(PyDict.get?_eq_none_iff calcs k).2 hm]; simp
    · simp
  · unfold filterProps
    generalize PyDict.keys calcs = ks
    induction ks with
    | nil => rfl
    | cons x ks ih => rw [List.foldl_cons]; exact ih

/-- **C49** A merged profile computes exactly the statistics enabled in both operands (out of the
defaults of the merged profile); the stored function is the merged profile's own. -/
theorem C49_merge_is_intersection (merged c1 c2 : PyDict String F) (h : PyDict.WF merged) (k : String) :
    PyDict.get? (mergeCalcs merged c1 c2).1 k =
      if PyDict.has c1 k ∧ PyDict.has c2 k then PyDict.get? merged k else none := by
  have e : ∀ (ks : List String) (s : PyDict String F × List String),
      (ks.foldl (mergeStep c1 c2) s).1 =
        ks.foldl (fun d k => if PyDict.has c1 k && PyDict.has c2 k then d else PyDict.del d k) s.1 := by
    intro ks
    induction ks with
    | nil => intro s; rfl
    | cons x ks ih =>
      intro s
      rw [List.foldl_cons, List.foldl_cons, ih]
      congr 1
      unfold mergeStep
      cases PyDict.has c1 x <;> cases PyDict.has c2 x <;> simp
  unfold mergeCalcs
  rw [e, (foldl_del _ _ _ h).2 k]
  by_cases hm : k ∈ PyDict.keys merged
  · cases h1 : PyDict.has c1 k <;> cases h2 : PyDict.has c2 k <;> simp [hm]
  · rw [(PyDict.get?_eq_none_iff merged k).2 hm]; simp

/-- **C49** A warning is issued exactly for the calculations (of the defaults) that only one operand
has. -/
theorem C49_merge_warnings (merged c1 c2 : PyDict String F) (k : String) :
    k ∈ (mergeCalcs merged c1 c2).2 ↔
      k ∈ PyDict.keys merged ∧ (PyDict.has c1 k ≠ PyDict.has c2 k) := by
  have e : ∀ (ks : List String) (s : PyDict String F × List String),
      (k ∈ (ks.foldl (mergeStep c1 c2) s).2 ↔
        k ∈ s.2 ∨ (k ∈ ks ∧ (PyDict.has c1 k ≠ PyDict.has c2 k))) := by
    intro ks
    induction ks with
    | nil => intro s; simp
    | cons x ks ih =>
      intro s
      rw [List.foldl_cons, ih]
      have hs : (k ∈ (mergeStep c1 c2 s x).2 ↔
          k ∈ s.2 ∨ (k = x ∧ (PyDict.has c1 k ≠ PyDict.has c2 k))) := by
        unfold mergeStep
        by_cases hkx : k = x
        · subst hkx
          cases h1 : PyDict.has c1 k <;> cases h2 : PyDict.has c2 k <;> simp
        · cases h1 : PyDict.has c1 x <;> cases h2 : PyDict.has c2 x <;> simp [hkx]
      rw [hs, List.mem_cons]
      constructor
      · rintro ((h | h) | h)
        · exact Or.inl h
        · exact Or.inr ⟨Or.inl h.1, h.2⟩
        · exact Or.inr ⟨Or.inr h.1, h.2⟩
      · rintro (h | ⟨h | h, h'⟩)
        · exact Or.inl (Or.inl h)
        · exact Or.inl (Or.inr ⟨h, h'⟩)
        · exact Or.inr ⟨h, h'⟩
  unfold mergeCalcs
  rw [e]; simp

/-- **C49** Hence merging commutes with disabling: which calculations survive does not depend on the
order of the operands. -/
theorem C49_merge_comm (merged c1 c2 : PyDict String F) (h : PyDict.WF merged) (k : String) :
    PyDict.get? (mergeCalcs merged c1 c2).1 k = PyDict.get? (mergeCalcs merged c2 c1).1 k := by
  rw [C49_merge_is_intersection _ _ _ h, C49_merge_is_intersection _ _ _ h]
  simp only [and_comm]

example :
    let all : PyDict String Nat := [("min", 0), ("max", 1), ("sum", 2)]
    let c1 : PyDict String Nat := [("min", 0), ("sum", 2)]
    let c2 : PyDict String Nat := [("max", 1), ("sum", 2)]
    PyDict.WF all ∧ mergeCalcs all c1 c2 = ([("sum", 2)], ["min", "max"]) := by decide

private theorem del_eq_filter {d : PyDict String F} (h : PyDict.WF d) (x : String) :
    PyDict.del d x = d.filter fun kv => decide (kv.1 ≠ x) := by
  induction d with
  | nil => rfl
  | cons kv d ih =>
    obtain ⟨k, v⟩ := kv
    simp only [PyDict.WF, PyDict.keys, List.map_cons, List.nodup_cons] at h
    unfold PyDict.del
    by_cases hk : k = x
    · subst hk
      rw [if_pos rfl, List.filter_cons_of_neg (by simp)]
      refine (List.filter_eq_self.2 fun kv hkv => ?_).symm
      have : kv.1 ≠ k := fun e => h.1 (e ▸ List.mem_map_of_mem hkv)
      simpa using this
    · rw [if_neg hk, List.filter_cons_of_pos (by simpa using hk), ih h.2]

private theorem foldl_del_eq (p : String → Bool) (ks : List String) (d : PyDict String F) (h : PyDict.WF d) :
    ks.foldl (fun d k => if p k then d else PyDict.del d k) d = d.filter fun kv => p kv.1 || decide (kv.1 ∉ ks) := by
  induction ks generalizing d with
  | nil => exact (List.filter_eq_self.2 fun kv _ => by simp).symm
  | cons x ks ih =>
    rw [List.foldl_cons]
    cases hp : p x with
    | true =>
      simp only [if_true]
      rw [ih d h]
      refine List.filter_congr fun kv _ => ?_
      by_cases hk : kv.1 = x
      · simp [hk, hp]
      · simp [hk]
    | false =>
      simp only [Bool.false_eq_true, if_false]
      rw [ih _ (PyDict.WF_del h x), del_eq_filter h, List.filter_filter]
      refine List.filter_congr fun kv _ => ?_
      by_cases hk : kv.1 = x
      · simp [hk, hp]
      · simp [hk]

/-- **C49** The enabled calculations are run, each once and in their order, and no others. -/
theorem C49_runs {S : Type} (calcs : PyDict String (S → S)) (h : PyDict.WF calcs) (en : String → Bool) (s : S) :
    performCalcs (filterProps (some en) calcs) s = (calcs.filter fun kv => en kv.1).foldl (fun s kv => kv.2 s) s := by
  unfold performCalcs filterProps
  have e : (filterStep (F := S → S) (some en)) = fun d k => if en k then d else PyDict.del d k := by
    funext d k; rfl
  rw [e, foldl_del_eq _ _ _ h]
  have : (calcs.filter fun kv => en kv.1 || decide (kv.1 ∉ PyDict.keys calcs)) = calcs.filter fun kv => en kv.1 := by
    refine List.filter_congr fun kv h => ?_
    have : kv.1 ∈ PyDict.keys calcs := List.mem_map_of_mem h
    simp [this]
  rw [this]
  unfold PyDict.values
  rw [List.foldl_map]

example : performCalcs (filterProps (some fun k => k ≠ "max")
    [("min", fun l : List String => l ++ ["min"]), ("max", fun l => l ++ ["max"]), ("sum", fun l => l ++ ["sum"])]) [] =
    ["min", "sum"] := by rw [C49_runs _ (by decide)]; decide

end Verif.Calculations
