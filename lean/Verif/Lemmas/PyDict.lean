import Verif.Model.PyDict

/-! Helper lemmas about the dictionary model. -/

namespace Verif.PyDict

variable {K V : Type} [DecidableEq K]

@[simp] theorem get?_nil (k : K) : get? ([] : PyDict K V) k = none := rfl

theorem get?_cons (k' : K) (v : V) (d : PyDict K V) (k : K) :
    get? ((k', v) :: d) k = if k' = k then some v else get? d k := rfl

theorem get?_set (d : PyDict K V) (k k' : K) (v : V) :
    get? (set d k v) k' = if k = k' then some v else get? d k' := by
  induction d with
  | nil => simp [set, get?]
  | cons p d ih =>
    obtain ⟨a, b⟩ := p
    by_cases h : a = k
    · subst h; simp only [set, if_true, get?]; split <;> rfl
    · simp only [set, if_neg h, get?, ih]
      by_cases h1 : a = k'
      · subst h1; simp [Ne.symm h]
      · simp [h1]

theorem mem_keys_iff (d : PyDict K V) (k : K) : k ∈ keys d ↔ ∃ v, get? d k = some v := by
  induction d with
  | nil => simp [keys]
  | cons p d ih =>
    obtain ⟨a, b⟩ := p
    simp only [keys, List.map_cons, List.mem_cons, get?] at *
    by_cases h : a = k
    · subst h; simp
    · rw [if_neg h, ← ih]; simp [Ne.symm h]

theorem get?_eq_none_iff (d : PyDict K V) (k : K) : get? d k = none ↔ k ∉ keys d := by
  rw [mem_keys_iff]; cases get? d k <;> simp

theorem has_iff (d : PyDict K V) (k : K) : has d k = true ↔ k ∈ keys d := by
  rw [mem_keys_iff, has, Option.isSome_iff_exists]

theorem keys_set (d : PyDict K V) (k : K) (v : V) :
    keys (set d k v) = if k ∈ keys d then keys d else keys d ++ [k] := by
  induction d with
  | nil => simp [set, keys]
  | cons p d ih =>
    obtain ⟨a, b⟩ := p
    by_cases h : a = k
    · subst h; simp [set, keys]
    · simp only [set, if_neg h, keys, List.map_cons, List.mem_cons] at *
      rw [ih]
      by_cases h2 : k ∈ List.map Prod.fst d <;> simp [h2, Ne.symm h]

theorem WF_set {d : PyDict K V} (h : WF d) (k : K) (v : V) : WF (set d k v) := by
  unfold WF at *
  rw [keys_set]
  split
  · exact h
  · rename_i hk
    rw [List.nodup_append]
    refine ⟨h, by simp, ?_⟩
    intro a ha b hb
    simp at hb
    subst hb
    intro hab; subst hab; exact hk ha

omit [DecidableEq K] in
theorem WF_nil : WF ([] : PyDict K V) := by simp [WF, keys]

theorem get?_of_mem {d : PyDict K V} (h : WF d) {k : K} {v : V} (hm : (k, v) ∈ d) :
    get? d k = some v := by
  induction d with
  | nil => cases hm
  | cons p d ih =>
    obtain ⟨a, b⟩ := p
    simp only [WF, keys, List.map_cons, List.nodup_cons] at h
    rcases List.mem_cons.1 hm with h1 | h1
    · cases h1; simp [get?]
    · have hne : a ≠ k := by
        rintro rfl
        exact h.1 (List.mem_map.2 ⟨_, h1, rfl⟩)
      simp only [get?, if_neg hne]
      exact ih h.2 h1

theorem mem_of_get? {d : PyDict K V} {k : K} {v : V} (h : get? d k = some v) : (k, v) ∈ d := by
  induction d with
  | nil => simp at h
  | cons p d ih =>
    obtain ⟨a, b⟩ := p
    simp only [get?] at h
    split at h
    · rename_i hk; subst hk; cases h; simp
    · exact List.mem_cons_of_mem _ (ih h)

theorem mem_iff_get? {d : PyDict K V} (h : WF d) (k : K) (v : V) :
    (k, v) ∈ d ↔ get? d k = some v := ⟨get?_of_mem h, mem_of_get?⟩

theorem keys_del (d : PyDict K V) (k : K) : keys (del d k) = (keys d).erase k := by
  induction d with
  | nil => simp [del, keys]
  | cons p d ih =>
    obtain ⟨a, b⟩ := p
    simp only [del, keys, List.map_cons] at *
    by_cases h : a = k
    · subst h; simp
    · rw [if_neg h, List.erase_cons_tail (by simpa using h), List.map_cons, ih]

theorem WF_del {d : PyDict K V} (h : WF d) (k : K) : WF (del d k) := by
  unfold WF at *
  rw [keys_del]; exact h.sublist List.erase_sublist

theorem get?_del {d : PyDict K V} (h : WF d) (k k' : K) :
    get? (del d k) k' = if k = k' then none else get? d k' := by
  induction d with
  | nil => simp [del]
  | cons p d ih =>
    obtain ⟨a, b⟩ := p
    simp only [WF, keys, List.map_cons, List.nodup_cons] at h
    by_cases hak : a = k
    · subst hak
      simp only [del, if_true]
      by_cases h2 : a = k'
      · subst h2; simp only [if_true]; rw [get?_eq_none_iff]; exact h.1
      · simp [h2, get?]
    · simp only [del, if_neg hak, get?, ih h.2]
      by_cases h2 : a = k'
      · subst h2; simp [Ne.symm hak]
      · simp [h2]

theorem set_of_not_mem {d : PyDict K V} {k : K} (h : k ∉ keys d) (v : V) :
    set d k v = d ++ [(k, v)] := by
  induction d with
  | nil => rfl
  | cons p d ih =>
    obtain ⟨a, b⟩ := p
    simp only [keys, List.map_cons, List.mem_cons, not_or] at h
    simp only [set, if_neg (Ne.symm h.1), List.cons_append]
    rw [ih h.2]

end Verif.PyDict
