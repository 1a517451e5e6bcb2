import Verif.Spec.Json
import Verif.Lemmas.PyDict
import Mathlib.Tactic.SplitIfs
import Mathlib.Data.List.Infix
import Mathlib.Data.List.Perm.Basic

/-!
# Lemmas about flattening JSON documents
-/

namespace Verif.Json

open Verif Verif.Spec.Json

variable {A V : Type}

/-- A path ready to have a key appended. -/
def Ready (sep p : Key) : Prop := p = [] ∨ ∃ q, p = q ++ sep

/-- The flat name of a leaf below a path. -/
def nameAt (sep p : Key) (ks : List Key) : Key := if ks = [] then cutN sep.length p else p ++ joined sep ks

theorem lastN_append (q sep : Key) (hs : sep ≠ []) : lastN sep.length (q ++ sep) = sep := by
  have : sep.length ≠ 0 := by simpa using hs
  simp [lastN, this]

theorem cutN_append (q sep : Key) (hs : sep ≠ []) : cutN sep.length (q ++ sep) = q := by
  have : sep.length ≠ 0 := by simpa using hs
  simp [cutN, this]

theorem cutN_nil (n : ℕ) : cutN n [] = [] := by simp [cutN]

theorem extend_ready {sep p : Key} (hs : sep ≠ []) (h : Ready sep p) : extend sep p = p := by
  rcases h with h | ⟨q, h⟩
  · simp [extend, h]
  · subst h
    unfold extend
    rw [lastN_append q sep hs]
    simp

theorem extend_usual {sep k : Key} (hs : sep ≠ []) (p : Key) (h : Usual sep k) :
    extend sep (p ++ k) = p ++ k ++ sep := by
  unfold extend
  rw [if_pos]
  refine ⟨by simp [h.1], fun e => h.2 ?_⟩
  have h1 : (p ++ k).getLast? = k.getLast? := by
    rw [List.getLast?_append]
    cases hk : k.getLast? with
    | none => exact absurd (List.getLast?_eq_none_iff.mp hk) h.1
    | some c => rfl
  rw [← h1]
  have hne : sep.length ≠ 0 := by simpa using hs
  rw [← e]
  unfold lastN
  rw [if_neg hne]
  have h2 : (p ++ k).drop ((p ++ k).length - sep.length) ≠ [] := by
    intro h0
    rw [show lastN sep.length (p ++ k) = (p ++ k).drop ((p ++ k).length - sep.length) by simp [lastN, hne]] at e
    exact hs (e.symm.trans h0)
  rw [List.getLast?_drop]
  split_ifs with h3
  · exact absurd (List.drop_eq_nil_of_le h3) h2
  · rfl

theorem find_extend {sep path : Key} (h : extend sep (extend sep path) = extend sep path) (j : J A) :
    find sep path j = find sep (extend sep path) j := by
  cases j <;> simp [find, h]

theorem nameAt_cons {sep k : Key} (hs : sep ≠ []) (p : Key) (ks : List Key) :
    nameAt sep (p ++ k ++ sep) ks = nameAt sep p (k :: ks) := by
  unfold nameAt
  cases ks with
  | nil => rw [if_pos rfl, cutN_append _ sep hs]; simp [joined]
  | cons k' ks => simp [joined]

theorem isObj_eq (xs : List (J A)) : xs.all J.isObj = xs.all record := by
  congr 1

mutual
theorem find_ready {sep : Key} (hs : sep ≠ []) (p : Key) (hp : Ready sep p) : (j : J A) → UsualKeys sep j →
    find sep p j = (leaves j).map fun l => (nameAt sep p l.1, l.2)
  | .val a, _ => by simp [find, leaves, nameAt, extend_ready hs hp]
  | .obj fields, h => by
    rw [UsualKeys] at h
    rw [find, leaves, extend_ready hs hp]
    exact findFields_ready hs p hp fields h
  | .list xs, h => by
    rw [UsualKeys] at h
    rw [find, leaves, extend_ready hs hp, isObj_eq]
    split_ifs with ho
    · exact findAll_ready hs p hp xs h
    · simp [nameAt]

theorem findFields_ready {sep : Key} (hs : sep ≠ []) (p : Key) (hp : Ready sep p) : (fields : List (Key × J A)) →
    UsualFields sep fields →
    findFields sep p fields = (fieldLeaves fields).map fun l => (nameAt sep p l.1, l.2)
  | [], _ => by simp [findFields, fieldLeaves]
  | (k, j) :: rest, h => by
    rw [UsualFields] at h
    obtain ⟨hk, hj, hr⟩ := h
    rw [findFields, fieldLeaves, List.map_append, findFields_ready hs p hp rest hr]
    congr 1
    have he : extend sep (p ++ k) = p ++ k ++ sep := extend_usual hs p hk
    have hr' : Ready sep (p ++ k ++ sep) := .inr ⟨p ++ k, rfl⟩
    have h1 : find sep (p ++ k) j = (leaves j).map fun l => (nameAt sep (p ++ k ++ sep) l.1, l.2) := by
      rw [find_extend (by rw [he, extend_ready hs hr']), he]
      exact find_ready hs _ hr' j hj
    have h2 : (if j.isVal = true then [(p ++ k, j)] else find sep (p ++ k) j) = find sep (p ++ k) j := by
      cases j with
      | val a => simp [J.isVal, find, he]; rw [← List.append_assoc, cutN_append _ sep hs]
      | list xs => simp [J.isVal]
      | obj fs => simp [J.isVal]
    rw [h2, h1, List.map_map]
    refine List.map_congr_left fun l _ => ?_
    simp only [Function.comp_apply]
    rw [nameAt_cons hs]

theorem findAll_ready {sep : Key} (hs : sep ≠ []) (p : Key) (hp : Ready sep p) : (xs : List (J A)) →
    UsualAll sep xs → findAll sep p xs = (allLeaves xs).map fun l => (nameAt sep p l.1, l.2)
  | [], _ => by simp [findAll, allLeaves]
  | j :: rest, h => by
    rw [UsualAll] at h
    rw [findAll, allLeaves, List.map_append, find_ready hs p hp j h.1, findAll_ready hs p hp rest h.2]
end

theorem find_columns {sep : Key} (hs : sep ≠ []) (j : J A) (h : UsualKeys sep j) : find sep [] j = columns sep j := by
  rw [find_ready hs [] (.inl rfl) j h]
  unfold columns
  refine List.map_congr_left fun l _ => ?_
  unfold nameAt
  split_ifs with h0
  · simp [h0, cutN_nil, joined]
  · simp

/-- Below a usual key. -/
theorem find_key {sep k : Key} (hs : sep ≠ []) (hk : Usual sep k) (j : J A) (h : UsualKeys sep j) :
    find sep k j = (leaves j).map fun l => (joined sep (k :: l.1), l.2) := by
  have he : extend sep k = k ++ sep := by simpa using extend_usual hs [] hk
  have hr' : Ready sep (k ++ sep) := .inr ⟨k, rfl⟩
  rw [find_extend (by rw [he, extend_ready hs hr']), he, find_ready hs _ hr' j h]
  refine List.map_congr_left fun l _ => ?_
  have := nameAt_cons (k := k) hs [] l.1
  simp only [List.nil_append] at this
  rw [this]
  simp [nameAt]

/-! ### Coalescing -/

/-- What a place of the first kind does to the values of a key. -/
theorem place_values (item : Key × V) (k : Key) (ds : List (PyDict Key V))
    (hp : ds.Pairwise fun a b => PyDict.has b item.1 = true → PyDict.has a item.1 = true) :
    (place item ds).filterMap (fun d => PyDict.get? d k) =
      ds.filterMap (fun d => PyDict.get? d k) ++ (if item.1 = k then [item.2] else []) := by
  induction ds with
  | nil =>
    by_cases h : item.1 = k <;> simp [place, PyDict.get?, h]
  | cons d ds ih =>
    rw [List.pairwise_cons] at hp
    rw [place]
    split_ifs with h1 h2 h2
    · rw [List.filterMap_cons, List.filterMap_cons, ih hp.2, if_pos h2]
      cases PyDict.get? d k <;> simp
    · rw [List.filterMap_cons, List.filterMap_cons, ih hp.2, if_neg h2]
      cases PyDict.get? d k <;> simp
    · subst h2
      have hnone : ∀ d' ∈ ds, PyDict.get? d' item.1 = none := by
        intro d' hd'
        have := mt (hp.1 d' hd') h1
        simpa [PyDict.has] using this
      have hd : PyDict.get? d item.1 = none := by simpa [PyDict.has] using h1
      have hz : ds.filterMap (fun d => PyDict.get? d item.1) = [] := by
        rw [List.filterMap_eq_nil_iff]; exact hnone
      rw [List.filterMap_cons, List.filterMap_cons, hd, hz, PyDict.get?_set]
      simp
    · rw [List.filterMap_cons, List.filterMap_cons, PyDict.get?_set]
      simp [h2]

theorem has_set (d : PyDict Key V) (k k' : Key) (v : V) :
    PyDict.has (PyDict.set d k v) k' = (PyDict.has d k' || decide (k = k')) := by
  unfold PyDict.has
  rw [PyDict.get?_set]
  by_cases h : k = k' <;> simp [h]

theorem place_mem {item : Key × V} {ds : List (PyDict Key V)} {d : PyDict Key V} (h : d ∈ place item ds) (k : Key)
    (hk : PyDict.has d k = true) : k = item.1 ∨ ∃ d' ∈ ds, PyDict.has d' k = true := by
  induction ds with
  | nil =>
    simp only [place, List.mem_singleton] at h
    subst h
    by_cases h2 : item.1 = k
    · exact .inl h2.symm
    · simp [PyDict.has, PyDict.get?, h2] at hk
  | cons a ds ih =>
    rw [place] at h
    split_ifs at h with h1
    · rcases List.mem_cons.mp h with h | h
      · exact .inr ⟨a, by simp, h ▸ hk⟩
      · rcases ih h with h | ⟨d', hd', h⟩
        · exact .inl h
        · exact .inr ⟨d', by simp [hd'], h⟩
    · rcases List.mem_cons.mp h with h | h
      · subst h
        rw [has_set] at hk
        rcases Bool.or_eq_true _ _ ▸ hk with hk | hk
        · exact .inr ⟨a, by simp, hk⟩
        · exact .inl (by simpa using hk : item.1 = k).symm
      · exact .inr ⟨d, by simp [h], hk⟩

/-- The dictionaries having a key stay the first ones. -/
theorem place_prefix (item : Key × V) (k : Key) (ds : List (PyDict Key V))
    (hp : ds.Pairwise fun a b => PyDict.has b k = true → PyDict.has a k = true) :
    (place item ds).Pairwise fun a b => PyDict.has b k = true → PyDict.has a k = true := by
  induction ds with
  | nil => simp [place]
  | cons d ds ih =>
    rw [List.pairwise_cons] at hp
    rw [place]
    split_ifs with h1
    · refine List.pairwise_cons.mpr ⟨fun b hb hk => ?_, ih hp.2⟩
      rcases place_mem hb k hk with h | ⟨d', hd', h⟩
      · rw [h]; exact h1
      · exact hp.1 d' hd' h
    · refine List.pairwise_cons.mpr ⟨fun b hb hk => ?_, hp.2⟩
      rw [has_set, hp.1 b hb hk]
      rfl

theorem place_wf (item : Key × V) (ds : List (PyDict Key V)) (h : ∀ d ∈ ds, PyDict.WF d) :
    ∀ d ∈ place item ds, PyDict.WF d := by
  induction ds with
  | nil => intro d hd; simp only [place, List.mem_singleton] at hd; subst hd; simp [PyDict.WF, PyDict.keys]
  | cons a ds ih =>
    intro d hd
    rw [place] at hd
    split_ifs at hd
    · rcases List.mem_cons.mp hd with rfl | hd
      · exact h _ (by simp)
      · exact ih (fun d hd => h d (by simp [hd])) d hd
    · rcases List.mem_cons.mp hd with rfl | hd
      · exact PyDict.WF_set (h a (by simp)) _ _
      · exact h d (by simp [hd])

theorem place_perm (item : Key × V) (ds : List (PyDict Key V)) :
    (place item ds).flatten.Perm (ds.flatten ++ [item]) := by
  induction ds with
  | nil => simp [place]
  | cons d ds ih =>
    rw [place]
    split_ifs with h1
    · simpa [List.append_assoc] using List.Perm.append_left d ih
    · have h2 : item.1 ∉ PyDict.keys d := fun h => h1 ((PyDict.has_iff d item.1).mpr h)
      rw [PyDict.set_of_not_mem h2]
      simp only [List.flatten_cons, List.append_assoc]
      exact List.Perm.append_left d List.perm_append_comm

/-- A new dictionary is made only if all have the key. -/
theorem place_length (item : Key × V) (ds : List (PyDict Key V)) :
    ((place item ds).length = ds.length) ∨
      ((place item ds).length = ds.length + 1 ∧ ∀ d ∈ ds, PyDict.has d item.1 = true) := by
  induction ds with
  | nil => simp [place]
  | cons d ds ih =>
    rw [place]
    split_ifs with h1
    · rcases ih with ih | ih
      · left; simp [ih]
      · right; simp [ih.1, h1]; exact ih.2
    · left; simp

end Verif.Json
