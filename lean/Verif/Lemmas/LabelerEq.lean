import Verif.Lemmas.LabelerDiskSave
import Verif.Spec.LabelerEq
import Mathlib.Data.List.Nodup
import Mathlib.Data.List.Perm.Subperm

namespace Verif.LabelerDisk

open Verif Spec

variable {W : Type}

theorem tidyDict_get : ∀ {d : List (String × Val)}, tidyDict d = true → ∀ {k : String} {v : Val},
    PyDict.get? d k = some v → tidy v = true
  | [], _, _, _, h => by simp [PyDict.get?] at h
  | (k', v') :: t, hd, k, v, h => by
    rw [tidyDict, Bool.and_eq_true] at hd
    rw [PyDict.get?_cons] at h
    split_ifs at h
    · injection h with h; exact h ▸ hd.1
    · exact tidyDict_get hd.2 h

/-- As many entries, all of which are in the other dictionary: the same keys. -/
theorem same_keys {a b : List (String × Val)} (ha : PyDict.WF a) (hl : a.length = b.length)
    (h : ∀ k ∈ a.map Prod.fst, k ∈ b.map Prod.fst) (k : String) : k ∈ b.map Prod.fst → k ∈ a.map Prod.fst := by
  have hs : (a.map Prod.fst).Subperm (b.map Prod.fst) := List.Nodup.subperm ha h
  have hp := hs.perm_of_length_le (by simp [hl])
  exact fun hk => hp.mem_iff.2 hk

theorem get?_none_iff {d : List (String × Val)} {k : String} : PyDict.get? d k = none ↔ k ∉ d.map Prod.fst :=
  PyDict.get?_eq_none_iff d k

mutual
theorem eqv_iff : ∀ v w : Val, tidy v = true → tidy w = true → (eqv v w = true ↔ PyEq v w)
  | .list a, w, ha, hb => by
    cases w
    case list b =>
      rw [tidy] at ha hb
      rw [eqv, eqvList_iff a b ha hb]
      constructor
      · rintro ⟨h1, h2⟩; exact .list h1 h2
      · intro h
        cases h with
        | num hv hw => simp [Val.num?] at hv
        | list h1 h2 => exact ⟨h1, h2⟩
    all_goals
      simp only [eqv, Bool.false_eq_true, false_iff]
      intro h
      cases h with
      | num hv hw => simp [Val.num?] at hv
  | .tuple a, w, ha, hb => by
    cases w
    case tuple b =>
      rw [tidy] at ha hb
      rw [eqv, eqvList_iff a b ha hb]
      constructor
      · rintro ⟨h1, h2⟩; exact .tuple h1 h2
      · intro h
        cases h with
        | num hv hw => simp [Val.num?] at hv
        | tuple h1 h2 => exact ⟨h1, h2⟩
    all_goals
      simp only [eqv, Bool.false_eq_true, false_iff]
      intro h
      cases h with
      | num hv hw => simp [Val.num?] at hv
  | .dict a, w, ha, hb => by
    cases w
    case dict b =>
      rw [tidy, Bool.and_eq_true, decide_eq_true_eq] at ha hb
      rw [eqv, Bool.and_eq_true, eqvDict_iff a b ha.2 hb.2, beq_iff_eq]
      constructor
      · rintro ⟨h1, h2⟩
        have hsub : ∀ k ∈ a.map Prod.fst, k ∈ b.map Prod.fst := by
          intro k hk
          obtain ⟨⟨k', v⟩, hm, rfl⟩ := List.mem_map.1 hk
          obtain ⟨w, hw, -⟩ := h2 _ hm
          by_contra hn
          rw [get?_none_iff.2 hn] at hw
          cases hw
        refine .dict (fun k => ?_) fun k v w hv hw => ?_
        · rw [get?_none_iff, get?_none_iff, not_iff_not]
          exact ⟨hsub k, same_keys ha.1 h1 hsub k⟩
        · obtain ⟨w', hw', he⟩ := h2 (k, v) (PyDict.mem_of_get? hv)
          rw [hw] at hw'
          injection hw' with hw'
          exact hw' ▸ he
      · intro h
        cases h with
        | num hv hw => simp [Val.num?] at hv
        | dict h1 h2 =>
          have hk : ∀ k, k ∈ a.map Prod.fst ↔ k ∈ b.map Prod.fst := fun k => by
            have := h1 k
            rwa [get?_none_iff, get?_none_iff, not_iff_not] at this
          refine ⟨?_, fun kv hm => ?_⟩
          · have := (List.perm_ext_iff_of_nodup ha.1 hb.1).2 hk
            simpa using this.length_eq
          · have hg := PyDict.get?_of_mem ha.1 hm
            cases hw : PyDict.get? b kv.1 with
            | none => rw [(h1 kv.1).2 hw] at hg; cases hg
            | some w => exact ⟨w, rfl, h2 kv.1 kv.2 w hg hw⟩
    all_goals
      simp only [eqv, Bool.false_eq_true, false_iff]
      intro h
      cases h with
      | num hv hw => simp [Val.num?] at hv
  | .none, w, _, _ => by
    cases w <;> simp only [eqv, Bool.false_eq_true, false_iff, true_iff]
    · exact .none
    all_goals
      intro h
      cases h with
      | num hv hw => simp [Val.num?] at hv
  | .str s, w, _, _ => by
    cases w <;> simp only [eqv, Bool.false_eq_true, false_iff, beq_iff_eq]
    case str t =>
      constructor
      · rintro rfl; exact .str _
      · intro h
        cases h with
        | num hv hw => simp [Val.num?] at hv
        | str => rfl
    all_goals
      intro h
      cases h with
      | num hv hw => simp [Val.num?] at hv
  | .pattern s, w, _, _ => by
    cases w <;> simp only [eqv, Bool.false_eq_true, false_iff, beq_iff_eq]
    case pattern t =>
      constructor
      · rintro rfl; exact .pattern _
      · intro h
        cases h with
        | num hv hw => simp [Val.num?] at hv
        | pattern => rfl
    all_goals
      intro h
      cases h with
      | num hv hw => simp [Val.num?] at hv
  | .rng s, w, _, _ => by
    cases w <;> simp only [eqv, Bool.false_eq_true, false_iff, beq_iff_eq]
    case rng t =>
      constructor
      · exact fun h => .rng h
      · intro h
        cases h with
        | num hv hw => simp [Val.num?] at hv
        | rng h => exact h
    all_goals
      intro h
      cases h with
      | num hv hw => simp [Val.num?] at hv
  | .array l, _, h, _ => by rw [tidy] at h; cases h
  | .bool b, w, _, hw => by
    cases w <;> simp only [eqv, Bool.false_eq_true, false_iff, beq_iff_eq]
    case bool c =>
      constructor
      · rintro rfl; exact .num (q := (b.toInt : ℚ)) rfl rfl
      · intro h
        cases h with
        | num hv hw =>
          simp only [Val.num?, Option.some.injEq] at hv hw
          rw [← hw] at hv
          revert hv
          cases b <;> cases c <;> simp
    case int c =>
      constructor
      · intro h; exact .num (q := (b.toInt : ℚ)) rfl (by rw [← h]; rfl)
      · intro h
        cases h with
        | num hv hw =>
          simp only [Val.num?, Option.some.injEq] at hv hw
          rw [← hw] at hv
          exact_mod_cast hv
    case float c =>
      constructor
      · intro h; exact .num (q := (b.toInt : ℚ)) rfl (by rw [← h]; rfl)
      · intro h
        cases h with
        | num hv hw =>
          simp only [Val.num?, Option.some.injEq] at hv hw
          rw [← hw] at hv
          exact hv
    all_goals
      intro h
      cases h with
      | num hv hw => simp [Val.num?] at hw
  | .int b, w, _, hw => by
    cases w <;> simp only [eqv, Bool.false_eq_true, false_iff, beq_iff_eq]
    case bool c =>
      constructor
      · intro h; exact .num (q := (b : ℚ)) rfl (by rw [h]; rfl)
      · intro h
        cases h with
        | num hv hw =>
          simp only [Val.num?, Option.some.injEq] at hv hw
          rw [← hw] at hv
          exact_mod_cast hv
    case int c =>
      constructor
      · intro h; exact .num (q := (b : ℚ)) rfl (by rw [h]; rfl)
      · intro h
        cases h with
        | num hv hw =>
          simp only [Val.num?, Option.some.injEq] at hv hw
          rw [← hw] at hv
          exact_mod_cast hv
    case float c =>
      constructor
      · intro h; exact .num (q := (b : ℚ)) rfl (by rw [← h]; rfl)
      · intro h
        cases h with
        | num hv hw =>
          simp only [Val.num?, Option.some.injEq] at hv hw
          rw [← hw] at hv
          exact hv
    all_goals
      intro h
      cases h with
      | num hv hw => simp [Val.num?] at hw
  | .float b, w, _, hw => by
    cases w <;> simp only [eqv, Bool.false_eq_true, false_iff, beq_iff_eq]
    case bool c =>
      constructor
      · intro h; exact .num (q := b) rfl (by rw [h]; rfl)
      · intro h
        cases h with
        | num hv hw =>
          simp only [Val.num?, Option.some.injEq] at hv hw
          rw [← hw] at hv
          exact hv
    case int c =>
      constructor
      · intro h; exact .num (q := b) rfl (by rw [h]; rfl)
      · intro h
        cases h with
        | num hv hw =>
          simp only [Val.num?, Option.some.injEq] at hv hw
          rw [← hw] at hv
          exact hv
    case float c =>
      constructor
      · intro h; exact .num (q := b) rfl (by rw [← h]; rfl)
      · intro h
        cases h with
        | num hv hw =>
          simp only [Val.num?, Option.some.injEq] at hv hw
          rw [← hw] at hv
          exact hv
    all_goals
      intro h
      cases h with
      | num hv hw => simp [Val.num?] at hw
theorem eqvList_iff : ∀ a b : List Val, tidyList a = true → tidyList b = true →
    (eqvList a b = true ↔ a.length = b.length ∧ ∀ (i : ℕ) v w, a[i]? = some v → b[i]? = some w → PyEq v w)
  | [], [], _, _ => by simp [eqvList]
  | [], _ :: _, _, _ => by simp [eqvList]
  | _ :: _, [], _, _ => by simp [eqvList]
  | v :: t, w :: u, ha, hb => by
    rw [tidyList, Bool.and_eq_true] at ha hb
    rw [eqvList, Bool.and_eq_true, eqv_iff v w ha.1 hb.1, eqvList_iff t u ha.2 hb.2]
    constructor
    · rintro ⟨h1, h2, h3⟩
      refine ⟨by simp [h2], fun i x y hx hy => ?_⟩
      cases i with
      | zero =>
        simp only [List.getElem?_cons_zero, Option.some.injEq] at hx hy
        exact hx ▸ hy ▸ h1
      | succ i => exact h3 i x y (by simpa using hx) (by simpa using hy)
    · rintro ⟨h1, h2⟩
      exact ⟨h2 0 v w (by simp) (by simp), by simpa using h1, fun i x y hx hy => h2 (i + 1) x y (by simpa using hx)
        (by simpa using hy)⟩
theorem eqvDict_iff : ∀ a b : List (String × Val), tidyDict a = true → tidyDict b = true →
    (eqvDict a b = true ↔ ∀ kv ∈ a, ∃ w, PyDict.get? b kv.1 = some w ∧ PyEq kv.2 w)
  | [], b, _, _ => by simp [eqvDict]
  | (k, v) :: t, b, ha, hb => by
    rw [tidyDict, Bool.and_eq_true] at ha
    rw [eqvDict, Bool.and_eq_true, eqvDict_iff t b ha.2 hb, List.forall_mem_cons]
    refine and_congr_left fun _ => ?_
    cases hw : PyDict.get? b k with
    | none => simp
    | some w =>
      simp only [Option.some.injEq, exists_eq_left']
      exact eqv_iff v w ha.1 (tidyDict_get hb hw)
end

theorem tidyDict_of : ∀ {d : List (String × Val)}, PyDict.WF d → Tidy d → tidyDict d = true
  | [], _, _ => by rw [tidyDict]
  | (k, v) :: t, hw, h => by
    have hw' : (k :: t.map Prod.fst).Nodup := hw
    rw [tidyDict, Bool.and_eq_true]
    refine ⟨h k v (by simp [PyDict.get?_cons]), tidyDict_of (List.nodup_cons.1 hw').2 fun k' v' hk => ?_⟩
    refine h k' v' ?_
    rw [PyDict.get?_cons, if_neg]
    · exact hk
    · rintro rfl
      exact (List.nodup_cons.1 hw').1 (List.mem_map.2 ⟨_, PyDict.mem_of_get? hk, rfl⟩)

theorem paramsEq_iff {a b : Params} (wa : PyDict.WF a) (wb : PyDict.WF b) (ha : Tidy a) (hb : Tidy b) :
    paramsEq a b = true ↔ EqParams a b := by
  unfold paramsEq
  rw [eqv_iff _ _ (by rw [tidy, Bool.and_eq_true]; exact ⟨decide_eq_true wa, tidyDict_of wa ha⟩)
    (by rw [tidy, Bool.and_eq_true]; exact ⟨decide_eq_true wb, tidyDict_of wb hb⟩)]
  constructor
  · intro h
    cases h with
    | num hv hw => simp [Val.num?] at hv
    | dict h1 h2 => exact ⟨h1, h2⟩
  · rintro ⟨h1, h2⟩; exact .dict h1 h2

theorem get?_mapping (m : PyDict String ℕ) (k : String) :
    PyDict.get? (m.map fun kv => (kv.1, Val.int kv.2)) k = (PyDict.get? m k).map fun n => .int n := by
  induction m with
  | nil => simp [PyDict.get?]
  | cons p m ih =>
    rw [List.map_cons, PyDict.get?_cons, PyDict.get?_cons]
    split_ifs
    · rfl
    · exact ih

theorem mappingEq_iff {a b : PyDict String ℕ} (wa : PyDict.WF a) (wb : PyDict.WF b) :
    eqv (mappingVal a) (mappingVal b) = true ↔ ∀ l, PyDict.get? a l = PyDict.get? b l := by
  have hw : ∀ {d : PyDict String ℕ}, PyDict.WF d → PyDict.WF (d.map fun kv => (kv.1, Val.int kv.2)) := by
    intro d hd
    unfold PyDict.WF PyDict.keys at hd ⊢
    rw [List.map_map]
    exact hd
  have ht : ∀ d : PyDict String ℕ, Tidy (d.map fun kv => (kv.1, Val.int kv.2)) := by
    intro d k v h
    rw [get?_mapping, Option.map_eq_some_iff] at h
    obtain ⟨n, -, rfl⟩ := h
    simp [tidy]
  have := paramsEq_iff (hw wa) (hw wb) (ht a) (ht b)
  unfold paramsEq at this
  unfold mappingVal
  rw [this]
  unfold EqParams
  simp only [get?_mapping, Option.map_eq_none_iff]
  constructor
  · rintro ⟨h1, h2⟩ l
    cases hx : PyDict.get? a l with
    | none => exact ((h1 l).1 hx).symm
    | some x =>
      cases hy : PyDict.get? b l with
      | none => rw [(h1 l).2 hy] at hx; cases hx
      | some y =>
        have := h2 l (.int x) (.int y) (by rw [hx]; rfl) (by rw [hy]; rfl)
        cases this with
        | num hv hw =>
          simp only [Val.num?, Option.some.injEq] at hv hw
          rw [← hw] at hv
          have : (x : ℤ) = y := by exact_mod_cast hv
          rw [Int.natCast_inj.1 this]
  · intro h
    refine ⟨fun k => by rw [h k], fun k v w hv hw => ?_⟩
    rw [h k, hw] at hv
    injection hv with hv
    subst hv
    rw [Option.map_eq_some_iff] at hw
    obtain ⟨n, -, rfl⟩ := hw
    exact .num (q := ((n : ℤ) : ℚ)) rfl rfl

end Verif.LabelerDisk
