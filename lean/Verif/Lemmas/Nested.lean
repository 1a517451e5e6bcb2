import Verif.Spec.Nested
import Verif.Lemmas.PyDict

namespace Verif.Nested

open Verif

variable {A : Type}

@[simp] theorem at?_nil (v : NV A) : v.at? [] = some v := by
  cases v <;> rfl
@[simp] theorem at?_leaf_cons (a : A) (k p) : (NV.leaf a).at? (k :: p) = none := rfl
theorem at?_dict_cons (d : PyDict String (NV A)) (k p) :
    (NV.dict d).at? (k :: p) = (PyDict.get? d k).bind fun v => v.at? p := rfl

theorem get?_append {K V : Type} [DecidableEq K] (a b : PyDict K V) (k : K) :
    PyDict.get? (a ++ b) k = (PyDict.get? a k).or (PyDict.get? b k) := by
  induction a with
  | nil => simp
  | cons p a ih =>
    obtain ⟨k', v⟩ := p
    simp only [List.cons_append, PyDict.get?_cons]
    split
    · simp
    · exact ih

theorem get?_filter {K V : Type} [DecidableEq K] (f : K → Bool) (d : PyDict K V) (k : K) :
    PyDict.get? (d.filter fun kv => f kv.1) k = if f k then PyDict.get? d k else none := by
  induction d with
  | nil => simp
  | cons p d ih =>
    obtain ⟨k', v⟩ := p
    simp only [List.filter_cons, PyDict.get?_cons]
    by_cases hk : k' = k
    · subst hk
      by_cases hf : f k'
      · simp [hf, PyDict.get?_cons]
      · simp [hf, ih]
    · by_cases hf : f k'
      · simp [hf, PyDict.get?_cons, hk, ih]
      · simp [hf, hk, ih]

theorem addItems_cons [Add A] (k v) (rest d2 : PyDict String (NV A)) :
    addItems ((k, v) :: rest) d2 =
      ((match PyDict.get? d2 k with
        | some w => addVal v w
        | none => Except.ok v) >>= fun r => addItems rest d2 >>= fun rs => .ok ((k, r) :: rs)) := by
  rw [addItems]
  cases PyDict.get? d2 k <;> rfl

/-- One-level description of `addItems`. -/
theorem addItems_get [Add A] : ∀ (d1 d2 m : PyDict String (NV A)), addItems d1 d2 = .ok m →
    PyDict.keys m = PyDict.keys d1 ∧
    ∀ k, match PyDict.get? d1 k with
      | none => PyDict.get? m k = none
      | some v => match PyDict.get? d2 k with
        | none => PyDict.get? m k = some v
        | some w => ∃ r, addVal v w = .ok r ∧ PyDict.get? m k = some r := by
  intro d1
  induction d1 with
  | nil =>
    intro d2 m h
    simp [addItems] at h
    subst h
    simp
  | cons p rest ih =>
    obtain ⟨k', v⟩ := p
    intro d2 m h
    rw [addItems_cons] at h
    cases hr : (match PyDict.get? d2 k' with
        | some w => addVal v w
        | none => Except.ok v : Except Err (NV A)) with
    | error e => rw [hr] at h; simp [bind, Except.bind] at h
    | ok r =>
      rw [hr] at h
      cases hrs : addItems rest d2 with
      | error e => rw [hrs] at h; simp [bind, Except.bind] at h
      | ok rs =>
        rw [hrs] at h
        simp only [bind, Except.bind, Except.ok.injEq] at h
        subst h
        obtain ⟨hk, hg⟩ := ih d2 rs hrs
        refine ⟨by simp [PyDict.keys] at hk ⊢; exact hk, ?_⟩
        intro k
        rw [PyDict.get?_cons, PyDict.get?_cons]
        by_cases hkk : k' = k
        · subst hkk
          simp only [if_true]
          cases h2 : PyDict.get? d2 k' with
          | none => rw [h2] at hr; simp at hr; simp [hr]
          | some w => rw [h2] at hr; simp at hr; simp [hr]
        · simp only [if_neg hkk]
          exact hg k

theorem addVal_dict_inv [Add A] {d1 d2 : PyDict String (NV A)} {m : NV A}
    (h : addVal (.dict d1) (.dict d2) = .ok m) :
    ∃ i, addItems d1 d2 = .ok i ∧
      m = .dict (i ++ d2.filter fun kv => !PyDict.has d1 kv.1) := by
  unfold addVal at h
  cases hi : addItems d1 d2 with
  | error e => rw [hi] at h; simp [bind, Except.bind] at h
  | ok i =>
    rw [hi] at h
    simp only [bind, Except.bind, Except.ok.injEq] at h
    exact ⟨i, rfl, h.symm⟩

/-- One-level description of the merged dictionary. -/
theorem addVal_dict_get [Add A] {d1 d2 m : PyDict String (NV A)}
    (h : addVal (.dict d1) (.dict d2) = .ok (.dict m)) (k : String) :
    match PyDict.get? d1 k, PyDict.get? d2 k with
      | none, o => PyDict.get? m k = o
      | some v, none => PyDict.get? m k = some v
      | some v, some w => ∃ r, addVal v w = .ok r ∧ PyDict.get? m k = some r := by
  obtain ⟨i, hi, hm⟩ := addVal_dict_inv h
  cases hm
  obtain ⟨_, hg⟩ := addItems_get d1 d2 i hi
  have hg := hg k
  rw [get?_append, get?_filter (fun k => !PyDict.has d1 k)]
  cases h1 : PyDict.get? d1 k with
  | none =>
    rw [h1] at hg
    simp only at hg
    simp [hg, PyDict.has, h1]
  | some v =>
    rw [h1] at hg
    simp only at hg
    cases h2 : PyDict.get? d2 k with
    | none => rw [h2] at hg; simp only at hg; simp [hg]
    | some w =>
      rw [h2] at hg; simp only at hg
      obtain ⟨r, hr, hg⟩ := hg
      exact ⟨r, hr, by simp [hg]⟩

theorem addVal_shape [Add A] {v w m : NV A} (h : addVal v w = .ok m) :
    (∃ a b, v = .leaf a ∧ w = .leaf b ∧ m = .leaf (a + b)) ∨
    (∃ d1 d2 d, v = .dict d1 ∧ w = .dict d2 ∧ m = .dict d) := by
  cases v with
  | leaf a =>
    cases w with
    | leaf b => left; unfold addVal at h; cases h; exact ⟨a, b, rfl, rfl, rfl⟩
    | dict d => unfold addVal at h; cases h
  | dict d1 =>
    cases w with
    | leaf b => unfold addVal at h; cases h
    | dict d2 =>
      right
      obtain ⟨i, _, hm⟩ := addVal_dict_inv h
      exact ⟨d1, d2, _, rfl, rfl, hm⟩

theorem addVal_at [Add A] : ∀ (p : List String) (v w m : NV A), addVal v w = .ok m →
    m.leafAt p = addOpt (v.leafAt p) (w.leafAt p) ∧
    (m.DictAt p ↔ v.DictAt p ∨ w.DictAt p) ∧
    ¬ ((v.leafAt p).isSome ∧ w.DictAt p) ∧ ¬ (v.DictAt p ∧ (w.leafAt p).isSome) := by
  intro p
  induction p with
  | nil =>
    intro v w m h
    rcases addVal_shape h with ⟨a, b, rfl, rfl, rfl⟩ | ⟨d1, d2, d, rfl, rfl, rfl⟩ <;>
      simp [NV.leafAt, NV.DictAt, addOpt]
  | cons k p ih =>
    intro v w m h
    rcases addVal_shape h with ⟨a, b, rfl, rfl, rfl⟩ | ⟨d1, d2, d, rfl, rfl, rfl⟩
    · simp [NV.leafAt, NV.DictAt, addOpt]
    · have hg := addVal_dict_get h k
      simp only [NV.leafAt, NV.DictAt, at?_dict_cons]
      cases h1 : PyDict.get? d1 k with
      | none =>
        rw [h1] at hg; simp only at hg
        rw [hg]
        cases h2 : PyDict.get? d2 k with
        | none => simp [addOpt]
        | some w' =>
          simp only [Option.bind_none, Option.bind_some]
          refine ⟨?_, by simp, by simp, by simp⟩
          split <;> simp [addOpt]
      | some v' =>
        rw [h1] at hg
        cases h2 : PyDict.get? d2 k with
        | none =>
          rw [h2] at hg; simp only at hg
          rw [hg]
          simp only [Option.bind_none, Option.bind_some]
          refine ⟨?_, by simp, by simp, by simp⟩
          split <;> simp [addOpt]
        | some w' =>
          rw [h2] at hg; simp only at hg
          obtain ⟨r, hr, hg⟩ := hg
          rw [hg]
          simp only [Option.bind_some]
          exact ih v' w' r hr

theorem WF_sub {d : PyDict String (NV A)} (h : (NV.dict d).WF) {k v}
    (hk : PyDict.get? d k = some v) : v.WF := by
  intro p d' hp
  exact h (k :: p) d' (by rw [at?_dict_cons, hk]; exact hp)

theorem compat_sub {d1 d2 : PyDict String (NV A)} (h : Compatible (.dict d1) (.dict d2)) {k v w}
    (h1 : PyDict.get? d1 k = some v) (h2 : PyDict.get? d2 k = some w) : Compatible v w := by
  intro p
  have := h (k :: p)
  simpa only [NV.leafAt, NV.DictAt, at?_dict_cons, h1, h2, Option.bind_some] using this

/-- Compatible values can be added. -/
theorem addVal_ok [Add A] (v w : NV A) (hv : v.WF) (hc : Compatible v w) :
    ∃ m, addVal v w = .ok m := by
  revert hv hc
  refine addVal.induct (motive_2 := fun v w => v.WF → Compatible v w → ∃ m, addVal v w = .ok m)
    (motive_1 := fun d1 d2 =>
      PyDict.WF d1 →
      (∀ k v w, PyDict.get? d1 k = some v → PyDict.get? d2 k = some w → Compatible v w) →
      (∀ k v, PyDict.get? d1 k = some v → v.WF) → ∃ m, addItems d1 d2 = .ok m)
    ?_ ?_ ?_ ?_ ?_ ?_ ?_ v w
  · intro a b _ _; exact ⟨_, by unfold addVal; rfl⟩
  · intro d1 d2 ih hv hc
    obtain ⟨m, hm⟩ := ih (hv [] d1 (by simp)) (fun k v w h1 h2 => compat_sub hc h1 h2)
      (fun k v h => WF_sub hv h)
    refine ⟨.dict (m ++ List.filter (fun kv => !PyDict.has d1 kv.1) d2), ?_⟩
    unfold addVal
    rw [hm]; rfl
  · intro d b _ hc; exact absurd ⟨⟨d, by simp⟩, by simp [NV.leafAt]⟩ (hc []).2
  · intro a d _ hc; exact absurd ⟨by simp [NV.leafAt], ⟨d, by simp⟩⟩ (hc []).1
  · intros; exact ⟨[], by unfold addItems; rfl⟩
  · intro k v rest second w hw ihrest ihv
    intro hwf hcomp hsub
    have hwf' : PyDict.WF rest := (List.nodup_cons.1 hwf).2
    have hnk : k ∉ PyDict.keys rest := (List.nodup_cons.1 hwf).1
    obtain ⟨r, hr⟩ := ihv (hsub k v (by simp [PyDict.get?_cons]))
      (hcomp k v w (by simp [PyDict.get?_cons]) hw)
    have key : ∀ k' v', PyDict.get? rest k' = some v' →
        PyDict.get? ((k, v) :: rest) k' = some v' := by
      intro k' v' h'
      rw [PyDict.get?_cons, if_neg]
      · exact h'
      · rintro rfl
        exact hnk ((PyDict.mem_keys_iff _ _).2 ⟨v', h'⟩)
    obtain ⟨rs, hrs⟩ := ihrest hwf' (fun k' v' w' h1 h2 => hcomp k' v' w' (key _ _ h1) h2)
      (fun k' v' h' => hsub k' v' (key _ _ h'))
    exact ⟨_, by rw [addItems_cons, hw]; simp only; rw [hr, hrs]; rfl⟩
  · intro k v rest second hw ihrest
    intro hwf hcomp hsub
    have hwf' : PyDict.WF rest := (List.nodup_cons.1 hwf).2
    have hnk : k ∉ PyDict.keys rest := (List.nodup_cons.1 hwf).1
    have key : ∀ k' v', PyDict.get? rest k' = some v' →
        PyDict.get? ((k, v) :: rest) k' = some v' := by
      intro k' v' h'
      rw [PyDict.get?_cons, if_neg]
      · exact h'
      · rintro rfl
        exact hnk ((PyDict.mem_keys_iff _ _).2 ⟨v', h'⟩)
    obtain ⟨rs, hrs⟩ := ihrest hwf' (fun k' v' w' h1 h2 => hcomp k' v' w' (key _ _ h1) h2)
      (fun k' v' h' => hsub k' v' (key _ _ h'))
    exact ⟨_, by rw [addItems_cons, hw]; simp only; rw [hrs]; rfl⟩

theorem addVal_WF [Add A] : ∀ (p : List String) (v w m : NV A), addVal v w = .ok m →
    v.WF → w.WF → ∀ d, m.at? p = some (.dict d) → PyDict.WF d := by
  intro p
  induction p with
  | nil =>
    intro v w m h hv hw d hd
    simp at hd; subst hd
    rcases addVal_shape h with ⟨a, b, rfl, rfl, h'⟩ | ⟨d1, d2, d', rfl, rfl, h'⟩
    · cases h'
    · cases h'
      obtain ⟨i, hi, hm⟩ := addVal_dict_inv h
      cases hm
      obtain ⟨hk, _⟩ := addItems_get d1 d2 i hi
      unfold PyDict.WF
      have : PyDict.keys (i ++ d2.filter fun kv => !PyDict.has d1 kv.1)
          = PyDict.keys d1 ++ PyDict.keys (d2.filter fun kv => !PyDict.has d1 kv.1) := by
        rw [← hk]; simp [PyDict.keys]
      rw [this, List.nodup_append]
      refine ⟨hv [] d1 (by simp), ?_, ?_⟩
      · have h2 : PyDict.WF d2 := hw [] d2 (by simp)
        exact h2.sublist (List.filter_sublist.map _)
      · intro a ha b hb hab
        subst hab
        simp only [PyDict.keys, List.mem_map, List.mem_filter] at hb
        obtain ⟨⟨k, x⟩, ⟨_, hx⟩, rfl⟩ := hb
        have := (PyDict.has_iff d1 k).2 ha
        simp [this] at hx
  | cons k p ih =>
    intro v w m h hv hw d hd
    rcases addVal_shape h with ⟨a, b, rfl, rfl, h'⟩ | ⟨d1, d2, d', rfl, rfl, h'⟩
    · cases h'; simp at hd
    · cases h'
      have hg := addVal_dict_get h k
      rw [at?_dict_cons] at hd
      cases h1 : PyDict.get? d1 k with
      | none =>
        rw [h1] at hg; simp only at hg
        rw [hg] at hd
        exact hw (k :: p) d (by rw [at?_dict_cons]; exact hd)
      | some v' =>
        rw [h1] at hg
        cases h2 : PyDict.get? d2 k with
        | none =>
          rw [h2] at hg; simp only at hg
          rw [hg] at hd
          exact hv (k :: p) d (by rw [at?_dict_cons, h1]; exact hd)
        | some w' =>
          rw [h2] at hg; simp only at hg
          obtain ⟨r, hr, hg⟩ := hg
          rw [hg] at hd
          exact ih v' w' r hr (WF_sub hv h1) (WF_sub hw h2) d hd

/-! ### recursive update -/

/-- The value that `recursive_dict_update` stores at a key of the update. -/
def merge1 (v : NV A) (o : Option (NV A)) : NV A :=
  match v, o with
  | .dict uv, some (.dict dv) => .dict (updItems dv uv)
  | v, _ => v

theorem updItems_nil (d : PyDict String (NV A)) : updItems d [] = d := by
  unfold updItems; rfl
theorem updItems_cons (d : PyDict String (NV A)) (k v rest) :
    updItems d ((k, v) :: rest) =
      updItems (PyDict.set d k (merge1 v (PyDict.get? d k))) rest := by
  conv => lhs; unfold updItems
  cases v with
  | leaf a => rfl
  | dict uv =>
    cases PyDict.get? d k with
    | none => rfl
    | some w => cases w <;> rfl

theorem updItems_get : ∀ (u d : PyDict String (NV A)), PyDict.WF u → ∀ k,
    PyDict.get? (updItems d u) k = match PyDict.get? u k with
      | none => PyDict.get? d k
      | some v => some (merge1 v (PyDict.get? d k)) := by
  intro u
  induction u with
  | nil => intro d _ k; simp [updItems_nil]
  | cons p rest ih =>
    obtain ⟨k', v⟩ := p
    intro d hwf k
    have hwf' : PyDict.WF rest := (List.nodup_cons.1 hwf).2
    have hnk : k' ∉ PyDict.keys rest := (List.nodup_cons.1 hwf).1
    rw [updItems_cons, ih _ hwf' k, PyDict.get?_cons]
    by_cases hk : k' = k
    · subst hk
      rw [if_pos rfl, (PyDict.get?_eq_none_iff _ _).2 hnk]
      simp [PyDict.get?_set]
    · rw [if_neg hk]
      simp [PyDict.get?_set, hk]

end Verif.Nested
