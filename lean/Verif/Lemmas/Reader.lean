import Verif.Model.Reader
import Verif.Spec.Reader
import Verif.Lemmas.PyDict
import Mathlib.Tactic.SplitIfs

namespace Verif.Reader

open Verif Verif.Spec.Reader

theorem typeOf_typeName (k : Kind) : typeOf (typeName k) = some k := by cases k <;> decide

theorem typeName_of (s : String) (k : Kind) (h : typeOf s = some k) : s = typeName k := by
  unfold typeOf at h
  split_ifs at h <;> (cases h; assumption)

theorem fits_iff (ty : String) (k : Kind) : Fits ty k ↔ (ty = "" ∨ ty = typeName k) := by
  constructor
  · rintro (h | h)
    · exact .inl h
    · exact .inr (typeName_of _ _ h)
  · rintro (h | h)
    · exact .inl h
    · exact .inr (h ▸ typeOf_typeName k)

/-- What the loop may do with a file. -/
def Outcome (L : Lib) (s : Src) (ty : String) (o : Opts) (ks : List Kind) (x : Except Err Obj) : Prop :=
    (∃ pre k post r, ks = pre ++ k :: post ∧ Fits ty k ∧ isMatch L k s o = .ok (true, r) ∧
      (∀ k' ∈ pre, Fits ty k' → ∃ o', isMatch L k' s o = .ok (false, o')) ∧ x = construct L k (some s) none (some r)) ∨
    (∃ pre k post e, ks = pre ++ k :: post ∧ Fits ty k ∧ isMatch L k s o = .error e ∧
      (∀ k' ∈ pre, Fits ty k' → ∃ o', isMatch L k' s o = .ok (false, o')) ∧ x = .error e) ∨
    ((∀ k' ∈ ks, Fits ty k' → ∃ o', isMatch L k' s o = .ok (false, o')) ∧ x = .error .valueError)

theorem pick_file (L : Lib) (s : Src) (ty : String) (o : Opts) (ks : List Kind) (x : Except Err Obj)
    (h : pick L (some s) none ty o ks = x) : Outcome L s ty o ks x := by
  induction ks with
  | nil => exact .inr (.inr ⟨by simp, h.symm⟩)
  | cons k ks ih =>
    have step : pick L (some s) none ty o ks = x → (Fits ty k → ∃ o', isMatch L k s o = .ok (false, o')) →
        Outcome L s ty o (k :: ks) x := fun h' hk => by
      rcases ih h' with ⟨pre, k1, post, r, h1, h2, h3, h4, h5⟩ | ⟨pre, k1, post, e, h1, h2, h3, h4, h5⟩ | ⟨h1, h2⟩
      · refine Or.inl ⟨k :: pre, k1, post, r, by rw [h1]; rfl, h2, h3, ?_, h5⟩
        intro k' hk' hf
        rcases List.mem_cons.1 hk' with rfl | hk'
        · exact hk hf
        · exact h4 k' hk' hf
      · refine Or.inr (Or.inl ⟨k :: pre, k1, post, e, by rw [h1]; rfl, h2, h3, ?_, h5⟩)
        intro k' hk' hf
        rcases List.mem_cons.1 hk' with rfl | hk'
        · exact hk hf
        · exact h4 k' hk' hf
      · refine Or.inr (Or.inr ⟨?_, h2⟩)
        intro k' hk' hf
        rcases List.mem_cons.1 hk' with rfl | hk'
        · exact hk hf
        · exact h1 k' hk' hf
    rw [pick] at h
    by_cases hf : ty = "" ∨ ty = typeName k
    · rw [if_pos hf] at h
      have hfit := (fits_iff ty k).2 hf
      cases hm : isMatch L k s o with
      | error e =>
        rw [hm] at h
        exact .inr (.inl ⟨[], k, ks, e, rfl, hfit, hm, by simp, h.symm⟩)
      | ok r =>
        obtain ⟨b, r⟩ := r
        rw [hm] at h
        cases b with
        | true => exact .inl ⟨[], k, ks, r, rfl, hfit, hm, by simp, h.symm⟩
        | false => exact step h fun _ => ⟨r, hm⟩
    · rw [if_neg hf] at h
      exact step h fun hf' => absurd ((fits_iff ty k).1 hf') hf

theorem classes_split {pre post : List Kind} {k : Kind} (h : classes = pre ++ k :: post) (k' : Kind) :
    k' ∈ pre ↔ rank k' < rank k := by
  have hlen : pre.length < 6 := by
    have := congrArg List.length h
    simp [classes] at this
    omega
  have hk : classes[pre.length]? = some k := by rw [h]; simp
  have hp : pre = classes.take pre.length := by rw [h]; simp
  rw [hp]
  generalize pre.length = n at hlen hk
  have : n = 0 ∨ n = 1 ∨ n = 2 ∨ n = 3 ∨ n = 4 ∨ n = 5 := by omega
  rcases this with rfl | rfl | rfl | rfl | rfl | rfl <;> simp only [classes] at hk <;>
    (cases hk; cases k' <;> decide)

theorem mem_classes (k : Kind) : k ∈ classes := by cases k <;> decide

/-- The same with the order of the specification. -/
theorem pick_classes (L : Lib) (s : Src) (ty : String) (o : Opts) (x : Except Err Obj)
    (h : pick L (some s) none ty o classes = x) :
    (∃ k r, Chosen (fun k => isMatch L k s o) ty k r ∧ x = construct L k (some s) none (some r)) ∨
    (∃ k e, Fails (fun k => isMatch L k s o) ty k e ∧ x = .error e) ∨
    (Refused (fun k => isMatch L k s o) ty ∧ x = .error .valueError) := by
  rcases pick_file L s ty o classes x h with ⟨pre, k, post, r, h1, h2, h3, h4, h5⟩ | ⟨pre, k, post, e, h1, h2, h3, h4, h5⟩ | ⟨h1, h2⟩
  · exact .inl ⟨k, r, ⟨h2, h3, fun k' hr hf => h4 k' ((classes_split h1 k').2 hr) hf⟩, h5⟩
  · exact .inr (.inl ⟨k, e, ⟨h2, h3, fun k' hr hf => h4 k' ((classes_split h1 k').2 hr) hf⟩, h5⟩)
  · exact .inr (.inr ⟨fun k hf => h1 k (mem_classes k) hf, h2⟩)

theorem rank_inj {k k' : Kind} (h : rank k = rank k') : k = k' := by
  cases k <;> cases k' <;> first | rfl | exact absurd h (by decide)

theorem chosen_unique {a : Kind → Except Err (Bool × Opts)} {ty : String} {k k' : Kind} {o o' : Opts}
    (h : Chosen a ty k o) (h' : Chosen a ty k' o') : k = k' ∧ o = o' := by
  have : k = k' := by
    apply rank_inj
    rcases Nat.lt_trichotomy (rank k) (rank k') with hl | he | hl
    · obtain ⟨_, hx⟩ := h'.2.2 k hl h.1
      rw [h.2.1] at hx; cases hx
    · exact he
    · obtain ⟨_, hx⟩ := h.2.2 k' hl h'.1
      rw [h'.2.1] at hx; cases hx
  subst this
  have := h.2.1.symm.trans h'.2.1
  cases this
  exact ⟨rfl, rfl⟩

theorem chosen_not_fails {a : Kind → Except Err (Bool × Opts)} {ty : String} {k k' : Kind} {o : Opts} {e : Err}
    (h : Chosen a ty k o) (h' : Fails a ty k' e) : False := by
  rcases Nat.lt_trichotomy (rank k) (rank k') with hl | he | hl
  · obtain ⟨_, hx⟩ := h'.2.2 k hl h.1
    rw [h.2.1] at hx; cases hx
  · cases rank_inj he
    have := h.2.1.symm.trans h'.2.1
    cases this
  · obtain ⟨_, hx⟩ := h.2.2 k' hl h'.1
    rw [h'.2.1] at hx; cases hx

theorem fails_unique {a : Kind → Except Err (Bool × Opts)} {ty : String} {k k' : Kind} {e e' : Err}
    (h : Fails a ty k e) (h' : Fails a ty k' e') : e = e' := by
  have : k = k' := by
    apply rank_inj
    rcases Nat.lt_trichotomy (rank k) (rank k') with hl | he | hl
    · obtain ⟨_, hx⟩ := h'.2.2 k hl h.1
      rw [h.2.1] at hx; cases hx
    · exact he
    · obtain ⟨_, hx⟩ := h.2.2 k' hl h'.1
      rw [h'.2.1] at hx; cases hx
  subst this
  have := h.2.1.symm.trans h'.2.1
  cases this
  rfl

theorem pick_mem (L : Lib) (src : Option Src) (m : Mem) (ty : String) (hty : ty ≠ "") (o : Opts) :
    pick L src (some m) ty o classes =
      match typeOf ty with
      | some k => construct L k src (some m) (some o)
      | none => .error .valueError := by
  have hf : ∀ k, (ty = "" ∨ ty = typeName k) ↔ typeOf ty = some k := fun k => by
    rw [← fits_iff]; simp [Fits, hty]
  have hp : ∀ ks, pick L src (some m) ty o ks =
      match ks.find? (fun k => decide (typeOf ty = some k)) with
      | some k => construct L k src (some m) (some o)
      | none => .error .valueError := by
    intro ks
    induction ks with
    | nil => rfl
    | cons k ks ih =>
      rw [pick, List.find?_cons]
      by_cases h : typeOf ty = some k
      · rw [if_pos ((hf k).2 h), decide_eq_true h]
      · rw [if_neg (fun h' => h ((hf k).1 h')), decide_eq_false h]
        exact ih
  rw [hp]
  cases ht : typeOf ty with
  | none =>
    have : classes.find? (fun k => decide ((none : Option Kind) = some k)) = none := by decide
    rw [this]
  | some k =>
    have : classes.find? (fun k' => decide ((some k : Option Kind) = some k')) = some k := by cases k <;> decide
    rw [this]

theorem legal_iff (o : Opts) (hw : PyDict.WF o) (k : String) (ok : V → Bool) :
    legal o k ok = true ↔ ∀ v, (k, v) ∈ o → ok v = true := by
  unfold legal
  cases h : PyDict.get? o k with
  | none =>
    simp only [true_iff]
    intro v hv
    have := PyDict.get?_of_mem hw hv
    rw [h] at this; cases this
  | some w =>
    constructor
    · intro hok v hv
      have := PyDict.get?_of_mem hw hv
      rw [h] at this
      cases this
      exact hok
    · intro hall
      exact hall w (PyDict.mem_of_get? h)

theorem countOk_iff (v : V) : countOk v = true ↔ Natural v := by
  cases v <;> simp [countOk, Natural]
  rename_i i
  constructor
  · intro h
    exact ⟨i.toNat, by omega⟩
  · rintro ⟨n, rfl⟩; omega

theorem headerOk_iff (v : V) : headerOk v = true ↔ v = .none ∨ v = .str "auto" ∨ Natural v := by
  cases v <;> simp [headerOk, Natural]
  rename_i i
  constructor
  · intro h
    exact ⟨i.toNat, by omega⟩
  · rintro ⟨n, rfl⟩; omega

theorem csvOptionsOk_iff (o : Opts) (hw : PyDict.WF o) : csvOptionsOk o = true ↔ LegalCsv o := by
  unfold csvOptionsOk LegalCsv
  simp only [Bool.and_eq_true, legal_iff o hw, and_assoc, countOk_iff, headerOk_iff]
  have hd : ∀ v, delimiterOk v = true ↔ v = .none ∨ ∃ s, v = .str s := by intro v; cases v <;> simp [delimiterOk]
  have hf : ∀ v, formatOk v = true ↔ v = .str "dataframe" ∨ v = .str "records" := by intro v; cases v <;> simp [formatOk]
  have hc : ∀ v, columnsOk v = true ↔ ∃ l, v = .strs l := by intro v; cases v <;> simp [columnsOk]
  simp only [hd, hf, hc]

theorem mem_formats (k : Kind) (s : String) : s ∈ formats k ↔ offers k s := by
  cases k <;> simp [formats, offers]

end Verif.Reader
