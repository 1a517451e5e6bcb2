import Verif.Lemmas.LabelerDisk
import Mathlib.Data.List.Nodup
import Mathlib.Tactic.Tauto

/-!
# Lemmas on processors written to disk
-/

namespace Verif.LabelerDisk

open Verif Spec

variable {W : Type}

theorem get?_map_snd (f : String → Val → Val) (d : Params) (k : String) :
    PyDict.get? (d.map fun kv => (kv.1, f kv.1 kv.2)) k = (PyDict.get? d k).map (f k) := by
  induction d with
  | nil => rfl
  | cons kv t ih =>
    rw [List.map_cons, PyDict.get?, PyDict.get?, ih]
    by_cases hc : kv.1 = k
    · rw [if_pos hc, if_pos hc, ← hc]; rfl
    · rw [if_neg hc, if_neg hc]

theorem get?_append_of (a b : Params) (k : String) :
    PyDict.get? (a ++ b) k = if k ∈ PyDict.keys a then PyDict.get? a k else PyDict.get? b k := by
  induction a with
  | nil => simp [PyDict.keys]
  | cons kv t ih =>
    rw [List.cons_append, PyDict.get?, PyDict.get?, ih]
    by_cases hc : kv.1 = k
    · simp [hc, PyDict.keys]
    · by_cases hm : k ∈ PyDict.keys t
      · have : k ∈ PyDict.keys (kv :: t) := by simp [PyDict.keys] at hm ⊢; tauto
        simp [hc, hm, this]
      · have : k ∉ PyDict.keys (kv :: t) := by
          simp [PyDict.keys] at hm ⊢
          exact ⟨fun h => hc h.symm, hm⟩
        simp [hc, hm, this]

theorem argument_fst (E : Env W) (id : ℕ) (kw : Params) (a : String × Val) : (argument E id kw a).1 = a.1 := rfl

theorem keys_arguments (E : Env W) (id : ℕ) (kw args : Params) :
    PyDict.keys (args.map (argument E id kw)) = PyDict.keys args := by
  simp [PyDict.keys, argument_fst, Function.comp_def]

theorem get?_arguments (E : Env W) (id : ℕ) (kw args : Params) (k : String) :
    PyDict.get? (args.map (argument E id kw)) k = (PyDict.get? args k).map fun v =>
      if k = "random_state" then asRng E id ((PyDict.get? kw k).getD v) else (PyDict.get? kw k).getD v :=
  get?_map_snd (fun k v => if k = "random_state" then asRng E id ((PyDict.get? kw k).getD v) else (PyDict.get? kw k).getD v)
    args k

/-- The names of the parameters of a processor. -/
def names (c : ProcCls) : List String := PyDict.keys c.args ++ PyDict.keys c.fixed

theorem names_nodup (c : ProcCls) : (names c).Nodup := by cases c <;> decide

/-- What a single parameter satisfies. -/
def good (c : ProcCls) (k : String) (v : Val) : Prop :=
  match c with
  | .regexPost | .structRegexPost => regexOk [] [] k v = true
  | .structChar => k = "flatten_split" ∨ charOk k v = true
  | _ => charOk k v = true

/-- What all processors satisfy. -/
structure Inv (p : Proc) : Prop where
  keys : PyDict.keys p.params = names p.cls
  good : ∀ k v, PyDict.get? p.params k = some v → good p.cls k v
  inner : p.cls = .structRegexPost → PyDict.get? p.params "aggregation_func" = some (.str "split") ∧
    PyDict.get? p.params "priority_order" = some .none

theorem Inv.wf {p : Proc} (h : Inv p) : PyDict.WF p.params := by
  unfold PyDict.WF; rw [h.keys]; exact names_nodup _

theorem regexOk_weak {old kw : Params} {k : String} {v : Val} (h : regexOk old kw k v = true) : regexOk [] [] k v = true := by
  unfold regexOk at h ⊢
  by_cases h1 : k = "aggregation_func"
  · rw [if_pos h1] at h ⊢; exact h
  rw [if_neg h1] at h ⊢
  by_cases h2 : k = "priority_order"
  · rw [if_pos h2] at h ⊢
    by_cases hn : v.isNone = true
    · rw [if_pos hn]; rfl
    · rw [if_neg hn] at h ⊢; exact h
  rw [if_neg h2] at h ⊢
  exact h

theorem regexOk_name {old kw : Params} {k : String} {v : Val} (h : regexOk old kw k v = true) :
    k ∈ ["aggregation_func", "priority_order", "random_state"] := by
  unfold regexOk at h
  by_cases h1 : k = "aggregation_func"; · simp [h1]
  rw [if_neg h1] at h
  by_cases h2 : k = "priority_order"; · simp [h2]
  rw [if_neg h2] at h
  by_cases h3 : k = "random_state"; · simp [h3]
  rw [if_neg h3] at h
  cases h

theorem mem_del {d : Params} {kv : String × Val} {n : String} (h : kv ∈ d) (hn : kv.1 ≠ n) : kv ∈ PyDict.del d n := by
  induction d with
  | nil => cases h
  | cons a t ih =>
    rw [PyDict.del]
    rcases List.mem_cons.1 h with rfl | h
    · rw [if_neg hn]; simp
    · split_ifs
      · exact h
      · exact List.mem_cons_of_mem _ (ih h)

/-- Accepted parameters are good and are parameters of the class. -/
theorem accepts_good {c : ProcCls} {old kw : Params} (h : accepts c old kw = true) :
    ∀ kv ∈ kw, kv.1 ∈ names c ∧ good c kv.1 kv.2 ∨ (c = .structRegexPost ∧ regexOk [] [] kv.1 kv.2 = true) := by
  intro kv hkv
  cases c with
  | direct => simp [accepts] at h; subst h; cases hkv
  | columnPost => simp [accepts] at h; subst h; cases hkv
  | regexPost =>
    have := List.all_eq_true.1 h kv hkv
    exact .inl ⟨regexOk_name this, regexOk_weak this⟩
  | structRegexPost => exact .inr ⟨rfl, regexOk_weak (List.all_eq_true.1 h kv hkv)⟩
  | structChar =>
    left
    by_cases hn : kv.1 = "flatten_split"
    · exact ⟨by rw [hn]; decide, .inl hn⟩
    · have := List.all_eq_true.1 h kv (mem_del hkv hn)
      rw [Bool.and_eq_true] at this
      exact ⟨List.mem_append_left _ (of_decide_eq_true this.1), .inr this.2⟩
  | char =>
    have := List.all_eq_true.1 h kv hkv
    rw [Bool.and_eq_true] at this
    exact .inl ⟨List.mem_append_left _ (of_decide_eq_true this.1), this.2⟩
  | charEncoded =>
    have := List.all_eq_true.1 h kv hkv
    rw [Bool.and_eq_true] at this
    exact .inl ⟨List.mem_append_left _ (of_decide_eq_true this.1), this.2⟩
  | charPost =>
    have := List.all_eq_true.1 h kv hkv
    rw [Bool.and_eq_true] at this
    exact .inl ⟨List.mem_append_left _ (of_decide_eq_true this.1), this.2⟩
  | structCharPost =>
    have := List.all_eq_true.1 h kv hkv
    rw [Bool.and_eq_true] at this
    exact .inl ⟨List.mem_append_left _ (of_decide_eq_true this.1), this.2⟩

theorem inv_init {E : Env W} {id : ℕ} {c : ProcCls} {kw : Params} {p : Proc} (h : initProc E id c kw = .ok p) : Inv p := by
  unfold initProc at h
  split_ifs at h with h1
  simp only at h
  by_cases h2 : accepts c [] (c.args.map (argument E id kw) ++ c.fixed) = true
  swap
  · rw [if_neg h2] at h; cases h
  rw [if_pos h2] at h
  simp only [Except.ok.injEq] at h
  subst h
  have hk : PyDict.keys (c.args.map (argument E id kw) ++ c.fixed) = names c := by
    unfold names
    rw [← keys_arguments E id kw c.args]
    simp [PyDict.keys]
  refine ⟨hk, fun k v hv => ?_, fun hc => ?_⟩
  · have hm := PyDict.mem_of_get? hv
    rcases accepts_good h2 _ hm with hg | ⟨rfl, hg⟩
    · exact hg.2
    · exact hg
  · simp only at hc
    subst hc
    simp only [get?_append_of, keys_arguments]
    exact ⟨rfl, rfl⟩

theorem inv_foldl {c : ProcCls} (kw : Params) (hkw : ∀ kv ∈ kw, kv.1 ∈ names c ∧ good c kv.1 kv.2) :
    ∀ d : Params, PyDict.keys d = names c → (∀ k v, PyDict.get? d k = some v → good c k v) →
      PyDict.keys (kw.foldl (fun d x => PyDict.set d x.1 x.2) d) = names c ∧
      (∀ k v, PyDict.get? (kw.foldl (fun d x => PyDict.set d x.1 x.2) d) k = some v → good c k v) ∧
      ∀ k, k ∉ PyDict.keys kw → PyDict.get? (kw.foldl (fun d x => PyDict.set d x.1 x.2) d) k = PyDict.get? d k := by
  induction kw with
  | nil => intro d h1 h2; exact ⟨h1, h2, fun _ _ => rfl⟩
  | cons a t ih =>
    intro d h1 h2
    have ha := hkw a (by simp)
    obtain ⟨r1, r2, r3⟩ := ih (fun kv h => hkw kv (by simp [h])) (PyDict.set d a.1 a.2)
      (by rw [PyDict.keys_set, h1, if_pos ha.1]) (fun k v h => by
        rw [PyDict.get?_set] at h
        split_ifs at h with hc
        · injection h with h; subst h; rw [← hc]; exact ha.2
        · exact h2 k v h)
    refine ⟨r1, r2, fun k hk => ?_⟩
    simp only [PyDict.keys, List.map_cons, List.mem_cons, not_or] at hk
    rw [List.foldl_cons, r3 k hk.2, PyDict.get?_set, if_neg (Ne.symm hk.1)]

theorem inv_set {p q : Proc} {kw : Params} (hp : Inv p) (h : p.set kw = .ok q) : Inv q := by
  unfold Proc.set at h
  split_ifs at h with h1 h2 <;> try (cases h; done)
  simp only [Except.ok.injEq] at h
  subst h
  have hkw : ∀ kv ∈ kw, kv.1 ∈ names p.cls ∧ good p.cls kv.1 kv.2 := by
    intro kv hkv
    rcases accepts_good h2 kv hkv with hg | ⟨hc, hg⟩
    · exact hg
    · have hn : kv.1 = "random_state" := by
        by_contra hn
        exact h1 ⟨hc, kv.1, List.mem_map_of_mem hkv, hn⟩
      rw [hc]
      exact ⟨by rw [hn]; decide, hg⟩
  obtain ⟨r1, r2, r3⟩ := inv_foldl kw hkw p.params hp.keys hp.good
  refine ⟨r1, r2, fun hc => ?_⟩
  simp only at hc
  have hn : ∀ k, k ≠ "random_state" → k ∉ PyDict.keys kw := fun k hk hm => h1 ⟨hc, k, hm, hk⟩
  simp only
  rw [r3 _ (hn _ (by decide)), r3 _ (hn _ (by decide))]
  exact hp.inner hc

theorem inv_made {E : Env W} {p : Proc} (h : MadeProc E p) : Inv p := by
  induction h with
  | init h => exact inv_init h
  | set _ h ih => exact inv_set ih h

theorem stored_keys {p : Proc} (h : Inv p) : PyDict.keys p.stored = PyDict.keys p.cls.args := by
  have hk := h.keys
  unfold Proc.stored
  cases hc : p.cls with
  | structChar =>
    simp only
    rw [PyDict.keys_del, hk, hc]; rfl
  | structRegexPost => rfl
  | structCharPost => rw [hc] at hk; simpa [PyDict.keys, Function.comp_def, names, ProcCls.fixed] using hk
  | regexPost => rw [hc] at hk; simpa [PyDict.keys, Function.comp_def, names, ProcCls.fixed] using hk
  | direct => rw [hc] at hk; simpa [names, ProcCls.fixed, PyDict.keys] using hk
  | columnPost => rw [hc] at hk; simpa [names, ProcCls.fixed, PyDict.keys] using hk
  | char => rw [hc] at hk; simpa [names, ProcCls.fixed, PyDict.keys] using hk
  | charEncoded => rw [hc] at hk; simpa [names, ProcCls.fixed, PyDict.keys] using hk
  | charPost => rw [hc] at hk; simpa [names, ProcCls.fixed, PyDict.keys] using hk

/-- What is written for an argument. -/
theorem stored_get {p : Proc} (h : Inv p) {k : String} (hk : k ∈ PyDict.keys p.cls.args) :
    PyDict.get? p.stored k = (PyDict.get? p.params k).map fun v => if k = "random_state" then getState v else v := by
  have hid : ∀ (hr : k ≠ "random_state"), PyDict.get? p.params k =
      (PyDict.get? p.params k).map fun v => if k = "random_state" then getState v else v := by
    intro hr; simp [hr]
  unfold Proc.stored
  cases hc : p.cls with
  | structChar =>
    simp only
    rw [hc] at hk
    rw [PyDict.get?_del h.wf, if_neg (by rintro rfl; revert hk; decide)]
    exact hid (by rintro rfl; revert hk; decide)
  | structRegexPost =>
    simp only
    rw [hc] at hk
    simp [PyDict.keys, ProcCls.args] at hk
    subst hk
    have : PyDict.get? p.params "random_state" ≠ none := by
      rw [Ne, PyDict.get?_eq_none_iff, h.keys, hc]; decide
    cases hv : PyDict.get? p.params "random_state" with
    | none => exact absurd hv this
    | some v => simp [PyDict.get?]
  | structCharPost => exact get?_map_snd (fun k v => if k = "random_state" then getState v else v) _ _
  | regexPost => exact get?_map_snd (fun k v => if k = "random_state" then getState v else v) _ _
  | direct => rw [hc] at hk; exact hid (by rintro rfl; revert hk; decide)
  | columnPost => rw [hc] at hk; exact hid (by rintro rfl; revert hk; decide)
  | char => rw [hc] at hk; exact hid (by rintro rfl; revert hk; decide)
  | charEncoded => rw [hc] at hk; exact hid (by rintro rfl; revert hk; decide)
  | charPost => rw [hc] at hk; exact hid (by rintro rfl; revert hk; decide)

theorem good_rng {c : ProcCls} {v : Val} (h : good c "random_state" v) : ∃ r, v = .rng r := by
  have : v.isRng = true := by
    cases c <;> simp [good, charOk, regexOk] at h <;> exact h
  cases v <;> simp [Val.isRng] at this
  exact ⟨_, rfl⟩

theorem encode_good {c : ProcCls} {k : String} {v w : Val} (h : encode v = .ok w) (hg : good c k v) : good c k w := by
  cases c <;> simp only [good] at hg ⊢ <;> first
    | exact encode_charOk h hg
    | exact encode_regexOk h hg
    | exact hg.imp id (encode_charOk h)

/-- The parameters after loading. -/
def loaded (E : Env W) (id : ℕ) (c : ProcCls) (e : Params) : Params := c.args.map (argument E id e) ++ c.fixed

theorem loaded_keys (E : Env W) (id : ℕ) (c : ProcCls) (e : Params) : PyDict.keys (loaded E id c e) = names c := by
  unfold loaded names
  rw [← keys_arguments E id e c.args]
  simp [PyDict.keys]

/-- A parameter after loading: the value that was saved, in the form it was saved in. -/
theorem loaded_get {E : Env W} {id : ℕ} {p : Proc} (h : Inv p) {e : Params} (he : encodeDict p.stored = .ok e) {k : String}
    (hk : k ∈ PyDict.keys p.cls.args) : ∃ v w, PyDict.get? p.params k = some v ∧
      PyDict.get? (loaded E id p.cls e) k = some w ∧
      ((k ≠ "random_state" ∧ encode v = .ok w) ∨ (k = "random_state" ∧ ∃ r, v = .rng r ∧ w = .rng ⟨id, r.state⟩)) := by
  have hp : PyDict.get? p.params k ≠ none := by
    rw [Ne, PyDict.get?_eq_none_iff, h.keys]
    simp only [names, List.mem_append, not_not]
    exact .inl hk
  cases hv : PyDict.get? p.params k with
  | none => exact absurd hv hp
  | some v =>
    have hs := stored_get h hk
    rw [hv, Option.map_some] at hs
    obtain ⟨w, hw, hew⟩ := encodeDict_some he hs
    have ha : PyDict.get? p.cls.args k ≠ none := by rw [Ne, PyDict.get?_eq_none_iff, not_not]; exact hk
    cases hd : PyDict.get? p.cls.args k with
    | none => exact absurd hd ha
    | some d =>
      have hl : PyDict.get? (loaded E id p.cls e) k = some (if k = "random_state" then asRng E id w else w) := by
        unfold loaded
        rw [get?_append_of, keys_arguments, if_pos hk, get?_arguments, hd, hew]
        rfl
      by_cases hr : k = "random_state"
      · rw [if_pos hr] at hw hl
        subst hr
        obtain ⟨r, rfl⟩ := good_rng (h.good _ _ hv)
        rw [asRng_encode E id r hw] at hl
        exact ⟨.rng r, _, rfl, hl, .inr ⟨rfl, r, rfl, rfl⟩⟩
      · rw [if_neg hr] at hw hl
        exact ⟨v, w, rfl, hl, .inl ⟨hr, hw⟩⟩

theorem loaded_fixed {E : Env W} {id : ℕ} {c : ProcCls} {e : Params} {k : String} (hk : k ∉ PyDict.keys c.args) :
    PyDict.get? (loaded E id c e) k = PyDict.get? c.fixed k := by
  unfold loaded
  rw [get?_append_of, keys_arguments, if_neg hk]

theorem loaded_good {E : Env W} {id : ℕ} {p : Proc} (h : Inv p) {e : Params} (he : encodeDict p.stored = .ok e) {k : String}
    {w : Val} (hw : PyDict.get? (loaded E id p.cls e) k = some w) : good p.cls k w := by
  by_cases hk : k ∈ PyDict.keys p.cls.args
  · obtain ⟨v, w', hv, hw', hc⟩ := loaded_get (E := E) (id := id) h he hk
    rw [hw] at hw'
    injection hw' with hw'
    subst hw'
    rcases hc with ⟨-, hc⟩ | ⟨rfl, r, rfl, rfl⟩
    · exact encode_good hc (h.good _ _ hv)
    · have := h.good _ _ hv
      revert this
      cases p.cls <;> simp [good, charOk, regexOk, Val.isRng]
  · rw [loaded_fixed hk] at hw
    revert hw
    cases p.cls <;> simp only [ProcCls.fixed, PyDict.get?_cons] <;> intro hw
    all_goals first
      | (cases hw; done)
      | (split_ifs at hw with h1
         · exact .inl h1.symm
         · cases hw)
      | (split_ifs at hw with h1 h2
         · subst h1; cases hw; exact (by decide : regexOk [] [] "aggregation_func" (.str "split") = true)
         · subst h2; cases hw; rfl
         · cases hw)

theorem sameParams_get {E : Env W} {id : ℕ} {p : Proc} (h : Inv p) (hf : Fits p) {e : Params}
    (he : encodeDict p.stored = .ok e) : SameParams p.params (loaded E id p.cls e) := by
  intro k
  by_cases hk : k ∈ PyDict.keys p.cls.args
  · obtain ⟨v, w, hv, hw, hc⟩ := loaded_get (E := E) (id := id) h he hk
    rw [hv, hw]
    simp only [Option.map_some, Option.some.injEq]
    rcases hc with ⟨-, hc⟩ | ⟨-, r, rfl, rfl⟩
    · exact (encode_form _ _ hc).symm
    · rfl
  · rw [loaded_fixed hk]
    by_cases hfx : k ∈ PyDict.keys p.cls.fixed
    · congr 1
      cases hc : p.cls <;> rw [hc] at hfx <;> simp [ProcCls.fixed, PyDict.keys] at hfx
      · subst hfx; rw [hf.split hc]; rfl
      · obtain ⟨i1, i2⟩ := h.inner hc
        rcases hfx with rfl | rfl
        · rw [i1]; rfl
        · rw [i2]; rfl
    · rw [(PyDict.get?_eq_none_iff _ _).2 hfx, (PyDict.get?_eq_none_iff _ _).2]
      rw [h.keys]
      simp only [names, List.mem_append, not_or]
      exact ⟨hk, hfx⟩

/-- Parameters that were saved are accepted when they are loaded. -/
theorem loaded_accepts {E : Env W} {id : ℕ} {p : Proc} (h : Inv p) (hf : Fits p) {e : Params}
    (he : encodeDict p.stored = .ok e) : accepts p.cls [] (loaded E id p.cls e) = true := by
  have hwf : PyDict.WF (loaded E id p.cls e) := by
    unfold PyDict.WF; rw [loaded_keys]; exact names_nodup _
  have hkeys := loaded_keys E id p.cls e
  have hg : ∀ kv ∈ loaded E id p.cls e, good p.cls kv.1 kv.2 := fun kv hm =>
    loaded_good h he (PyDict.get?_of_mem hwf hm)
  have hn : ∀ kv ∈ loaded E id p.cls e, kv.1 ∈ names p.cls := fun kv hm => by
    rw [← hkeys]; exact List.mem_map_of_mem hm
  have hchar : ∀ kv ∈ loaded E id p.cls e, PyDict.keys p.cls.fixed = [] → good p.cls kv.1 kv.2 = (charOk kv.1 kv.2 = true) →
      (decide (kv.1 ∈ PyDict.keys p.cls.args) && charOk kv.1 kv.2) = true := by
    intro kv hm hfx hgood
    have h1 := hn kv hm
    have h2 := hg kv hm
    rw [hgood] at h2
    unfold names at h1
    rw [hfx, List.append_nil] at h1
    simp [h1, h2]
  have hsame := sameParams_get (E := E) (id := id) h hf he
  cases hc : p.cls with
  | direct => rw [hc] at hkeys; simp only [accepts, List.isEmpty_iff]; exact List.map_eq_nil_iff.1 hkeys
  | columnPost => rw [hc] at hkeys; simp only [accepts, List.isEmpty_iff]; exact List.map_eq_nil_iff.1 hkeys
  | structChar =>
    rw [hc] at hg hn hwf
    refine List.all_eq_true.2 fun kv hm => ?_
    have hw : PyDict.get? (PyDict.del (loaded E id .structChar e) "flatten_split") kv.1 = some kv.2 :=
      PyDict.get?_of_mem (PyDict.WF_del hwf _) hm
    rw [PyDict.get?_del hwf] at hw
    split_ifs at hw with hne
    have hm' := PyDict.mem_of_get? hw
    have h1 := hn kv hm'
    have h2 := (hg kv hm').resolve_left (Ne.symm hne)
    rw [Bool.and_eq_true]
    refine ⟨decide_eq_true ?_, h2⟩
    simp only [names, List.mem_append] at h1
    rcases h1 with h1 | h1
    · exact h1
    · simp [ProcCls.fixed, PyDict.keys] at h1
      exact absurd h1 (Ne.symm hne)
  | char => rw [hc] at hchar; exact List.all_eq_true.2 fun kv hm => hchar kv hm rfl rfl
  | charEncoded => rw [hc] at hchar; exact List.all_eq_true.2 fun kv hm => hchar kv hm rfl rfl
  | charPost => rw [hc] at hchar; exact List.all_eq_true.2 fun kv hm => hchar kv hm rfl rfl
  | structCharPost => rw [hc] at hchar; exact List.all_eq_true.2 fun kv hm => hchar kv hm rfl rfl
  | structRegexPost =>
    rw [hc] at hg
    refine List.all_eq_true.2 fun kv hm => ?_
    have h2 : regexOk [] [] kv.1 kv.2 = true := hg kv hm
    have hpr : priority [] (loaded E id .structRegexPost e) = false := by
      have : PyDict.get? (loaded E id .structRegexPost e) "aggregation_func" = some (.str "split") := by
        rw [loaded_fixed (by decide)]; rfl
      unfold priority; rw [this]; rfl
    unfold regexOk at h2 ⊢
    rw [hpr]
    exact h2
  | regexPost =>
    rw [hc] at hg hwf hsame
    refine List.all_eq_true.2 fun kv hm => ?_
    have h2 : regexOk [] [] kv.1 kv.2 = true := hg kv hm
    by_cases hk : kv.1 = "priority_order" ∧ kv.2 = .none
    · obtain ⟨hk1, hk2⟩ := hk
      have hget : PyDict.get? (loaded E id .regexPost e) "priority_order" = some .none := by
        rw [← hk1, ← hk2]; exact PyDict.get?_of_mem hwf hm
      have hpn : PyDict.get? p.params "priority_order" = some .none := by
        have := hsame "priority_order"
        rw [hget] at this
        cases hv : PyDict.get? p.params "priority_order" with
        | none => rw [hv] at this; cases this
        | some v =>
          rw [hv] at this
          simp only [Option.map_some, Option.some.injEq] at this
          cases v <;> simp [form] at this ⊢
      have hpr : priority [] (loaded E id .regexPost e) = false := by
        unfold priority
        cases hag : PyDict.get? (loaded E id .regexPost e) "aggregation_func" with
        | none => rfl
        | some a =>
          cases a <;> try rfl
          rename_i s
          simp only [beq_eq_false_iff_ne]
          rintro rfl
          have := hsame "aggregation_func"
          rw [hag] at this
          cases hv : PyDict.get? p.params "aggregation_func" with
          | none => rw [hv] at this; cases this
          | some v =>
            rw [hv] at this
            simp only [Option.map_some, Option.some.injEq] at this
            have hv' : v = .str "priority" := by
              cases v <;> simp [form] at this ⊢
              exact this
            rw [hv'] at hv
            exact hf.order hc hv hpn
      unfold regexOk
      rw [hk1, hk2, hpr]
      rfl
    · unfold regexOk at h2 ⊢
      by_cases h3 : kv.1 = "aggregation_func"
      · rw [if_pos h3] at h2 ⊢; exact h2
      rw [if_neg h3] at h2 ⊢
      by_cases h4 : kv.1 = "priority_order"
      · rw [if_pos h4] at h2 ⊢
        have : kv.2.isNone = false := by
          cases hv : kv.2 <;> first
            | rfl
            | exact absurd ⟨h4, hv⟩ hk
        rw [this] at h2 ⊢
        exact h2
      · rw [if_neg h4] at h2 ⊢; exact h2

/-- A processor that was saved is loaded as the same processor. -/
theorem loadProc_saved {E : Env W} {id : ℕ} {p : Proc} (h : Inv p) (hf : Fits p) {e : Params}
    (he : encodeDict p.stored = .ok e) {d : Dir W} (hd : read d p.cls.file = .ok (.dict e)) :
    loadProc E id p.cls d = .ok ⟨p.cls, loaded E id p.cls e⟩ := by
  unfold loadProc
  rw [hd]
  simp only
  unfold initProc
  have hk : ¬ ∃ k ∈ PyDict.keys e, k ∉ PyDict.keys p.cls.args := by
    rintro ⟨k, h1, h2⟩
    rw [encodeDict_keys he, stored_keys h] at h1
    exact h2 h1
  rw [if_neg hk]
  have ha := loaded_accepts (E := E) (id := id) h hf he
  unfold loaded at ha
  simp only [ha, if_true]
  rfl

end Verif.LabelerDisk
