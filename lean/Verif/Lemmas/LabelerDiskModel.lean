import Verif.Lemmas.LabelerDiskProc
import Verif.Lemmas.LabelMap

/-!
# Lemmas on models written to disk
-/

namespace Verif.LabelerDisk

open Verif Spec

variable {W : Type}

theorem set_same {K V : Type} [DecidableEq K] {d : PyDict K V} {k : K} {v : V} (h : PyDict.get? d k = some v) :
    PyDict.set d k v = d := by
  induction d with
  | nil => cases h
  | cons a t ih =>
    rw [PyDict.get?] at h
    rw [PyDict.set]
    by_cases hc : a.1 = k
    · rw [if_pos hc] at h ⊢
      injection h with h
      rw [← hc, ← h]
    · rw [if_neg hc] at h ⊢
      rw [ih h]

theorem mem_setDefault {d : Params} {kv x : String × Val} (h : x ∈ setDefault d kv) : x ∈ d ∨ x = kv := by
  unfold setDefault at h
  split_ifs at h
  · exact .inl h
  · simpa using h

theorem keys_setDefault (d : Params) (kv : String × Val) (k : String) :
    k ∈ PyDict.keys (setDefault d kv) ↔ k ∈ PyDict.keys d ∨ k = kv.1 := by
  unfold setDefault
  split_ifs with h
  · constructor
    · exact .inl
    · rintro (h' | rfl)
      · exact h'
      · exact (PyDict.has_iff _ _).1 h
  · simp [PyDict.keys]

theorem wf_setDefault {d : Params} (h : PyDict.WF d) (kv : String × Val) : PyDict.WF (setDefault d kv) := by
  unfold setDefault
  split_ifs with hc
  · exact h
  · rw [← PyDict.set_of_not_mem (fun hm => hc ((PyDict.has_iff _ _).2 hm))]
    exact PyDict.WF_set h _ _

theorem keys_defaults (l : Params) : ∀ (d : Params) (k : String),
    k ∈ PyDict.keys (l.foldl setDefault d) ↔ k ∈ PyDict.keys d ∨ k ∈ PyDict.keys l := by
  induction l with
  | nil => intro d k; simp [PyDict.keys]
  | cons a t ih =>
    intro d k
    rw [List.foldl_cons, ih, keys_setDefault]
    simp only [PyDict.keys, List.map_cons, List.mem_cons]
    tauto

theorem wf_defaults (l : Params) : ∀ d : Params, PyDict.WF d → PyDict.WF (l.foldl setDefault d) := by
  induction l with
  | nil => intro d h; exact h
  | cons a t ih => intro d h; exact ih _ (wf_setDefault h a)

theorem defaults_complete (l : Params) : ∀ d : Params, (∀ k ∈ PyDict.keys l, k ∈ PyDict.keys d) → l.foldl setDefault d = d := by
  induction l with
  | nil => intro d _; rfl
  | cons a t ih =>
    intro d h
    have ha : setDefault d a = d := by
      unfold setDefault
      rw [if_pos ((PyDict.has_iff _ _).2 (h a.1 (by simp [PyDict.keys])))]
    rw [List.foldl_cons, ha]
    exact ih d fun k hk => h k (by simp [PyDict.keys] at hk ⊢; tauto)

/-- What a single parameter of a model satisfies. -/
def goodM (E : Env W) (c : ModelCls) (k : String) (v : Val) : Prop :=
  match c with
  | .regex => ∃ mp, regexModelOk E mp k v = true
  | .cnn => cnnOk k v = true
  | .columnName => True

/-- What all models satisfy. -/
structure MInv (E : Env W) (m : Model W) : Prop where
  wf : PyDict.WF m.params
  keys : ∀ k ∈ PyDict.keys m.cls.defaults, k ∈ PyDict.keys m.params
  good : ∀ k v, PyDict.get? m.params k = some v → goodM E m.cls k v
  mwf : PyDict.WF m.mapping
  mne : m.mapping ≠ []
  pad : m.cls = .cnn → PyDict.get? m.mapping "PAD" = some 0
  nonet : m.cls ≠ .cnn → m.net = none

theorem validate_good {E : Env W} {c : ModelCls} {mp : PyDict String ℕ} {kw : Params} (h : validate E c mp kw = .ok ()) :
    ∀ kv ∈ kw, goodM E c kv.1 kv.2 := by
  intro kv hkv
  cases c with
  | columnName => trivial
  | regex =>
    rw [validate] at h
    split_ifs at h with h1
    exact ⟨mp, List.all_eq_true.1 h1 kv hkv⟩
  | cnn =>
    rw [validate] at h
    split_ifs at h with h1
    exact List.all_eq_true.1 h1 kv hkv

theorem setMapping_plain {m l : PyDict String ℕ} (h : LabelMap.setMapping false (.dict m) = .ok l) : l = m ∧ m ≠ [] := by
  cases m with
  | nil => simp [LabelMap.setMapping] at h
  | cons a t => simp [LabelMap.setMapping] at h; exact ⟨h.symm, by simp⟩

theorem cnnSet_inv {dflt : String} {m l : PyDict String ℕ} (hm : PyDict.WF m) (h : LabelMap.cnnSet "PAD" dflt (.dict m) = .ok l) :
    PyDict.WF l ∧ l ≠ [] ∧ PyDict.get? l "PAD" = some 0 := by
  unfold LabelMap.cnnSet at h
  simp only at h
  generalize hd : (if PyDict.has m "PAD" = true then m else if 0 ∈ PyDict.values m then m else PyDict.set m "PAD" 0) = d at h
  have hw : PyDict.WF d := by
    rw [← hd]; split_ifs
    · exact hm
    · exact hm
    · exact PyDict.WF_set hm _ _
  split_ifs at h with h1 h2
  have hne : d ≠ [] := by rintro rfl; exact h1 (by simp)
  have : l = d := by
    cases d with
    | nil => exact absurd rfl hne
    | cons a t => simp [LabelMap.setMapping] at h; exact h.symm
  subst this
  exact ⟨hw, hne, by simpa using h1⟩

theorem cnnSet_same {dflt : String} {m : PyDict String ℕ} (hp : PyDict.get? m "PAD" = some 0)
    (hd : dflt ∈ PyDict.keys m) : LabelMap.cnnSet "PAD" dflt (.dict m) = .ok m := by
  unfold LabelMap.cnnSet
  have h1 : PyDict.has m "PAD" = true := by unfold PyDict.has; rw [hp]; rfl
  simp only [h1, if_true, hp, (PyDict.has_iff m dflt).2 hd]
  cases m with
  | nil => cases hp
  | cons a t => simp [LabelMap.setMapping]

theorem setMapping_inv {c : ModelCls} {p : Params} {m l : PyDict String ℕ} (hm : PyDict.WF m) (h : setMapping c p m = .ok l) :
    PyDict.WF l ∧ l ≠ [] ∧ (c = .cnn → PyDict.get? l "PAD" = some 0) := by
  cases c with
  | regex => obtain ⟨rfl, h⟩ := setMapping_plain h; exact ⟨hm, h, by simp⟩
  | columnName => obtain ⟨rfl, h⟩ := setMapping_plain h; exact ⟨hm, h, by simp⟩
  | cnn =>
    rw [setMapping] at h
    cases hd : dfltOf p with
    | none => rw [hd] at h; cases h
    | some s =>
      rw [hd] at h
      obtain ⟨h1, h2, h3⟩ := cnnSet_inv hm h
      exact ⟨h1, h2, fun _ => h3⟩

/-- The parameters a constructor makes. -/
def made (c : ModelCls) (kw : Params) : Params :=
  match c with
  | .cnn => PyDict.set (c.defaults.foldl setDefault kw) "pad_label" (.str "PAD")
  | c => c.defaults.foldl setDefault kw

theorem initModel_ok {E : Env W} {c : ModelCls} {l : PyDict String ℕ} {kw : Params} {m : Model W} :
    initModel E c l kw = .ok m ↔ ∃ mp, setMapping c (made c kw) l = .ok mp ∧ m = ⟨c, made c kw, mp, none⟩ ∧
      validate E c (if c = .cnn then l else mp) (made c kw) = .ok () := by
  cases c with
  | cnn =>
    simp only [initModel, made, if_true]
    cases hv : validate E .cnn l (PyDict.set (ModelCls.cnn.defaults.foldl setDefault kw) "pad_label" (.str "PAD")) with
    | error e => simp [bind, Except.bind]
    | ok u =>
      cases hs : setMapping .cnn (PyDict.set (ModelCls.cnn.defaults.foldl setDefault kw) "pad_label" (.str "PAD")) l with
      | error e => simp [bind, Except.bind]
      | ok mp => simp [bind, Except.bind, eq_comm]
  | regex =>
    simp only [initModel, made]
    cases hs : setMapping .regex (ModelCls.regex.defaults.foldl setDefault kw) l with
    | error e => simp [bind, Except.bind]
    | ok mp =>
      simp only [bind, Except.bind, Except.ok.injEq, exists_eq_left', reduceCtorEq, if_false]
      cases hv : validate E .regex mp (ModelCls.regex.defaults.foldl setDefault kw) with
      | error e => simp
      | ok u => simp [eq_comm]
  | columnName =>
    simp only [initModel, made]
    cases hs : setMapping .columnName (ModelCls.columnName.defaults.foldl setDefault kw) l with
    | error e => simp [bind, Except.bind]
    | ok mp =>
      simp only [bind, Except.bind, Except.ok.injEq, exists_eq_left', reduceCtorEq, if_false]
      cases hv : validate E .columnName mp (ModelCls.columnName.defaults.foldl setDefault kw) with
      | error e => simp
      | ok u => simp [eq_comm]

theorem made_wf {c : ModelCls} {kw : Params} (h : PyDict.WF kw) : PyDict.WF (made c kw) := by
  cases c
  · exact wf_defaults _ _ h
  · exact wf_defaults _ _ h
  · exact PyDict.WF_set (wf_defaults _ _ h) _ _

theorem made_keys {c : ModelCls} {kw : Params} : ∀ k ∈ PyDict.keys c.defaults, k ∈ PyDict.keys (made c kw) := by
  intro k hk
  have := (keys_defaults c.defaults kw k).2 (.inr hk)
  cases c
  · exact this
  · exact this
  · simp only [made, PyDict.keys_set]
    split_ifs
    · exact this
    · exact List.mem_append_left _ this

theorem minv_init {E : Env W} {c : ModelCls} {l : PyDict String ℕ} {kw : Params} {m : Model W} (hk : PyDict.WF kw)
    (hl : PyDict.WF l) (h : initModel E c l kw = .ok m) : MInv E m := by
  obtain ⟨mp, hs, rfl, hv⟩ := initModel_ok.1 h
  obtain ⟨h1, h2, h3⟩ := setMapping_inv hl hs
  refine ⟨made_wf hk, made_keys, fun k v hg => ?_, h1, h2, h3, fun _ => rfl⟩
  exact validate_good hv _ (PyDict.mem_of_get? hg)

theorem get?_foldl_set (kw : Params) : ∀ (d : Params) (k : String) (v : Val),
    PyDict.get? (kw.foldl (fun d x => PyDict.set d x.1 x.2) d) k = some v → (k, v) ∈ kw ∨ PyDict.get? d k = some v := by
  induction kw with
  | nil => intro d k v h; exact .inr h
  | cons a t ih =>
    intro d k v h
    rcases ih _ k v h with h | h
    · exact .inl (List.mem_cons_of_mem _ h)
    · rw [PyDict.get?_set] at h
      split_ifs at h with hc
      · injection h with h
        left; rw [← hc, ← h]; simp
      · exact .inr h

theorem foldl_set_keys (kw : Params) : ∀ (d : Params) (k : String), k ∈ PyDict.keys d →
    k ∈ PyDict.keys (kw.foldl (fun d x => PyDict.set d x.1 x.2) d) := by
  induction kw with
  | nil => intro d k h; exact h
  | cons a t ih =>
    intro d k h
    refine ih _ k ?_
    rw [PyDict.keys_set]
    split_ifs
    · exact h
    · exact List.mem_append_left _ h

theorem foldl_set_wf (kw : Params) : ∀ d : Params, PyDict.WF d → PyDict.WF (kw.foldl (fun d x => PyDict.set d x.1 x.2) d) := by
  induction kw with
  | nil => intro d h; exact h
  | cons a t ih => intro d h; exact ih _ (PyDict.WF_set h _ _)

theorem minv_set {E : Env W} {m n : Model W} {kw : Params} (hm : MInv E m) (h : m.set E kw = .ok n) : MInv E n := by
  unfold Model.set at h
  cases hv : validate E m.cls m.mapping kw with
  | error e => rw [hv] at h; cases h
  | ok u =>
    rw [hv] at h
    simp only [Except.ok.injEq] at h
    subst h
    refine ⟨foldl_set_wf _ _ hm.wf, fun k hk => foldl_set_keys _ _ _ (hm.keys k hk), fun k v hg => ?_, hm.mwf, hm.mne, hm.pad,
      hm.nonet⟩
    rcases get?_foldl_set _ _ _ _ hg with h' | h'
    · exact validate_good hv _ h'
    · exact hm.good k v h'

theorem minv_relabel {E : Env W} {m n : Model W} {l : PyDict String ℕ} (hm : MInv E m) (hl : PyDict.WF l)
    (h : m.relabel l = .ok n) : MInv E n := by
  unfold Model.relabel at h
  cases hv : setMapping m.cls m.params l with
  | error e => rw [hv] at h; cases h
  | ok mp =>
    rw [hv] at h
    simp only [Except.ok.injEq] at h
    subst h
    obtain ⟨h1, h2, h3⟩ := setMapping_inv hl hv
    exact ⟨hm.wf, hm.keys, hm.good, h1, h2, h3, hm.nonet⟩

theorem set_ne_nil {K V : Type} [DecidableEq K] (d : PyDict K V) (k : K) (v : V) : PyDict.set d k v ≠ [] := by
  cases d with
  | nil => simp [PyDict.set]
  | cons a t => rw [PyDict.set]; split_ifs <;> simp

theorem minv_add {E : Env W} {m n : Model W} {l s : Option String} (hm : MInv E m) (h : m.addLabel l s = .ok n) : MInv E n := by
  have key : ∀ (x : String) (i : ℕ), PyDict.has m.mapping x = false → MInv E { m with mapping := PyDict.set m.mapping x i } := by
    intro x i hx
    refine ⟨hm.wf, hm.keys, hm.good, PyDict.WF_set hm.mwf _ _, set_ne_nil _ _ _, fun hc => ?_, hm.nonet⟩
    have hp := hm.pad hc
    simp only
    rw [PyDict.get?_set, if_neg, hp]
    rintro rfl
    unfold PyDict.has at hx
    rw [hp] at hx
    cases hx
  unfold Model.addLabel LabelMap.addLabel at h
  cases l with
  | none => cases h
  | some x =>
    simp only at h
    by_cases hx : PyDict.has m.mapping x = true
    · rw [if_pos hx] at h
      simp only [Except.ok.injEq] at h
      subst h
      exact hm
    · rw [if_neg hx] at h
      rw [Bool.not_eq_true] at hx
      cases s with
      | none =>
        simp only [Except.ok.injEq] at h
        subst h
        exact key x _ hx
      | some y =>
        simp only at h
        cases hy : PyDict.get? m.mapping y with
        | none => rw [hy] at h; cases h
        | some i =>
          rw [hy] at h
          simp only [Except.ok.injEq] at h
          subst h
          exact key x _ hx

theorem minv_made {E : Env W} {m : Model W} (h : MadeModel E m) : MInv E m := by
  induction h with
  | init hk hl h => exact minv_init hk hl h
  | set _ h ih => exact minv_set ih h
  | relabel _ hl h ih => exact minv_relabel ih hl h
  | add _ h ih => exact minv_add ih h
  | train _ hc net ih => exact ⟨ih.wf, ih.keys, ih.good, ih.mwf, ih.mne, ih.pad, fun h => absurd hc h⟩

theorem encode_dict {d : Params} {w : Val} (h : encode (.dict d) = .ok w) : ∃ e, encodeDict d = .ok e ∧ w = .dict e := by
  rw [encode] at h
  obtain ⟨e, h1, h2⟩ := map_ok h
  exact ⟨e, h1, h2.symm⟩

theorem encode_list {l : List Val} {w : Val} (h : encode (.list l) = .ok w) : ∃ e, encodeList l = .ok e ∧ w = .list e := by
  rw [encode] at h
  obtain ⟨e, h1, h2⟩ := map_ok h
  exact ⟨e, h1, h2.symm⟩

theorem encode_cnnOk {k : String} {v w : Val} (h : encode v = .ok w) (ho : cnnOk k v = true) : cnnOk k w = true := by
  unfold cnnOk at ho ⊢
  by_cases h1 : k ∈ ["max_length", "max_char_encoding_id", "dim_embed", "size_conv"]
  · rw [if_pos h1] at ho ⊢; rw [encode_between h]; exact ho
  rw [if_neg h1] at ho ⊢
  by_cases h2 : k = "dropout"
  · rw [if_pos h2] at ho ⊢; rw [encode_between h]; exact ho
  rw [if_neg h2] at ho ⊢
  by_cases h3 : k ∈ ["size_fc", "num_fil"]
  · rw [if_pos h3] at ho ⊢
    cases v <;> simp only [Bool.false_eq_true] at ho
    rename_i l
    obtain ⟨e, he, rfl⟩ := encode_list h
    simp only
    rw [Bool.and_eq_true] at ho ⊢
    obtain ⟨hn, ha⟩ := ho
    constructor
    · cases l with
      | nil => simp at hn
      | cons a t => obtain ⟨w, u, rfl, -, -⟩ := encodeList_cons he; rfl
    · rw [List.all_eq_true] at ha ⊢
      intro x hx
      obtain ⟨y, hy, hxy⟩ := encodeList_mem he x hx
      rw [encode_int hxy]
      exact ha y hy
  rw [if_neg h3] at ho ⊢
  by_cases h4 : k = "default_label"
  · rw [if_pos h4] at ho ⊢; exact encode_isStr h ho
  rw [if_neg h4] at ho ⊢
  exact ho

theorem encode_regexModelOk {E : Env W} {mp mp' : PyDict String ℕ} {k : String} {v w : Val} (h : encode v = .ok w)
    (ho : regexModelOk E mp k v = true)
    (hl : k = "regex_patterns" → ∀ d x, v = .dict d → x ∈ d.map Prod.fst → x ∈ mp'.map Prod.fst) :
    regexModelOk E mp' k w = true := by
  unfold regexModelOk at ho ⊢
  by_cases h1 : k = "encapsulators"
  · rw [if_pos h1] at ho ⊢
    cases v <;> simp only [Bool.false_eq_true] at ho
    obtain ⟨e, he, rfl⟩ := encode_dict h
    simp only
    rw [Bool.and_eq_true] at ho ⊢
    simp only [PyDict.has_iff] at ho ⊢
    rw [encodeDict_keys he]
    exact ho
  rw [if_neg h1] at ho ⊢
  by_cases h2 : k = "regex_patterns"
  · rw [if_pos h2] at ho ⊢
    cases v <;> simp only [Bool.false_eq_true] at ho
    rename_i d
    obtain ⟨e, he, rfl⟩ := encode_dict h
    simp only
    rw [List.all_eq_true] at ho ⊢
    rintro ⟨x, y⟩ hxy
    obtain ⟨z, hz, hzy⟩ := encodeDict_mem he x y hxy
    have hp := ho _ hz
    unfold patternsOk at hp ⊢
    rw [Bool.and_eq_true] at hp ⊢
    refine ⟨(PyDict.has_iff _ _).2 (hl h2 d x rfl (List.mem_map_of_mem hz)), ?_⟩
    have hp2 := hp.2
    simp only at hp2 ⊢
    cases z <;> simp only [Bool.false_eq_true] at hp2
    rename_i l
    obtain ⟨u, hu, rfl⟩ := encode_list hzy
    simp only
    rw [List.all_eq_true] at hp2 ⊢
    intro a ha
    obtain ⟨b, hb, hab⟩ := encodeList_mem hu a ha
    have := hp2 b hb
    cases b <;> simp only [Bool.false_eq_true] at this
    · rw [encode] at hab; cases hab; exact this
    · rw [encode] at hab; cases hab
  rw [if_neg h2] at ho ⊢
  by_cases h3 : k = "ignore_case"
  · rw [if_pos h3] at ho ⊢; exact encode_isBool h ho
  rw [if_neg h3] at ho ⊢
  by_cases h4 : k = "default_label"
  · rw [if_pos h4] at ho ⊢; exact encode_isStr h ho
  rw [if_neg h4] at ho
  cases ho

theorem eqv_str {v w : Val} (h : encode v = .ok w) (k : String) : eqv w (.str k) = eqv v (.str k) := by
  cases v <;> rw [encode] at h <;> first
    | (cases h; done)
    | (cases h; rfl)
    | (obtain ⟨m, -, rfl⟩ := map_ok h; simp [eqv])

theorem encodeDict_any {d e : Params} (h : encodeDict d = .ok e) (f : Val → Bool) (hf : ∀ v w, encode v = .ok w → f w = f v) :
    (e.map (·.2)).any f = (d.map (·.2)).any f := by
  induction d generalizing e with
  | nil => rw [encodeDict_nil h]
  | cons kv t ih =>
    obtain ⟨w, u, rfl, hv, ht⟩ := encodeDict_cons (k := kv.1) (v := kv.2) h
    simp only [List.map_cons, List.any_cons]
    rw [ih ht, hf _ _ hv]

theorem properSuperset_encode {d e : Params} (h : encodeDict d = .ok e) (mp : PyDict String ℕ) :
    properSuperset (e.map (·.2)) mp = properSuperset (d.map (·.2)) mp := by
  unfold properSuperset
  congr 1
  · apply congrArg (fun f => (PyDict.keys mp).all f)
    funext k
    exact encodeDict_any h _ fun v w hvw => eqv_str hvw k
  · refine encodeDict_any h _ fun v w hvw => ?_
    simp only [eqv_str hvw]

theorem columnLoop_ok {kw l : Params} : columnLoop kw l = .ok true ↔ ∀ kv ∈ l, columnOk kw kv.1 kv.2 = .ok true := by
  induction l with
  | nil => simp [columnLoop]
  | cons a t ih =>
    obtain ⟨k, v⟩ := a
    rw [columnLoop]
    cases hc : columnOk kw k v with
    | error e => simp [hc]
    | ok b =>
      cases b with
      | true =>
        simp only [Bool.true_and, List.forall_mem_cons, hc, true_and]
        rw [← ih]
        cases columnLoop kw t <;> simp [Except.map]
      | false =>
        simp only [List.forall_mem_cons, hc]
        cases columnLoop kw t <;> simp [Except.map]

/-- What the check of a column name model asks of all parameters. -/
structure ColumnGood (mp : PyDict String ℕ) (kw : Params) : Prop where
  tp : ∃ d t, PyDict.get? kw "true_positive_dict" = some (.list (.dict d :: t)) ∧ properSuperset (d.map (·.2)) mp = false
  fp : (PyDict.get? kw "false_positive_dict" = some .none) ∨
    ((∃ v, PyDict.get? kw "negative_threshold_config" = some v ∧ v.int?.isSome = true) ∧
      ∃ d t, PyDict.get? kw "false_positive_dict" = some (.list (.dict d :: t)) ∧ "attribute" ∈ PyDict.keys d)
  label : ∃ v, PyDict.get? kw "include_label" = some v ∧ v.isBool = true
  pos : ∃ v, PyDict.get? kw "positive_threshold_config" = some v ∧ v.int?.isSome = true
  names : ∀ k ∈ PyDict.keys kw, k ∈ PyDict.keys ModelCls.columnName.defaults

theorem columnValidate_good {mp : PyDict String ℕ} {kw : Params} (hw : PyDict.WF kw)
    (hk : ∀ k ∈ PyDict.keys ModelCls.columnName.defaults, k ∈ PyDict.keys kw) :
    columnValidate mp kw = .ok () ↔ ColumnGood mp kw := by
  have get : ∀ k ∈ PyDict.keys ModelCls.columnName.defaults, ∃ v, PyDict.get? kw k = some v := fun k h =>
    (PyDict.mem_keys_iff _ _).1 (hk k h)
  obtain ⟨fp, hfp⟩ := get "false_positive_dict" (by decide)
  obtain ⟨tp, htp⟩ := get "true_positive_dict" (by decide)
  obtain ⟨il, hil⟩ := get "include_label" (by decide)
  obtain ⟨nt, hnt⟩ := get "negative_threshold_config" (by decide)
  obtain ⟨pt, hpt⟩ := get "positive_threshold_config" (by decide)
  have itp : item kw "true_positive_dict" = .ok tp := by unfold item; rw [htp]
  have ifp : item kw "false_positive_dict" = .ok fp := by unfold item; rw [hfp]
  have int : item kw "negative_threshold_config" = .ok nt := by unfold item; rw [hnt]
  have hfpC : columnOk kw "false_positive_dict" fp = .ok true ↔ fp = .none ∨ nt = .none ∧ (∀ l, fp ≠ .list l) ∨
      ∃ d t, fp = .list (.dict d :: t) ∧ ("attribute" ∈ PyDict.keys d ∨ nt = .none) := by
    unfold columnOk
    rw [if_pos rfl]
    have hnn : (Val.isNone nt = true) ↔ nt = .none := by cases nt <;> simp [Val.isNone]
    cases fp with
    | none => simp [Val.isNone]
    | list l =>
      simp only [Val.isNone, Bool.false_eq_true, if_false, reduceCtorEq, false_or]
      cases l with
      | nil => simp [Val.first, bind, Except.bind]
      | cons a t =>
        cases a <;> simp [Val.first, Val.items, bind, Except.bind]
        rename_i d
        by_cases ha : PyDict.has d "attribute" = true
        · have := (PyDict.has_iff _ _).1 ha
          simp [ha, this]
        · have h2 : "attribute" ∉ PyDict.keys d := fun h => ha ((PyDict.has_iff _ _).2 h)
          simp [ha, h2, int, pure, Except.pure]
          exact hnn
    | _ => simp [Val.isNone, int, bind, Except.bind, pure, Except.pure, hnn] <;> simp [← hnn, Val.isNone]
  have htpC : columnOk kw "true_positive_dict" tp = .ok true ↔ ∃ d t, tp = .list (.dict d :: t) := by
    unfold columnOk
    rw [if_neg (by decide), if_pos rfl]
    cases tp with
    | list l =>
      cases l with
      | nil => simp [Val.first, bind, Except.bind]
      | cons a t => cases a <;> simp [Val.first, Val.items, bind, Except.bind]
    | _ => simp
  have hilC : columnOk kw "include_label" il = .ok true ↔ il.isBool = true := by
    unfold columnOk
    rw [if_neg (by decide), if_neg (by decide), if_pos rfl]; simp
  have hptC : columnOk kw "positive_threshold_config" pt = .ok true ↔ pt.int?.isSome = true := by
    unfold columnOk
    rw [if_neg (by decide), if_neg (by decide), if_neg (by decide), if_neg (by decide), if_pos rfl]; simp
  have hntC : columnOk kw "negative_threshold_config" nt = .ok true ↔ nt.int?.isSome = true ∨ fp = .none := by
    unfold columnOk
    rw [if_neg (by decide), if_neg (by decide), if_neg (by decide), if_pos rfl]
    have hnn : (Val.isNone fp = true) ↔ fp = .none := by cases fp <;> simp [Val.isNone]
    by_cases hi : nt.int?.isSome = true
    · simp [hi]
    · simp [hi, ifp, bind, Except.bind, pure, Except.pure, hnn]
  have hnm : ∀ k v, columnOk kw k v = .ok true → k ∈ PyDict.keys ModelCls.columnName.defaults := by
    intro k v h
    unfold columnOk at h
    by_cases h1 : k = "false_positive_dict"; · subst h1; decide
    rw [if_neg h1] at h
    by_cases h2 : k = "true_positive_dict"; · subst h2; decide
    rw [if_neg h2] at h
    by_cases h3 : k = "include_label"; · subst h3; decide
    rw [if_neg h3] at h
    by_cases h4 : k = "negative_threshold_config"; · subst h4; decide
    rw [if_neg h4] at h
    by_cases h5 : k = "positive_threshold_config"; · subst h5; decide
    rw [if_neg h5] at h
    cases h
  have hall : columnLoop kw kw = .ok true ↔ (∀ k ∈ PyDict.keys kw, k ∈ PyDict.keys ModelCls.columnName.defaults) ∧
      (columnOk kw "false_positive_dict" fp = .ok true ∧ columnOk kw "true_positive_dict" tp = .ok true ∧
       columnOk kw "include_label" il = .ok true ∧ columnOk kw "negative_threshold_config" nt = .ok true ∧
       columnOk kw "positive_threshold_config" pt = .ok true) := by
    rw [columnLoop_ok]
    constructor
    · intro h
      refine ⟨fun k hkk => ?_, h _ (PyDict.mem_of_get? hfp), h _ (PyDict.mem_of_get? htp), h _ (PyDict.mem_of_get? hil),
        h _ (PyDict.mem_of_get? hnt), h _ (PyDict.mem_of_get? hpt)⟩
      obtain ⟨v, hv⟩ := (PyDict.mem_keys_iff _ _).1 hkk
      exact hnm k v (h _ (PyDict.mem_of_get? hv))
    · rintro ⟨h1, a1, a2, a3, a4, a5⟩ ⟨k, v⟩ hm
      have hg := PyDict.get?_of_mem hw hm
      have := h1 k (List.mem_map_of_mem hm)
      simp [PyDict.keys, ModelCls.defaults] at this
      rcases this with rfl | rfl | rfl | rfl | rfl
      · rw [hfp] at hg; injection hg with hg; subst hg; exact a1
      · rw [htp] at hg; injection hg with hg; subst hg; exact a2
      · rw [hil] at hg; injection hg with hg; subst hg; exact a3
      · rw [hnt] at hg; injection hg with hg; subst hg; exact a4
      · rw [hpt] at hg; injection hg with hg; subst hg; exact a5
  have hval : columnValidate mp kw = .ok () ↔ columnLoop kw kw = .ok true ∧ ∀ d t, tp = .list (.dict d :: t) →
      properSuperset (d.map (·.2)) mp = false := by
    unfold columnValidate
    rw [itp]
    constructor
    · intro h
      simp only at h
      cases hl : labelsOk mp tp with
      | error e => rw [hl] at h; cases h
      | ok a =>
        rw [hl] at h
        simp only at h
        cases hcl : columnLoop kw kw with
        | error e => rw [hcl] at h; cases h
        | ok b =>
          rw [hcl] at h
          simp only at h
          split_ifs at h with hab
          rw [Bool.and_eq_true] at hab
          obtain ⟨rfl, rfl⟩ := hab
          refine ⟨rfl, ?_⟩
          rintro d t rfl
          simpa [labelsOk, Val.truthy, Val.first, Val.items] using hl
    · rintro ⟨hl, hd⟩
      obtain ⟨d, t, rfl⟩ := htpC.1 (hall.1 hl).2.2.1
      simp [labelsOk, Val.truthy, Val.first, Val.items, hl, hd d t rfl]
  rw [hval, hall, hfpC, htpC, hilC, hntC, hptC]
  constructor
  · rintro ⟨⟨h1, h2, ⟨d, t, rfl⟩, h3, h4, h5⟩, h6⟩
    refine ⟨⟨d, t, htp, h6 d t rfl⟩, ?_, ⟨il, hil, h3⟩, ⟨pt, hpt, h5⟩, h1⟩
    rcases h4 with h4 | rfl
    · have hne : nt ≠ .none := by rintro rfl; cases h4
      rcases h2 with rfl | ⟨h2, -⟩ | ⟨d', t', rfl, h2⟩
      · exact .inl hfp
      · exact absurd h2 hne
      · exact .inr ⟨⟨nt, hnt, h4⟩, d', t', hfp, h2.resolve_right hne⟩
    · exact .inl hfp
  · rintro ⟨⟨d, t, a1, a2⟩, b, ⟨v, c1, c2⟩, ⟨v', e1, e2⟩, n⟩
    rw [htp] at a1; injection a1 with a1; subst a1
    rw [hil] at c1; injection c1 with c1; subst c1
    rw [hpt] at e1; injection e1 with e1; subst e1
    refine ⟨⟨n, ?_, ⟨d, t, rfl⟩, c2, ?_, e2⟩, ?_⟩
    · rcases b with b | ⟨-, d', t', b, b'⟩
      · rw [hfp] at b; injection b with b; exact .inl b
      · rw [hfp] at b; injection b with b; exact .inr (.inr ⟨d', t', b, .inl b'⟩)
    · rcases b with b | ⟨⟨v, b, b'⟩, -⟩
      · rw [hfp] at b; injection b with b; exact .inr b
      · rw [hnt] at b; injection b with b; subst b; exact .inl b'
    · intro d' t' h
      injection h with h
      injection h with h _
      injection h with h
      subst h
      exact a2

theorem encode_listDict {d : Params} {t : List Val} {w : Val} (h : encode (.list (.dict d :: t)) = .ok w) :
    ∃ e u, encodeDict d = .ok e ∧ w = .list (.dict e :: u) := by
  obtain ⟨l, hl, rfl⟩ := encode_list h
  obtain ⟨a, u, rfl, ha, -⟩ := encodeList_cons hl
  obtain ⟨e, he, rfl⟩ := encode_dict ha
  exact ⟨e, u, he, rfl⟩

theorem columnGood_encode {mp : PyDict String ℕ} {kw e : Params} (he : encodeDict kw = .ok e) (h : ColumnGood mp kw) :
    ColumnGood mp e := by
  obtain ⟨⟨d, t, a1, a2⟩, b, ⟨v, c1, c2⟩, ⟨v', e1, e2⟩, n⟩ := h
  refine ⟨?_, ?_, ?_, ?_, ?_⟩
  · obtain ⟨w, hw, hg⟩ := encodeDict_some he a1
    obtain ⟨d', t', hd, rfl⟩ := encode_listDict hw
    exact ⟨d', t', hg, by rw [properSuperset_encode hd]; exact a2⟩
  · rcases b with b | ⟨⟨v, b, b'⟩, d', t', g, g'⟩
    · obtain ⟨w, hw, hg⟩ := encodeDict_some he b
      rw [encode] at hw; cases hw
      exact .inl hg
    · obtain ⟨w, hw, hg⟩ := encodeDict_some he b
      obtain ⟨w', hw', hg'⟩ := encodeDict_some he g
      obtain ⟨d2, t2, hd2, rfl⟩ := encode_listDict hw'
      exact .inr ⟨⟨w, hg, by rw [encode_int hw]; exact b'⟩, d2, t2, hg', by rw [encodeDict_keys hd2]; exact g'⟩
  · obtain ⟨w, hw, hg⟩ := encodeDict_some he c1
    exact ⟨w, hg, encode_isBool hw c2⟩
  · obtain ⟨w, hw, hg⟩ := encodeDict_some he e1
    exact ⟨w, hg, by rw [encode_int hw]; exact e2⟩
  · rw [encodeDict_keys he]; exact n

theorem encode_wf {d e : Params} (h : encodeDict d = .ok e) (hw : PyDict.WF d) : PyDict.WF e := by
  unfold PyDict.WF; rw [encodeDict_keys h]; exact hw

/-- The parameters of a model pass the check again after they were saved. -/
theorem validate_saved {E : Env W} {m : Model W} (hm : MInv E m) (hf : FitsModel E m) {e : Params}
    (he : encodeDict m.params = .ok e) (mp : PyDict String ℕ) (hmp : m.cls ≠ .cnn → mp = m.mapping) :
    validate E m.cls mp e = .ok () := by
  have hmem : ∀ kv ∈ e, ∃ v, encode v = .ok kv.2 ∧ PyDict.get? m.params kv.1 = some v := fun kv hkv =>
    encodeDict_back he (PyDict.get?_of_mem (encode_wf he hm.wf) hkv)
  have hgood := hm.good
  have hkeys := hm.keys
  cases hc : m.cls with
  | cnn =>
    rw [validate, if_pos]
    rw [List.all_eq_true]
    intro kv hkv
    obtain ⟨v, hv, hg⟩ := hmem kv hkv
    have := hgood _ _ hg
    rw [hc] at this
    exact encode_cnnOk hv this
  | regex =>
    rw [hmp (by rw [hc]; simp), validate, if_pos]
    rw [List.all_eq_true]
    intro kv hkv
    obtain ⟨v, hv, hg⟩ := hmem kv hkv
    have := hgood _ _ hg
    rw [hc] at this
    obtain ⟨mp', hmp'⟩ := this
    refine encode_regexModelOk hv hmp' ?_
    rintro hk d x rfl hx
    rw [hk] at hg
    exact hf.labels hc d x hg hx
  | columnName =>
    rw [hc] at hkeys
    rw [hmp (by rw [hc]; simp), validate, columnValidate_good (encode_wf he hm.wf) (by rw [encodeDict_keys he]; exact hkeys)]
    exact columnGood_encode he ((columnValidate_good hm.wf hkeys).1 (hf.columns hc))

theorem made_saved {E : Env W} {m : Model W} (hm : MInv E m) (hf : FitsModel E m) {e : Params}
    (he : encodeDict m.params = .ok e) : made m.cls e = e := by
  have hd : m.cls.defaults.foldl setDefault e = e := defaults_complete _ _ fun k hk => by
    rw [encodeDict_keys he]; exact hm.keys k hk
  cases hc : m.cls with
  | cnn =>
    rw [hc] at hd
    rw [made, hd]
    obtain ⟨w, hw, hg⟩ := encodeDict_some he (hf.pad hc)
    rw [encode] at hw; cases hw
    exact set_same hg
  | regex => rw [hc] at hd; exact hd
  | columnName => rw [hc] at hd; exact hd

theorem dfltOf_saved {d e : Params} (he : encodeDict d = .ok e) {s : String} (h : dfltOf d = some s) : dfltOf e = some s := by
  unfold dfltOf at h ⊢
  cases hd : PyDict.get? d "default_label" with
  | none => rw [hd] at h; cases h
  | some v =>
    rw [hd] at h
    obtain ⟨w, hw, hg⟩ := encodeDict_some he hd
    rw [hg]
    cases v <;> simp only [reduceCtorEq] at h
    rw [encode] at hw; cases hw
    exact h

theorem setMapping_saved {E : Env W} {m : Model W} (hm : MInv E m) {e : Params} (he : encodeDict m.params = .ok e)
    (hr : m.cls = .cnn → ∃ s, dfltOf m.params = some s ∧ s ∈ PyDict.keys m.mapping) :
    setMapping m.cls e m.mapping = .ok m.mapping := by
  have hp : LabelMap.setMapping false (.dict m.mapping) = .ok m.mapping := by
    have := hm.mne
    cases h : m.mapping with
    | nil => exact absurd h this
    | cons a t => rfl
  cases hc : m.cls with
  | cnn =>
    obtain ⟨s, hs, hk⟩ := hr hc
    rw [setMapping, dfltOf_saved he hs]
    exact cnnSet_same (hm.pad hc) hk
  | regex => exact hp
  | columnName => exact hp

/-- The constructor makes the model again. -/
theorem initModel_saved {E : Env W} {m : Model W} (hm : MInv E m) (hf : FitsModel E m) {e : Params}
    (he : encodeDict m.params = .ok e)
    (hr : m.cls = .cnn → ∃ s, dfltOf m.params = some s ∧ s ∈ PyDict.keys m.mapping) :
    initModel E m.cls m.mapping e = .ok ⟨m.cls, e, m.mapping, none⟩ := by
  rw [initModel_ok]
  rw [made_saved hm hf he]
  refine ⟨m.mapping, setMapping_saved hm he hr, rfl, ?_⟩
  rw [ite_self]
  exact validate_saved hm hf he _ fun _ => rfl

theorem encode_mapping (m : PyDict String ℕ) : encode (mappingVal m) = .ok (mappingVal m) := by
  unfold mappingVal
  rw [encode]
  have : encodeDict (m.map fun kv => (kv.1, Val.int kv.2)) = .ok (m.map fun kv => (kv.1, Val.int kv.2)) := by
    induction m with
    | nil => rw [List.map_nil, encodeDict]
    | cons a t ih => rw [List.map_cons, encodeDict, encode, ih]; rfl
  rw [this]
  rfl

theorem mappingOf_val (m : PyDict String ℕ) : mappingOf (mappingVal m) = some m := by
  unfold mappingVal mappingOf
  simp only
  induction m with
  | nil => rfl
  | cons a t ih =>
    rw [List.map_cons, List.mapM_cons, ih]
    simp

end Verif.LabelerDisk
