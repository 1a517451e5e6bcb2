import Verif.Spec.ModelObjects
import Verif.Lemmas.PyDict
import Verif.Lemmas.LabelerDiskModel
import Mathlib.Tactic.Common

/-!
# C102: every model has its own settings
-/

namespace Verif.Props.ModelObjects

open Verif Verif.LabelerDisk Verif.ModelObjects Verif.Spec.ModelObjects

variable {W : Type} {E : Env W} {s : State}

theorem dict_write (s : State) (r r' : ℕ) (d : Params) (hr : r < s.dicts.length) :
    (s.write r d).dict r' = if r' = r then d else s.dict r' := by
  unfold State.write State.dict
  rw [List.getD_eq_getElem?_getD, List.getElem?_set]
  by_cases h : r' = r
  · subst h; simp [hr]
  · rw [if_neg (Ne.symm h), if_neg h, List.getD_eq_getElem?_getD]

theorem dict_write_ne (s : State) (r r' : ℕ) (d : Params) (h : r' ≠ r) : (s.write r d).dict r' = s.dict r' := by
  unfold State.write State.dict
  rw [List.getD_eq_getElem?_getD, List.getElem?_set, if_neg (Ne.symm h), List.getD_eq_getElem?_getD]

theorem dict_alloc (s : State) (d : Params) (r : ℕ) (hr : r < s.dicts.length) : (s.alloc d).1.dict r = s.dict r := by
  unfold State.alloc State.dict
  simp [List.getElem?_append_left hr]

theorem dict_alloc_new (s : State) (d : Params) : (s.alloc d).1.dict (s.alloc d).2 = d := by
  unfold State.alloc State.dict
  simp

theorem get?_setDefault (d : Params) (kv : String × Val) (k : String) :
    PyDict.get? (setDefault d kv) k = (PyDict.get? d k).or (if kv.1 = k then some kv.2 else none) := by
  unfold setDefault
  by_cases h : PyDict.has d kv.1 = true
  · rw [if_pos h]
    by_cases e : kv.1 = k
    · subst e
      obtain ⟨v, hv⟩ := Option.isSome_iff_exists.1 h
      rw [hv]
      simp
    · rw [if_neg e, Option.or_none]
  · rw [if_neg h]
    have hk : kv.1 ∉ PyDict.keys d := fun hm => h ((PyDict.has_iff _ _).2 hm)
    rw [← PyDict.set_of_not_mem hk, PyDict.get?_set]
    by_cases e : kv.1 = k
    · subst e
      rw [(PyDict.get?_eq_none_iff _ _).2 hk]
      simp
    · simp [e, Ne.symm e]

theorem get?_setDefaults (l : Params) (d : Params) (k : String) :
    PyDict.get? (l.foldl setDefault d) k = (PyDict.get? d k).or (PyDict.get? l k) := by
  induction l generalizing d with
  | nil => simp
  | cons x l ih =>
    rw [List.foldl_cons, ih, get?_setDefault, PyDict.get?_cons, Option.or_assoc]
    congr 1
    by_cases e : x.1 = k
    · simp [e]
    · simp [e]

theorem get?_put (l : Params) (hl : PyDict.WF l) (d : Params) (k : String) :
    PyDict.get? (put d l) k = (PyDict.get? l k).or (PyDict.get? d k) := by
  unfold put
  induction l generalizing d with
  | nil => simp
  | cons x l ih =>
    have hx : x.1 ∉ PyDict.keys l := by
      unfold PyDict.WF PyDict.keys at hl
      simp only [List.map_cons, List.nodup_cons] at hl
      exact hl.1
    have hw : PyDict.WF l := by
      unfold PyDict.WF PyDict.keys at hl ⊢
      simp only [List.map_cons, List.nodup_cons] at hl
      exact hl.2
    rw [List.foldl_cons, ih hw, PyDict.get?_cons, PyDict.get?_set]
    by_cases e : x.1 = k
    · subst e
      rw [(PyDict.get?_eq_none_iff _ _).2 hx]
      simp
    · simp [e, Ne.symm e]

theorem forced_wf (c : Cls) (path : Val) : PyDict.WF (c.forced path) := by
  rcases c with (_ | _ | _) | _ <;> simp [Cls.forced, PyDict.WF, PyDict.keys]

/-- The content of the dictionary of a new model. -/
theorem fill_settings (c : Cls) (path : Val) (d : Params) (k : String) :
    PyDict.get? (fill c path d) k = settingsOf c path (PyDict.get? d) k := by
  unfold fill
  rw [get?_put _ (forced_wf c path), get?_setDefaults]
  unfold settingsOf
  have h1 : PyDict.get? (c.forced path) k = (fixed c k).map fun v => v.getD path := by
    rcases c with (_ | _ | _) | _
    · simp [Cls.forced, fixed]
    · simp [Cls.forced, fixed]
    · by_cases e : k = "pad_label"
      · subst e; rfl
      · simp [Cls.forced, PyDict.get?_cons, fixed, e, Ne.symm e]
    · by_cases e : k = "pad_label"
      · subst e; rfl
      · by_cases e2 : k = "model_path"
        · subst e2; rfl
        · simp [Cls.forced, PyDict.get?_cons, fixed, e, e2, Ne.symm e, Ne.symm e2]
  have h2 : fixed c k = none → PyDict.get? c.defaults k = fallback c k := by
    intro _
    rcases c with (_ | _ | _) | _
    · by_cases e0 : k = "regex_patterns"
      · subst e0; rfl
      by_cases e1 : k = "encapsulators"
      · subst e1; rfl
      by_cases e2 : k = "ignore_case"
      · subst e2; rfl
      by_cases e3 : k = "default_label"
      · subst e3; rfl
      simp [Cls.defaults, ModelCls.defaults, PyDict.get?_cons, fallback, e0, Ne.symm e0, e1, Ne.symm e1, e2, Ne.symm e2, e3, Ne.symm e3]
    · by_cases e0 : k = "false_positive_dict"
      · subst e0; rfl
      by_cases e1 : k = "true_positive_dict"
      · subst e1; rfl
      by_cases e2 : k = "include_label"
      · subst e2; rfl
      by_cases e3 : k = "negative_threshold_config"
      · subst e3; rfl
      by_cases e4 : k = "positive_threshold_config"
      · subst e4; rfl
      simp [Cls.defaults, ModelCls.defaults, PyDict.get?_cons, fallback, e0, Ne.symm e0, e1, Ne.symm e1, e2, Ne.symm e2, e3, Ne.symm e3, e4, Ne.symm e4]
    · by_cases e0 : k = "max_length"
      · subst e0; rfl
      by_cases e1 : k = "max_char_encoding_id"
      · subst e1; rfl
      by_cases e2 : k = "dim_embed"
      · subst e2; rfl
      by_cases e3 : k = "size_fc"
      · subst e3; rfl
      by_cases e4 : k = "dropout"
      · subst e4; rfl
      by_cases e5 : k = "size_conv"
      · subst e5; rfl
      by_cases e6 : k = "default_label"
      · subst e6; rfl
      by_cases e7 : k = "num_fil"
      · subst e7; rfl
      simp [Cls.defaults, ModelCls.defaults, PyDict.get?_cons, fallback, e0, Ne.symm e0, e1, Ne.symm e1, e2, Ne.symm e2, e3, Ne.symm e3, e4, Ne.symm e4, e5, Ne.symm e5, e6, Ne.symm e6, e7, Ne.symm e7]
    · by_cases e0 : k = "default_label"
      · subst e0; rfl
      simp [Cls.defaults, PyDict.get?_cons, fallback, e0, Ne.symm e0]
  rw [h1]
  cases hf : fixed c k with
  | some v => simp
  | none =>
    rw [h2 hf]
    simp

/-! ## Models that do not share -/

/-- Every model has a dictionary of its own. -/
structure Apart (s : State) : Prop where
  lt : ∀ (i : ℕ) (o : Obj), s.models[i]? = some o → o.params < s.dicts.length
  ne : ∀ (i j : ℕ) (o p : Obj), s.models[i]? = some o → s.models[j]? = some p → i ≠ j → o.params ≠ p.params

theorem take_fresh (s : State) (g : Given) (hg : ∀ r, g ≠ .shared r) : ∃ d, s.take g = s.alloc d := by
  cases g with
  | none => exact ⟨[], rfl⟩
  | fresh d => exact ⟨d, rfl⟩
  | shared r => exact absurd rfl (hg r)

/-- What the constructor leaves behind when it takes a dictionary of its own. -/
theorem construct_cases (E : Env W) (s : State) (c : Cls) (path : Val) (g : Given) (l : LabelMap.Given String) (hg : ∀ r, g ≠ .shared r) :
    ∃ d, (construct E s c path g l).1.dicts = s.dicts ++ [d] ∧
      ((construct E s c path g l).1.models = s.models ∨
        ∃ m, (construct E s c path g l).1.models = s.models ++ [⟨c, s.dicts.length, m⟩]) := by
  obtain ⟨d, hd⟩ := take_fresh s g hg
  refine ⟨fill c path d, ?_⟩
  have hdict : (s.alloc d).1.dict (s.alloc d).2 = d := dict_alloc_new s d
  have hw : ((s.alloc d).1.write (s.alloc d).2 (fill c path d)).dicts = s.dicts ++ [fill c path d] := by
    unfold State.write State.alloc
    simp
  unfold construct
  simp only [hd, hdict]
  split
  · exact ⟨hw, Or.inl rfl⟩
  · exact ⟨hw, Or.inr ⟨_, rfl⟩⟩

theorem apart_relabel (h : Apart s) (i : ℕ) (o : Obj) (ho : s.models[i]? = some o) (m : PyDict String ℕ) : Apart (s.relabel i o m) := by
  have key : ∀ (j : ℕ) (p : Obj), (s.relabel i o m).models[j]? = some p → ∃ q, s.models[j]? = some q ∧ q.params = p.params := by
    intro j p hp
    unfold State.relabel at hp
    simp only [List.getElem?_set] at hp
    by_cases e : i = j
    · subst e
      rw [if_pos rfl] at hp
      split_ifs at hp with hl
      · injection hp with hp
        subst hp
        exact ⟨o, ho, rfl⟩
    · rw [if_neg e] at hp
      exact ⟨p, hp, rfl⟩
  constructor
  · intro j p hp
    obtain ⟨q, hq, e⟩ := key j p hp
    rw [← e]
    exact h.lt j q hq
  · intro j k p q hp hq hne
    obtain ⟨p', hp', e⟩ := key j p hp
    obtain ⟨q', hq', e'⟩ := key k q hq
    rw [← e, ← e']
    exact h.ne j k p' q' hp' hq' hne

theorem apart_write (h : Apart s) (r : ℕ) (d : Params) : Apart (s.write r d) := by
  constructor
  · intro i o ho
    have := h.lt i o ho
    unfold State.write
    simpa using this
  · intro i j o p ho hp
    exact h.ne i j o p ho hp

theorem apart_construct (h : Apart s) (c : Cls) (path : Val) (g : Given) (l : LabelMap.Given String) (hg : ∀ r, g ≠ .shared r) :
    Apart (construct E s c path g l).1 := by
  obtain ⟨d, h1, h2⟩ := construct_cases E s c path g l hg
  rcases h2 with h2 | ⟨m, h2⟩
  · constructor
    · intro i o ho
      rw [h2] at ho
      rw [h1, List.length_append]
      exact Nat.lt_of_lt_of_le (h.lt i o ho) (Nat.le_add_right _ _)
    · intro i j o p ho hp
      rw [h2] at ho hp
      exact h.ne i j o p ho hp
  · have key : ∀ (i : ℕ) (o : Obj), (s.models ++ [(⟨c, s.dicts.length, m⟩ : Obj)])[i]? = some o →
        (s.models[i]? = some o) ∨ (i = s.models.length ∧ o.params = s.dicts.length) := by
      intro i o ho
      rcases Nat.lt_trichotomy i s.models.length with hi | hi | hi
      · rw [List.getElem?_append_left hi] at ho
        exact Or.inl ho
      · subst hi
        rw [List.getElem?_append_right (Nat.le_refl _)] at ho
        simp only [Nat.sub_self, List.getElem?_cons_zero, Option.some.injEq] at ho
        exact Or.inr ⟨rfl, by rw [← ho]⟩
      · rw [List.getElem?_eq_none (by rw [List.length_append, List.length_singleton]; omega)] at ho
        cases ho
    constructor
    · intro i o ho
      rw [h2] at ho
      rw [h1, List.length_append, List.length_singleton]
      rcases key i o ho with h' | ⟨-, h'⟩
      · exact Nat.lt_succ_of_lt (h.lt i o h')
      · omega
    · intro i j o p ho hp hij
      rw [h2] at ho hp
      rcases key i o ho with h' | ⟨e1, h'⟩ <;> rcases key j p hp with h'' | ⟨e2, h''⟩
      · exact h.ne i j o p h' h'' hij
      · rw [h'']
        exact (h.lt i o h').ne
      · rw [h']
        exact (h.lt j p h'').ne'
      · exact absurd (e1.trans e2.symm) hij

theorem apart_step (h : Apart s) (op : Op) (ho : Own op) : Apart (step E s op) := by
  cases op with
  | write r k v => exact absurd ho id
  | construct c path g l =>
    refine apart_construct h c path g l ?_
    rintro r rfl
    exact ho
  | setParams i kw =>
    simp only [step, setParams]
    split
    · exact h
    · split
      · exact h
      · exact apart_write h _ _
  | setLabels i g =>
    simp only [step, setLabels]
    split
    · exact h
    · rename_i o hi
      split
      · exact h
      · exact apart_relabel h i o hi _
  | addLabel i l a =>
    simp only [step, addLabel]
    split
    · exact h
    · rename_i o hi
      exact apart_relabel h i o hi _

theorem apart_run (ops : List Op) (h : ∀ op ∈ ops, Own op) : Apart (run E ops) := by
  have : ∀ (ops : List Op) (s : State), Apart s → (∀ op ∈ ops, Own op) → Apart (ops.foldl (step E) s) := by
    intro ops
    induction ops with
    | nil => exact fun s hs _ => hs
    | cons op ops ih =>
      intro s hs ho
      exact ih _ (apart_step hs op (ho op (by simp))) fun op' h' => ho op' (by simp [h'])
  refine this ops _ ⟨?_, ?_⟩ h
  · intro i o ho
    simp at ho
  · intro i j o p ho
    simp at ho

theorem shown_of {s t : State} {i : ℕ} {c : Cls} {f : String → Option Val} {l : PyDict String ℕ} (h : Shown s i c f l)
    (hm : t.models[i]? = s.models[i]?) (hd : ∀ o, s.models[i]? = some o → t.dict o.params = s.dict o.params) : Shown t i c f l := by
  obtain ⟨o, h1, h2, h3, h4⟩ := h
  refine ⟨o, by rw [hm]; exact h1, h2, ?_, h4⟩
  intro k
  rw [← h3 k]
  exact congrArg (fun d => PyDict.get? d k) (hd o h1)

/-- **C102** In a program that hands over dictionaries it uses for nothing else, whatever is done -- models made, with success or not, settings and
labels of other models changed -- a model keeps class, settings and labels until something is done to itself. -/
theorem C102_own (ops : List Op) (h : ∀ op ∈ ops, Own op) (op : Op) (ho : Own op) (i : ℕ) (hi : ¬ Addresses op i) (c : Cls)
    (f : String → Option Val) (l : PyDict String ℕ) (hs : Shown (run E ops) i c f l) : Shown (step E (run E ops) op) i c f l := by
  have A := apart_run (E := E) ops h
  generalize run E ops = s at A hs
  have hlt : ∀ o, s.models[i]? = some o → i < s.models.length := fun o ho => (List.getElem?_eq_some_iff.1 ho).1
  cases op with
  | write r k v => exact absurd ho id
  | construct c' path g l' =>
    obtain ⟨d, h1, h2⟩ := construct_cases E s c' path g l' (by rintro r rfl; exact ho)
    have hs' := hs
    obtain ⟨o, ho', -⟩ := hs'
    refine shown_of hs ?_ ?_
    · simp only [step]
      rcases h2 with h2 | ⟨m, h2⟩
      · rw [h2]
      · rw [h2, List.getElem?_append_left (hlt o ho')]
    · intro p hp
      simp only [step]
      unfold State.dict
      rw [h1, List.getD_eq_getElem?_getD, List.getElem?_append_left (A.lt i p hp), List.getD_eq_getElem?_getD]
  | setParams j kw =>
    have hij : j ≠ i := hi
    simp only [step, setParams]
    split
    · exact hs
    · rename_i o hj
      split
      · exact hs
      · refine shown_of hs rfl ?_
        intro p hp
        exact dict_write_ne _ _ _ _ (A.ne i j p o hp hj (Ne.symm hij))
  | setLabels j g =>
    have hij : j ≠ i := hi
    simp only [step, setLabels]
    split
    · exact hs
    · rename_i o hj
      split
      · exact hs
      · refine shown_of hs ?_ (fun _ _ => rfl)
        unfold State.relabel
        rw [List.getElem?_set, if_neg hij]
  | addLabel j a b =>
    have hij : j ≠ i := hi
    simp only [step, addLabel]
    split
    · exact hs
    · refine shown_of hs ?_ (fun _ _ => rfl)
      unfold State.relabel
      rw [List.getElem?_set, if_neg hij]

/-- **C102** A new model: if the constructor succeeds with a dictionary of its own, the settings are those given, with the defaults of the class where
none was given; only the padding label and the path are never taken from the dictionary. Otherwise no model is added. -/
theorem C102_new (c : Cls) (path : Val) (d : Params) (g : LabelMap.Given String) :
    (∀ i, (construct E s c path (.fresh d) g).2 = .ok i →
      ∃ l, i = s.models.length ∧ Shown (construct E s c path (.fresh d) g).1 i c (settingsOf c path (PyDict.get? d)) l) ∧
    (∀ e, (construct E s c path (.fresh d) g).2 = .error e → (construct E s c path (.fresh d) g).1.models = s.models) := by
  have hdict : (s.alloc d).1.dict (s.alloc d).2 = d := dict_alloc_new s d
  have hlen : (s.alloc d).2 < (s.alloc d).1.dicts.length := by simp [State.alloc]
  unfold construct
  simp only [State.take, hdict, dict_write _ _ _ _ hlen, if_true]
  constructor
  · intro i hi
    split at hi
    · cases hi
    · rename_i m hm
      have hi' : s.models.length = i := by simpa [State.write, State.alloc] using hi
      subst hi'
      refine ⟨m, rfl, ⟨c, (s.alloc d).2, m⟩, ?_, rfl, ?_, rfl⟩
      · simp [State.write, State.alloc]
      · intro k
        show PyDict.get? (State.dict ((s.alloc d).1.write (s.alloc d).2 (fill c path d)) (s.alloc d).2) k = _
        rw [dict_write _ _ _ _ hlen, if_pos rfl, fill_settings]
  · intro e he
    split at he
    · rfl
    · cases he

/-- The dictionaries of all models exist. -/
def Bounded (s : State) : Prop := ∀ (i : ℕ) (o : Obj), s.models[i]? = some o → o.params < s.dicts.length

theorem bounded_relabel (h : Bounded s) (i : ℕ) (o : Obj) (ho : s.models[i]? = some o) (m : PyDict String ℕ) : Bounded (s.relabel i o m) := by
  intro j p hp
  unfold State.relabel at hp ⊢
  simp only [List.getElem?_set] at hp
  by_cases e : i = j
  · subst e
    rw [if_pos rfl] at hp
    split_ifs at hp with hl
    injection hp with hp
    subst hp
    exact h i o ho
  · rw [if_neg e] at hp
    exact h j p hp

theorem bounded_write (h : Bounded s) (r : ℕ) (d : Params) : Bounded (s.write r d) := by
  intro i o ho
  have := h i o ho
  unfold State.write
  simpa using this

theorem bounded_take (h : Bounded s) (g : Given) : Bounded (s.take g).1 ∧ (s.take g).2 < (s.take g).1.dicts.length := by
  have al : ∀ d, Bounded (s.alloc d).1 ∧ (s.alloc d).2 < (s.alloc d).1.dicts.length := by
    intro d
    refine ⟨?_, by simp [State.alloc]⟩
    intro i o ho
    have := h i o ho
    simp only [State.alloc, List.length_append, List.length_singleton]
    omega
  cases g with
  | none => exact al []
  | fresh d => exact al d
  | shared r =>
    simp only [State.take]
    split_ifs with hr
    · exact al []
    · refine ⟨h, ?_⟩
      by_contra hl
      refine hr ?_
      unfold State.dict
      rw [List.getD_eq_getElem?_getD, List.getElem?_eq_none (Nat.le_of_not_lt hl)]
      rfl

theorem bounded_step (h : Bounded s) (op : Op) : Bounded (step E s op) := by
  cases op with
  | write r k v => exact bounded_write h _ _
  | construct c path g l =>
    obtain ⟨h1, h2⟩ := bounded_take h g
    have h3 := bounded_write h1 (s.take g).2 (fill c path ((s.take g).1.dict (s.take g).2))
    simp only [step, construct]
    split
    · exact h3
    · intro i o ho
      simp only at ho ⊢
      rcases Nat.lt_trichotomy i ((s.take g).1.write (s.take g).2 (fill c path ((s.take g).1.dict (s.take g).2))).models.length with hi | hi | hi
      · rw [List.getElem?_append_left hi] at ho
        exact h3 i o ho
      · subst hi
        rw [List.getElem?_append_right (Nat.le_refl _)] at ho
        simp only [Nat.sub_self, List.getElem?_cons_zero, Option.some.injEq] at ho
        subst ho
        simpa [State.write] using h2
      · rw [List.getElem?_eq_none (by rw [List.length_append, List.length_singleton]; omega)] at ho
        cases ho
  | setParams i kw =>
    simp only [step, setParams]
    split
    · exact h
    · split
      · exact h
      · exact bounded_write h _ _
  | setLabels i g =>
    simp only [step, setLabels]
    split
    · exact h
    · rename_i o hi
      split
      · exact h
      · exact bounded_relabel h i o hi _
  | addLabel i l a =>
    simp only [step, addLabel]
    split
    · exact h
    · rename_i o hi
      exact bounded_relabel h i o hi _

theorem bounded_run (ops : List Op) : Bounded (run E ops) := by
  have : ∀ (ops : List Op) (s : State), Bounded s → Bounded (ops.foldl (step E) s) := by
    intro ops
    induction ops with
    | nil => exact fun s hs => hs
    | cons op ops ih => exact fun s hs => ih _ (bounded_step hs op)
  refine this ops _ ?_
  intro i o ho
  simp at ho

/-- **C102** `set_params`: accepted settings replace those of the same names and leave the others and the labels; refused ones change nothing, in
no model and no dictionary. -/
theorem C102_set (ops : List Op) (i : ℕ) (c : Cls) (f : String → Option Val) (l : PyDict String ℕ) (hs : Shown (run E ops) i c f l) (kw : Params)
    (hkw : PyDict.WF kw) :
    ((setParams E (run E ops) i kw).2 = .ok () → Shown (setParams E (run E ops) i kw).1 i c (Over (PyDict.get? kw) f) l) ∧
    (∀ e, (setParams E (run E ops) i kw).2 = .error e → (setParams E (run E ops) i kw).1 = run E ops) := by
  have hlt := bounded_run (E := E) ops
  generalize run E ops = s at hs hlt
  obtain ⟨o, h1, h2, h3, h4⟩ := hs
  unfold setParams
  simp only [h1]
  cases hc : check E o.cls o.mapping kw with
  | error e =>
    exact ⟨fun h => (by cases h), fun _ _ => rfl⟩
  | ok u =>
    simp only
    refine ⟨fun _ => ⟨o, h1, h2, ?_, h4⟩, fun e h => (by cases h)⟩
    intro k
    show PyDict.get? ((s.write o.params (put (s.dict o.params) kw)).dict o.params) k = _
    rw [dict_write _ _ _ _ (hlt i o h1), if_pos rfl, get?_put _ hkw]
    unfold Over
    rw [← h3 k]
    rfl

/-- **C102** `get_parameters` gives the settings asked for, the label mapping by its name, and `ValueError` for a name that is neither. -/
theorem C102_get (o : Obj) (names : List String) :
    ((∀ k ∈ names, k = "label_mapping" ∨ ∃ v, PyDict.get? (s.dict o.params) k = some v) →
      ∃ d, getParams s o (some names) = .ok d ∧ ∀ k, PyDict.get? d k =
        if k ∈ names then (PyDict.get? (s.dict o.params) k).or (some (mappingVal o.mapping)) else none) ∧
    ((∃ k ∈ names, k ≠ "label_mapping" ∧ PyDict.get? (s.dict o.params) k = none) → getParams s o (some names) = .error .valueError) := by
  unfold getParams
  simp only
  constructor
  · intro h
    have key : ∀ (names : List String) (d0 : Params),
        (∀ k ∈ names, k = "label_mapping" ∨ ∃ v, PyDict.get? (s.dict o.params) k = some v) →
        ∃ d, names.foldlM (fun d k =>
          match PyDict.get? (s.dict o.params) k with
          | some v => Except.ok (PyDict.set d k v)
          | none => if k = "label_mapping" then .ok (PyDict.set d k (mappingVal o.mapping)) else .error Err.valueError) d0 = .ok d ∧
          ∀ k, PyDict.get? d k = if k ∈ names then (PyDict.get? (s.dict o.params) k).or (some (mappingVal o.mapping))
            else PyDict.get? d0 k := by
      intro names
      induction names with
      | nil => exact fun d0 _ => ⟨d0, rfl, by simp⟩
      | cons k ks ih =>
        intro d0 h
        have hstep : ∃ d1, (match PyDict.get? (s.dict o.params) k with
            | some v => Except.ok (PyDict.set d0 k v)
            | none => if k = "label_mapping" then .ok (PyDict.set d0 k (mappingVal o.mapping)) else .error Err.valueError) = .ok d1 ∧
            ∀ k', PyDict.get? d1 k' = if k' = k then (PyDict.get? (s.dict o.params) k).or (some (mappingVal o.mapping))
              else PyDict.get? d0 k' := by
          cases hk : PyDict.get? (s.dict o.params) k with
          | some v =>
            refine ⟨_, rfl, fun k' => ?_⟩
            rw [PyDict.get?_set]
            by_cases e : k' = k
            · subst e; simp
            · simp [e, Ne.symm e]
          | none =>
            rcases h k (by simp) with e | ⟨v, hv⟩
            · refine ⟨PyDict.set d0 k (mappingVal o.mapping), by simp only [if_pos e], fun k' => ?_⟩
              rw [PyDict.get?_set]
              by_cases e : k' = k
              · subst e; simp
              · simp [e, Ne.symm e]
            · rw [hk] at hv
              cases hv
        obtain ⟨d1, e1, e2⟩ := hstep
        obtain ⟨d, f1, f2⟩ := ih d1 fun k' hk' => h k' (by simp [hk'])
        refine ⟨d, ?_, fun k' => ?_⟩
        · rw [List.foldlM_cons, e1]
          exact f1
        · rw [f2 k', e2 k']
          by_cases h1 : k' ∈ ks
          · simp [h1]
          · by_cases h2 : k' = k
            · subst h2; simp
            · simp [h1, h2]
    obtain ⟨d, h1, h2⟩ := key names [] h
    exact ⟨d, h1, fun k => by rw [h2 k]; simp⟩
  · rintro ⟨k, hk, hne, hn⟩
    have key : ∀ (names : List String) (d0 : Params), k ∈ names →
        names.foldlM (fun d k =>
          match PyDict.get? (s.dict o.params) k with
          | some v => Except.ok (PyDict.set d k v)
          | none => if k = "label_mapping" then .ok (PyDict.set d k (mappingVal o.mapping)) else .error Err.valueError) d0 =
            .error Err.valueError := by
      intro names
      induction names with
      | nil => intro d0 h; simp at h
      | cons x xs ih =>
        intro d0 h
        rw [List.foldlM_cons]
        by_cases hx : x = k
        · subst hx
          rw [hn]
          simp only [if_neg hne]
          rfl
        · have hx' : k ∈ xs := by simpa [Ne.symm hx] using h
          cases hg : PyDict.get? (s.dict o.params) x with
          | some v => exact ih _ hx'
          | none =>
            by_cases hl : x = "label_mapping"
            · simp only [if_pos hl]
              exact ih _ hx'
            · simp only [if_neg hl]
              rfl
    exact key names [] hk

/-- **C102** Without names it gives all settings and the label mapping. -/
theorem C102_get_all (o : Obj) : ∃ d, getParams s o none = .ok d ∧
    ∀ k, PyDict.get? d k = if k = "label_mapping" then some (mappingVal o.mapping) else PyDict.get? (s.dict o.params) k := by
  refine ⟨_, rfl, fun k => ?_⟩
  rw [PyDict.get?_set]
  by_cases h : k = "label_mapping"
  · rw [if_pos h, if_pos h.symm]
  · rw [if_neg h, if_neg (Ne.symm h)]

/-! ## Models that share a dictionary -/

/-- **C102 fails** for a `CharLoadTFModel` if a further one is made with the dictionary of the first: the first takes over the path of the second. -/
theorem C102_shared_fails (ops : List Op) (i : ℕ) (o : Obj) (ho : (run E ops).models[i]? = some o) (hne : (run E ops).dict o.params ≠ [])
    (path : Val) (g : LabelMap.Given String) :
    ∃ f, Shown (step E (run E ops) (.construct .tf path (.shared o.params) g)) i o.cls f o.mapping ∧ f "model_path" = some path ∧
      f "pad_label" = some (.str "PAD") := by
  have hlt := bounded_run (E := E) ops i o ho
  simp only [step]
  generalize run E ops = s at ho hlt hne
  have he : (s.dict o.params).isEmpty = false := by
    cases h : s.dict o.params with
    | nil => exact absurd h hne
    | cons a b => rfl
  have hi : i < s.models.length := (List.getElem?_eq_some_iff.1 ho).1
  refine ⟨settingsOf .tf path (PyDict.get? (s.dict o.params)), ?_, rfl, rfl⟩
  have hd : ∀ k, PyDict.get? ((s.write o.params (fill .tf path (s.dict o.params))).dict o.params) k =
      settingsOf .tf path (PyDict.get? (s.dict o.params)) k := by
    intro k
    rw [dict_write _ _ _ _ hlt, if_pos rfl, fill_settings]
  unfold construct
  simp only [State.take, he, Bool.false_eq_true, if_false]
  split
  · exact ⟨o, ho, rfl, hd, rfl⟩
  · refine ⟨o, ?_, rfl, hd, rfl⟩
    show (s.models ++ _)[i]? = _
    rw [List.getElem?_append_left hi, ho]

/-- **C102 fails** for two models with one dictionary: settings of one become settings of the other, although only one of them was asked, and
even if the class of the other does not accept them. -/
theorem C102_shared_set_fails (ops : List Op) (i j : ℕ) (o p : Obj) (ho : (run E ops).models[i]? = some o)
    (hp : (run E ops).models[j]? = some p) (hsh : o.params = p.params) (kw : Params) (hkw : PyDict.WF kw)
    (hok : (setParams E (run E ops) i kw).2 = .ok ()) :
    Shown (step E (run E ops) (.setParams i kw)) j p.cls (Over (PyDict.get? kw) (PyDict.get? ((run E ops).dict p.params))) p.mapping := by
  have hlt := bounded_run (E := E) ops i o ho
  simp only [step]
  generalize run E ops = s at ho hp hlt hok
  have hok : check E o.cls o.mapping kw = .ok () := by
    unfold setParams at hok
    simp only [ho] at hok
    cases hc : check E o.cls o.mapping kw with
    | ok u => rfl
    | error e => rw [hc] at hok; cases hok
  unfold setParams
  simp only [ho, hok]
  refine ⟨p, hp, rfl, ?_, rfl⟩
  intro k
  show PyDict.get? ((s.write o.params (put (s.dict o.params) kw)).dict p.params) k = _
  rw [dict_write _ _ _ _ hlt, hsh, if_pos rfl, get?_put _ hkw]
  rfl

/-- **C102 fails** for a dictionary the program goes on using: an assignment to it becomes a setting of the model, unchecked. -/
theorem C102_written_fails (ops : List Op) (i : ℕ) (o : Obj) (ho : (run E ops).models[i]? = some o) (k : String) (v : Val) :
    ∃ f, Shown (step E (run E ops) (.write o.params k v)) i o.cls f o.mapping ∧ f k = some v := by
  have hlt := bounded_run (E := E) ops i o ho
  generalize run E ops = s at ho hlt
  refine ⟨PyDict.get? (PyDict.set (s.dict o.params) k v), ⟨o, ho, rfl, ?_, rfl⟩, ?_⟩
  · intro k'
    show PyDict.get? ((s.write o.params _).dict o.params) k' = _
    rw [dict_write _ _ _ _ hlt, if_pos rfl]
  · rw [PyDict.get?_set]
    simp

/-- **C102 fails** for the dictionary of the program: a constructor writes the defaults and the fixed settings into it, also when it then raises. -/
theorem C102_caller_fails (c : Cls) (path : Val) (r : ℕ) (hr : r < s.dicts.length) (hne : s.dict r ≠ []) (g : LabelMap.Given String) (k : String) :
    PyDict.get? ((construct E s c path (.shared r) g).1.dict r) k = settingsOf c path (PyDict.get? (s.dict r)) k := by
  have he : (s.dict r).isEmpty = false := by
    cases h : s.dict r with
    | nil => exact absurd h hne
    | cons a b => rfl
  rw [← fill_settings]
  unfold construct
  simp only [State.take, he, Bool.false_eq_true, if_false]
  split
  · rw [dict_write _ _ _ _ hr, if_pos rfl]
  · show PyDict.get? ((s.write r _).dict r) k = _
    rw [dict_write _ _ _ _ hr, if_pos rfl]

/-! ## A `CharLoadTFModel` on disk -/

/-- What holds of the dictionary and the labels of such a model. -/
def TfOk (s : State) : Prop := ∀ (i : ℕ) (o : Obj), s.models[i]? = some o → o.cls = .tf →
  PyDict.WF (s.dict o.params) ∧ (∀ x ∈ s.dict o.params, tfOk x.1 x.2 = true) ∧ PyDict.has o.mapping "PAD" = true

theorem mem_set_sub {K V : Type} [DecidableEq K] (d : PyDict K V) (k : K) (v : V) : ∀ x ∈ PyDict.set d k v, x = (k, v) ∨ x ∈ d := by
  induction d with
  | nil => intro x hx; exact Or.inl (by simpa [PyDict.set] using hx)
  | cons y d ih =>
    intro x hx
    obtain ⟨k', v'⟩ := y
    unfold PyDict.set at hx
    split_ifs at hx with h
    · rcases List.mem_cons.1 hx with h' | h'
      · exact Or.inl h'
      · exact Or.inr (List.mem_cons_of_mem _ h')
    · rcases List.mem_cons.1 hx with h' | h'
      · exact Or.inr (by rw [h']; exact List.mem_cons_self)
      · rcases ih x h' with h'' | h''
        · exact Or.inl h''
        · exact Or.inr (List.mem_cons_of_mem _ h'')

theorem put_wf (l : Params) (d : Params) (h : PyDict.WF d) : PyDict.WF (put d l) := by
  unfold put
  induction l generalizing d with
  | nil => exact h
  | cons x l ih => exact ih _ (PyDict.WF_set h _ _)

theorem mem_put (l : Params) (d : Params) : ∀ x ∈ put d l, x ∈ l ∨ x ∈ d := by
  unfold put
  induction l generalizing d with
  | nil => exact fun x hx => Or.inr hx
  | cons y l ih =>
    intro x hx
    rcases ih _ x hx with h | h
    · exact Or.inl (List.mem_cons_of_mem _ h)
    · rcases mem_set_sub _ _ _ x h with h | h
      · exact Or.inl (by rw [h]; exact List.mem_cons_self)
      · exact Or.inr h

theorem setDefault_wf (d : Params) (h : PyDict.WF d) (kv : String × Val) : PyDict.WF (setDefault d kv) := by
  unfold setDefault
  split_ifs with hh
  · exact h
  · have hk : kv.1 ∉ PyDict.keys d := fun hm => hh ((PyDict.has_iff _ _).2 hm)
    rw [← PyDict.set_of_not_mem hk]
    exact PyDict.WF_set h _ _

theorem fill_wf (c : Cls) (path : Val) (d : Params) (h : PyDict.WF d) : PyDict.WF (fill c path d) := by
  refine put_wf _ _ ?_
  generalize c.defaults = l
  induction l generalizing d with
  | nil => exact h
  | cons x l ih => exact ih _ (setDefault_wf d h x)

theorem has_ofList (start : ℕ) (l : List String) (k : String) (hk : k ∈ l) : PyDict.has (LabelMap.ofList start l) k = true := by
  unfold LabelMap.ofList
  have key : ∀ (xs : List (String × ℕ)) (d : PyDict String ℕ), (k ∈ PyDict.keys d ∨ k ∈ xs.map (·.1)) →
      PyDict.has (xs.foldl (fun d x => PyDict.set d x.1 x.2) d) k = true := by
    intro xs
    induction xs with
    | nil => intro d h; exact (PyDict.has_iff _ _).2 (by simpa using h)
    | cons x xs ih =>
      intro d h
      refine ih _ ?_
      rw [PyDict.mem_keys_iff]
      by_cases e : k = x.1
      · refine Or.inl ⟨x.2, ?_⟩
        rw [PyDict.get?_set, if_pos e.symm]
      · rcases h with h | h
        · obtain ⟨v, hv⟩ := (PyDict.mem_keys_iff _ _).1 h
          refine Or.inl ⟨v, ?_⟩
          rw [PyDict.get?_set, if_neg (Ne.symm e), hv]
        · refine Or.inr ?_
          simpa [e] using h
  exact key _ _ (Or.inr (by simpa using hk))

theorem labels_pad {p : Params} {g : LabelMap.Given String} {m : PyDict String ℕ} (h : labelsFor .tf p g = .ok m) : PyDict.has m "PAD" = true := by
  have setd : ∀ (d : PyDict String ℕ) m, LabelMap.setMapping false (.dict d) = .ok m → m = d := by
    intro d m h
    cases d with
    | nil => cases h
    | cons x d => injection h with h; exact h.symm
  have setl : ∀ (l : List String) m, LabelMap.setMapping false (.list l) = .ok m → m = LabelMap.ofList 1 l := by
    intro l m h
    cases l with
    | nil => cases h
    | cons x d => injection h with h; exact h.symm
  unfold labelsFor at h
  simp only at h
  cases hd : dfltOf p with
  | none => rw [hd] at h; cases h
  | some t =>
    rw [hd] at h
    simp only at h
    cases g with
    | other => cases h
    | list l =>
      unfold Network.loadedSet at h
      simp only at h
      by_cases ht : t ∈ (if "PAD" ∈ l then l else "PAD" :: l)
      · rw [if_pos ht] at h
        rw [setl _ _ h]
        refine has_ofList _ _ _ ?_
        by_cases hp : "PAD" ∈ l
        · rw [if_pos hp]; exact hp
        · rw [if_neg hp]; exact List.mem_cons_self
      · rw [if_neg ht] at h
        cases h
    | dict d =>
      unfold Network.loadedSet at h
      simp only at h
      split_ifs at h with h1 h2 h3 h4 h5
      · rw [setd _ _ h]; exact h1
      all_goals
        rw [setd _ _ h, PyDict.has_iff, PyDict.mem_keys_iff]
        exact ⟨_, by rw [PyDict.get?_set, if_pos rfl]⟩

theorem addLabel_pad (m : PyDict String ℕ) (a b : Option String) (h : PyDict.has m "PAD" = true) :
    PyDict.has (LabelMap.addLabel m a b).1 "PAD" = true := by
  have key : ∀ l n, PyDict.has (PyDict.set m l n) "PAD" = true := by
    intro l n
    rw [PyDict.has_iff, PyDict.mem_keys_iff] at h ⊢
    obtain ⟨v, hv⟩ := h
    by_cases e : l = "PAD"
    · exact ⟨n, by rw [PyDict.get?_set, if_pos e]⟩
    · exact ⟨v, by rw [PyDict.get?_set, if_neg e, hv]⟩
  unfold LabelMap.addLabel
  split
  · exact h
  · split_ifs
    · exact h
    · split
      · exact key _ _
      · split
        · exact key _ _
        · exact h

/-- The step hands over a dictionary, with every key once. -/
def PyOp : Op → Prop
  | .construct _ _ (.fresh d) _ => PyDict.WF d
  | _ => True

theorem check_tf {m : PyDict String ℕ} {kw : Params} (h : check E .tf m kw = .ok ()) : ∀ x ∈ kw, tfOk x.1 x.2 = true := by
  unfold check at h
  simp only at h
  split_ifs at h with h'
  exact fun x hx => List.all_eq_true.1 h' x hx

theorem tf_step (A : Apart s) (h : TfOk s) (op : Op) (ho : Own op) (hp : PyOp op) : TfOk (step E s op) := by
  cases op with
  | write r k v => exact absurd ho id
  | construct c path g l =>
    have hf : ∃ d, s.take g = s.alloc d ∧ PyDict.WF d := by
      cases g with
      | none => exact ⟨[], rfl, PyDict.WF_nil⟩
      | fresh d => exact ⟨d, rfl, hp⟩
      | shared r => exact absurd ho id
    obtain ⟨d, hd, hw⟩ := hf
    have hdict : (s.alloc d).1.dict (s.alloc d).2 = d := dict_alloc_new s d
    have hlen : (s.alloc d).2 < (s.alloc d).1.dicts.length := by simp [State.alloc]
    have old : ∀ (i : ℕ) (o : Obj), s.models[i]? = some o →
        ((s.alloc d).1.write (s.alloc d).2 (fill c path d)).dict o.params = s.dict o.params := by
      intro i o ho
      have hl := A.lt i o ho
      rw [dict_write_ne _ _ _ _ (by simpa [State.alloc] using hl.ne), dict_alloc _ _ _ hl]
    simp only [step, construct, hd, hdict, dict_write _ _ _ _ hlen, if_true]
    split
    · intro i o ho hc
      have ho : s.models[i]? = some o := ho
      rw [old i o ho]
      exact h i o ho hc
    · rename_i m hm
      intro i o ho hc
      have ho : (s.models ++ [(⟨c, (s.alloc d).2, m⟩ : Obj)])[i]? = some o := ho
      show PyDict.WF (((s.alloc d).1.write (s.alloc d).2 (fill c path d)).dict o.params) ∧
        (∀ x ∈ ((s.alloc d).1.write (s.alloc d).2 (fill c path d)).dict o.params, _) ∧ _
      rcases Nat.lt_trichotomy i s.models.length with hi | hi | hi
      · rw [List.getElem?_append_left hi] at ho
        rw [old i o ho]
        exact h i o ho hc
      · subst hi
        rw [List.getElem?_append_right (Nat.le_refl _)] at ho
        simp only [Nat.sub_self, List.getElem?_cons_zero, Option.some.injEq] at ho
        subst ho
        simp only at hc
        subst hc
        simp only [dict_write _ _ _ _ hlen, if_true]
        unfold accepted at hm
        simp only [Cls.paramsFirst, if_true] at hm
        cases hk : check E .tf [] (fill .tf path d) with
        | error e => rw [hk] at hm; cases hm
        | ok u =>
          rw [hk] at hm
          exact ⟨fill_wf _ _ _ hw, check_tf hk, labels_pad hm⟩
      · rw [List.getElem?_eq_none (by rw [List.length_append, List.length_singleton]; omega)] at ho
        cases ho
  | setParams i kw =>
    simp only [step, setParams]
    split
    · exact h
    · rename_i o hi
      split
      · exact h
      · rename_i hk
        intro j p hj hc
        have hj : s.models[j]? = some p := hj
        by_cases e : j = i
        · subst e
          have : p = o := by rw [hi] at hj; injection hj with hj; exact hj.symm
          subst this
          rw [dict_write _ _ _ _ (A.lt j p hj), if_pos rfl]
          obtain ⟨h1, h2, h3⟩ := h j p hj hc
          rw [hc] at hk
          refine ⟨put_wf _ _ h1, fun x hx => ?_, h3⟩
          rcases mem_put _ _ x hx with h' | h'
          · exact check_tf hk x h'
          · exact h2 x h'
        · rw [dict_write_ne _ _ _ _ (A.ne j i p o hj hi e)]
          exact h j p hj hc
  | setLabels i g =>
    simp only [step, setLabels]
    split
    · exact h
    · rename_i o hi
      split
      · exact h
      · rename_i m hm
        intro j p hj hc
        unfold State.relabel at hj
        simp only [List.getElem?_set] at hj
        by_cases e : i = j
        · subst e
          rw [if_pos rfl] at hj
          split_ifs at hj
          injection hj with hj
          subst hj
          obtain ⟨h1, h2, -⟩ := h i o hi hc
          simp only at hc
          rw [hc] at hm
          exact ⟨h1, h2, labels_pad hm⟩
        · rw [if_neg e] at hj
          exact h j p hj hc
  | addLabel i a b =>
    simp only [step, addLabel]
    split
    · exact h
    · rename_i o hi
      intro j p hj hc
      unfold State.relabel at hj
      simp only [List.getElem?_set] at hj
      by_cases e : i = j
      · subst e
        rw [if_pos rfl] at hj
        split_ifs at hj
        injection hj with hj
        subst hj
        obtain ⟨h1, h2, h3⟩ := h i o hi hc
        exact ⟨h1, h2, addLabel_pad _ _ _ h3⟩
      · rw [if_neg e] at hj
        exact h j p hj hc

theorem tf_run (ops : List Op) (h : ∀ op ∈ ops, Own op ∧ PyOp op) : TfOk (run E ops) := by
  have : ∀ (ops : List Op) (s : State), Apart s → TfOk s → (∀ op ∈ ops, Own op ∧ PyOp op) → TfOk (ops.foldl (step E) s) := by
    intro ops
    induction ops with
    | nil => exact fun s _ hs _ => hs
    | cons op ops ih =>
      intro s hA hs ho
      have h' := ho op (by simp)
      exact ih _ (apart_step hA op h'.1) (tf_step hA hs op h'.1 h'.2) fun op' h' => ho op' (by simp [h'])
  refine this ops _ ⟨?_, ?_⟩ ?_ h
  · intro i o ho
    simp at ho
  · intro i j o p ho
    simp at ho
  · intro i o ho
    simp at ho

theorem encodeDict_str : ∀ d : Params, (∀ x ∈ d, tfOk x.1 x.2 = true) → encodeDict d = .ok d
  | [], _ => rfl
  | (k, v) :: t, h => by
    have hv : tfOk k v = true := h (k, v) (by simp)
    have hs : v.isStr = true := by
      unfold tfOk at hv
      simp only [Bool.and_eq_true] at hv
      exact hv.2
    have ht := encodeDict_str t fun x hx => h x (by simp [hx])
    cases v with
    | str s => simp only [encodeDict, encode, ht, Except.map]
    | _ => simp [Val.isStr] at hs

theorem del_sub (d : Params) (k : String) : ∀ x ∈ PyDict.del d k, x ∈ d := by
  induction d with
  | nil => intro x hx; simpa [PyDict.del] using hx
  | cons y d ih =>
    intro x hx
    obtain ⟨k', v'⟩ := y
    unfold PyDict.del at hx
    split_ifs at hx with h
    · exact List.mem_cons_of_mem _ hx
    · rcases List.mem_cons.1 hx with h' | h'
      · rw [h']; exact List.mem_cons_self
      · exact List.mem_cons_of_mem _ (ih x h')

theorem construct_ok {c : Cls} {path : Val} {d : Params} {g : LabelMap.Given String} {m : PyDict String ℕ}
    (h : accepted E c (fill c path d) g = .ok m) :
    (construct E s c path (.fresh d) g).2 = .ok s.models.length ∧
      Shown (construct E s c path (.fresh d) g).1 s.models.length c (settingsOf c path (PyDict.get? d)) m := by
  have hdict : (s.alloc d).1.dict (s.alloc d).2 = d := dict_alloc_new s d
  have hlen : (s.alloc d).2 < (s.alloc d).1.dicts.length := by simp [State.alloc]
  unfold construct
  simp only [State.take, hdict, dict_write _ _ _ _ hlen, if_true, h]
  refine ⟨rfl, ⟨c, (s.alloc d).2, m⟩, ?_, rfl, ?_, rfl⟩
  · simp [State.write, State.alloc]
  · intro k
    show PyDict.get? (State.dict ((s.alloc d).1.write (s.alloc d).2 (fill c path d)) (s.alloc d).2) k = _
    rw [dict_write _ _ _ _ hlen, if_pos rfl, fill_settings]

/-- **C102** (part) A `CharLoadTFModel` that was saved can be loaded as long as its default label is one of its labels. The new model has the same
labels and the same settings, with the directory for the path and the usual padding label. Missing: the network and its files. -/
theorem C102_round_partial (ops : List Op) (h : ∀ op ∈ ops, Own op ∧ PyOp op) (i : ℕ) (o : Obj) (ho : (run E ops).models[i]? = some o)
    (f : String → Option Val) (l : PyDict String ℕ) (hs : Shown (run E ops) i .tf f l) (t : String) (ht : f "default_label" = some (.str t))
    (hl : PyDict.has l t = true) (g : PyDict String (File W)) (path : String) :
    ∃ g', saveTf (run E ops) o (some g) = (some g', .ok ()) ∧
      ∀ s', ∃ j, (loadTf E s' (.str path) (some g')).2 = .ok j ∧
        Shown (loadTf E s' (.str path) (some g')).1 j .tf
          (fun k => if k = "model_path" then some (.str path) else if k = "pad_label" then some (.str "PAD") else f k) l := by
  have T := tf_run (E := E) ops h
  generalize run E ops = s at ho hs T
  obtain ⟨o', h1, h2, h3, h4⟩ := hs
  obtain rfl : o' = o := by rw [h1] at ho; injection ho
  obtain ⟨hw, hok, hpad⟩ := T i o' h1 h2
  have h3 : ∀ k, PyDict.get? (s.dict o'.params) k = f k := h3
  subst h4
  generalize hd : s.dict o'.params = d at hw hok h3
  generalize hm : o'.mapping = m at hpad hl
  set e := PyDict.del d "model_path" with he
  have hew : PyDict.WF e := PyDict.WF_del hw _
  have heok : ∀ x ∈ e, tfOk x.1 x.2 = true := fun x hx => hok x (del_sub _ _ x hx)
  have hee : encode (.dict e) = .ok (.dict e) := by
    simp only [encode, encodeDict_str e heok, Except.map]
  have hget : ∀ k, PyDict.get? e k = if k = "model_path" then none else f k := by
    intro k
    rw [he, PyDict.get?_del hw, h3]
    by_cases h : k = "model_path"
    · rw [if_pos h, if_pos h.symm]
    · rw [if_neg h, if_neg (Ne.symm h)]
  have hset : ∀ k, settingsOf .tf (.str path) (PyDict.get? e) k =
      if k = "model_path" then some (.str path) else if k = "pad_label" then some (.str "PAD") else f k := by
    intro k
    unfold settingsOf
    by_cases h1 : k = "model_path"
    · subst h1; rfl
    · by_cases h2 : k = "pad_label"
      · subst h2; rfl
      · rw [if_neg h1, if_neg h2]
        have hf : fixed .tf k = none := by
          unfold fixed
          split <;> simp_all
        rw [hf]
        simp only [hget, if_neg h1]
        by_cases h3 : k = "default_label"
        · subst h3; rw [ht]; rfl
        · unfold fallback
          simp only [if_neg h3, Option.or_none]
  have hacc : accepted E .tf (fill .tf (.str path) e) (.dict m) = .ok m := by
    have hc : check E .tf [] (fill .tf (.str path) e) = .ok () := by
      unfold check
      simp only
      rw [if_pos]
      refine List.all_eq_true.2 fun x hx => ?_
      rcases mem_put _ _ x hx with h | h
      · simp only [Cls.forced, List.mem_cons, List.not_mem_nil, or_false] at h
        rcases h with rfl | rfl <;> rfl
      · have : x = ("default_label", .str "UNKNOWN") ∨ x ∈ e := by
          simp only [Cls.defaults, List.foldl_cons, List.foldl_nil, setDefault] at h
          split_ifs at h
          · exact Or.inr h
          · rcases List.mem_append.1 h with h | h
            · exact Or.inr h
            · exact Or.inl (by simpa using h)
        rcases this with rfl | h
        · rfl
        · exact heok x h
    have hdf : dfltOf (fill .tf (.str path) e) = some t := by
      unfold dfltOf
      rw [fill_settings, hset, if_neg (by decide), if_neg (by decide), ht]
    unfold accepted
    simp only [Cls.paramsFirst, if_true, hc, labelsFor, hdf, Network.loadedSet, hpad, hl]
    cases m with
    | nil => cases hpad
    | cons x m => rfl
  refine ⟨PyDict.set (PyDict.set g "model_parameters.json" (.json (.dict e))) "label_mapping.json" (.json (mappingVal m)), ?_, ?_⟩
  · unfold saveTf
    simp only [dump]
    rw [hd, ← he, hee]
    simp only [hm, encode_mapping]
  · intro s'
    have r1 : read (some (PyDict.set (PyDict.set g "model_parameters.json" (.json (.dict e))) "label_mapping.json" (.json (mappingVal m))))
        "model_parameters.json" = .ok (.dict e) := by
      unfold LabelerDisk.read
      simp only [PyDict.get?_set]
      rfl
    have r2 : read (some (PyDict.set (PyDict.set g "model_parameters.json" (.json (.dict e))) "label_mapping.json" (.json (mappingVal m))))
        "label_mapping.json" = .ok (mappingVal m) := by
      unfold LabelerDisk.read
      simp only [PyDict.get?_set]
      rfl
    have hne : m.isEmpty = false := by
      cases m with
      | nil => cases hpad
      | cons x m => rfl
    unfold loadTf
    simp only [r1, r2, mappingOf_val, hne, Bool.false_eq_true, if_false]
    obtain ⟨j1, j2⟩ := construct_ok (E := E) (s := s') hacc
    refine ⟨_, j1, ?_⟩
    have : (fun k => if k = "model_path" then some (.str path) else if k = "pad_label" then some (.str "PAD") else f k) =
        settingsOf .tf (.str path) (PyDict.get? e) := funext fun k => (hset k).symm
    rw [this]
    exact j2

/-! ## Concrete cases -/

/-- An environment. -/
def env : Env ℕ := ⟨fun _ => ⟨[], none⟩, fun _ => true, fun _ _ => 0, fun w _ => w⟩

/-- Two models, of which the first is then changed, and one that is refused. -/
def twoModels : List Op :=
  [.construct .tf (.str "net") (.fresh []) (.list ["UNKNOWN", "date"]),
    .construct (.known .regex) .none (.fresh [("default_label", .str "none")]) (.dict [("none", 0), ("date", 1)]),
    .setParams 0 [("default_label", .str "date")],
    .construct .tf (.str "other") (.fresh [("dropout", .int 1)]) (.list ["UNKNOWN"])]

theorem twoModels_own : ∀ op ∈ twoModels, Own op ∧ PyOp op := by
  intro op h
  simp only [twoModels, List.mem_cons, List.not_mem_nil, or_false] at h
  rcases h with rfl | rfl | rfl | rfl
  · exact ⟨trivial, PyDict.WF_nil⟩
  · exact ⟨trivial, by simp [PyOp, PyDict.WF, PyDict.keys]⟩
  · exact ⟨trivial, trivial⟩
  · exact ⟨trivial, by simp [PyOp, PyDict.WF, PyDict.keys]⟩

theorem twoModels_state : (run env twoModels).models.map (fun o => (o.params, o.mapping)) =
    [(0, [("PAD", 1), ("UNKNOWN", 2), ("date", 3)]), (1, [("none", 0), ("date", 1)])] := by decide +kernel

theorem twoModels_dict : (run env twoModels).dict 0 =
    [("default_label", .str "date"), ("model_path", .str "net"), ("pad_label", .str "PAD")] := rfl

theorem twoModels_first : (run env twoModels).models[0]? = some ⟨.tf, 0, [("PAD", 1), ("UNKNOWN", 2), ("date", 3)]⟩ := rfl

/-- The first model as it is shown; the hypotheses of `C102_own`, `C102_set` and `C102_round_partial` hold. -/
theorem twoModels_shown : Shown (run env twoModels) 0 .tf
    (PyDict.get? [("default_label", .str "date"), ("model_path", .str "net"), ("pad_label", .str "PAD")])
    [("PAD", 1), ("UNKNOWN", 2), ("date", 3)] := ⟨_, twoModels_first, rfl, fun _ => rfl, rfl⟩

example : Shown (step env (run env twoModels) (.setParams 1 [("ignore_case", .bool false)])) 0 .tf
    (PyDict.get? [("default_label", .str "date"), ("model_path", .str "net"), ("pad_label", .str "PAD")])
    [("PAD", 1), ("UNKNOWN", 2), ("date", 3)] :=
  C102_own twoModels (fun op h => (twoModels_own op h).1)
    (.setParams 1 [("ignore_case", .bool false)]) trivial 0 (by simp [Addresses]) _ _ _ twoModels_shown

example : (setParams env (run env twoModels) 0 [("default_label", .str "UNKNOWN")]).2 = .ok () := rfl

example : (setParams env (run env twoModels) 0 [("default_label", .str "UNKNOWN"), ("dropout", .int 1)]).2 = .error .valueError := rfl

example (o : Obj) (h : (run env twoModels).models[0]? = some o) : getParams (run env twoModels) o (some ["pad_label", "label_mapping"]) =
    .ok [("pad_label", .str "PAD"), ("label_mapping", .dict [("PAD", .int 1), ("UNKNOWN", .int 2), ("date", .int 3)])] := by
  rw [twoModels_first] at h
  injection h with h
  subst h
  rfl

example : ∃ g', saveTf (run env twoModels) ⟨.tf, 0, [("PAD", 1), ("UNKNOWN", 2), ("date", 3)]⟩ (some ([] : PyDict String (File ℕ))) =
    (some g', .ok ()) := by
  obtain ⟨g', h, -⟩ := C102_round_partial twoModels twoModels_own 0 _ twoModels_first _ _ twoModels_shown "date" rfl rfl [] "dir"
  exact ⟨g', h⟩

/-- **C102 fails** for the models of a program that keeps its dictionary: two networks from different places, and both then say they came from the
second; changing the default label of one changes that of the other. -/
theorem C102_same_dict_fails : ∃ ops f g l, Shown (run env ops) 0 .tf f l ∧ Shown (run env ops) 1 .tf g l ∧ f "model_path" = some (.str "second") ∧
    Shown (step env (run env ops) (.setParams 1 [("default_label", .str "date")])) 0 .tf (Over (PyDict.get? [("default_label", .str "date")]) f) l :=
  ⟨[.construct .tf (.str "first") (.fresh [("default_label", .str "UNKNOWN")]) (.list ["UNKNOWN", "date"]),
      .construct .tf (.str "second") (.shared 0) (.list ["UNKNOWN", "date"])],
    PyDict.get? [("default_label", .str "UNKNOWN"), ("model_path", .str "second"), ("pad_label", .str "PAD")],
    PyDict.get? [("default_label", .str "UNKNOWN"), ("model_path", .str "second"), ("pad_label", .str "PAD")],
    [("PAD", 1), ("UNKNOWN", 2), ("date", 3)],
    ⟨_, rfl, rfl, fun _ => rfl, rfl⟩, ⟨_, rfl, rfl, fun _ => rfl, rfl⟩, rfl,
    ⟨⟨.tf, 0, _⟩, rfl, rfl, fun k => by
      show PyDict.get? [("default_label", Val.str "date"), ("model_path", .str "second"), ("pad_label", .str "PAD")] k = _
      simp only [Over, PyDict.get?_cons, PyDict.get?_nil]
      split_ifs <;> rfl, rfl⟩⟩

/-- **C102 fails** for a default label that is no label: `set_params` takes it, `save_to_disk` writes it, and what was written cannot be loaded. -/
theorem C102_round_fails : ∃ ops o g, (∀ op ∈ ops, Own op ∧ PyOp op) ∧ (run env ops).models[0]? = some o ∧
    saveTf (W := ℕ) (run env ops) o (some []) = (some g, .ok ()) ∧ (loadTf env (run env ops) (.str "dir") (some g)).2 = .error .valueError :=
  ⟨twoModels ++ [.setParams 0 [("default_label", .str "city")]], _, _, by
    intro op h
    rcases List.mem_append.1 h with h | h
    · exact twoModels_own op h
    · rw [List.mem_singleton] at h
      subst h
      exact ⟨trivial, trivial⟩, rfl, rfl, rfl⟩

/-- **C102 fails** for equality: a model that was saved and loaded differs from the saved one, as the path is a setting. -/
theorem C102_equal_fails : ∃ g o p, (run env twoModels).models[0]? = some o ∧ saveTf (W := ℕ) (run env twoModels) o (some []) = (some g, .ok ()) ∧
    (loadTf env (run env twoModels) (.str "dir") (some g)).1.models[2]? = some p ∧
    equal (loadTf env (run env twoModels) (.str "dir") (some g)).1 o p = false ∧
    equal (loadTf env (run env twoModels) (.str "net") (some g)).1 o p = true :=
  ⟨_, _, _, rfl, rfl, rfl, by decide +kernel, by decide +kernel⟩

end Verif.Props.ModelObjects
