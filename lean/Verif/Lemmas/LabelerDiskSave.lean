import Verif.Lemmas.LabelerDiskModel

/-!
# Lemmas on labelers written to disk
-/

namespace Verif.LabelerDisk

open Verif Spec

variable {W : Type}

theorem dump_some (f : PyDict String (File W)) (n : String) (v : Val) :
    dump (some f) n v = match encode v with
      | .ok j => (some (PyDict.set f n (.json j)), .ok ())
      | .error e => (some (PyDict.set f n .broken), .error e) := rfl

theorem dump_ok {f : PyDict String (File W)} {n : String} {v : Val} {d : Dir W} (h : dump (some f) n v = (d, .ok ())) :
    ∃ j, encode v = .ok j ∧ d = some (PyDict.set f n (.json j)) := by
  rw [dump_some] at h
  cases hv : encode v with
  | error e => rw [hv] at h; simp at h
  | ok j => rw [hv] at h; simp at h; exact ⟨j, rfl, h.symm⟩

theorem dump_error {f : PyDict String (File W)} {n : String} {v : Val} {d : Dir W} {e : Err}
    (h : dump (some f) n v = (d, .error e)) : encode v = .error e ∧ d = some (PyDict.set f n .broken) := by
  rw [dump_some] at h
  cases hv : encode v with
  | error e => rw [hv] at h; simp at h; exact ⟨by rw [h.2], h.1.symm⟩
  | ok j => rw [hv] at h; simp at h

theorem ready_ok {E : Env W} {m n : Model W} (h : m.ready E = .ok n) :
    n.cls = m.cls ∧ n.params = m.params ∧ n.mapping = m.mapping ∧ (m.cls ≠ .cnn → n.net = m.net) ∧
    (m.cls = .cnn → ∃ s i w, dfltOf m.params = some s ∧ PyDict.get? m.mapping s = some i ∧
      n.net = some ⟨w, LabelMap.numLabels m.mapping, i⟩) := by
  unfold Model.ready at h
  cases hc : m.cls with
  | cnn =>
    rw [hc] at h
    simp only at h
    cases hd : dfltOf m.params with
    | none => rw [hd] at h; simp at h
    | some s =>
      rw [hd] at h
      simp only [Option.bind_some] at h
      cases hi : PyDict.get? m.mapping s with
      | none => rw [hi] at h; simp at h
      | some i =>
        rw [hi] at h
        simp only at h
        cases hn : m.net with
        | none =>
          rw [hn] at h
          simp only [Except.ok.injEq] at h
          subst h
          exact ⟨rfl, rfl, rfl, fun hx => absurd rfl hx, fun _ => ⟨s, i, _, rfl, hi, rfl⟩⟩
        | some net =>
          rw [hn] at h
          simp only at h
          by_cases hx : LabelMap.numLabels m.mapping ≠ net.labels ∨ i ≠ net.dflt
          · rw [if_pos hx] at h
            simp only [Except.ok.injEq] at h
            subst h
            exact ⟨rfl, rfl, rfl, fun hx => absurd rfl hx, fun _ => ⟨s, i, _, rfl, hi, rfl⟩⟩
          · rw [if_neg hx] at h
            simp only [Except.ok.injEq] at h
            subst h
            push Not at hx
            refine ⟨hc, rfl, rfl, fun hx => absurd rfl hx, fun _ => ⟨s, i, net.weights, rfl, hi, ?_⟩⟩
            rw [hn, hx.1, hx.2]
  | regex => rw [hc] at h; simp only [Except.ok.injEq] at h; subst h; exact ⟨hc, rfl, rfl, fun _ => rfl, by simp⟩
  | columnName => rw [hc] at h; simp only [Except.ok.injEq] at h; subst h; exact ⟨hc, rfl, rfl, fun _ => rfl, by simp⟩

theorem ensure_some (c : ModelCls) (f : PyDict String (File W)) : ensure c (some f) = some f := by cases c <;> rfl

/-- The files after the parameters and labels of a model were written. -/
def written (f : PyDict String (File W)) (e : Params) (l : PyDict String ℕ) (net : Option (Net W)) : PyDict String (File W) :=
  let f := PyDict.set (PyDict.set f "model_parameters.json" (.json (.dict e))) "label_mapping.json" (.json (mappingVal l))
  match net with
  | some n => PyDict.set f "model.keras" (.net n.weights)
  | none => f

theorem modelSave_ok {E : Env W} {m n : Model W} {f : PyDict String (File W)} {d : Dir W}
    (h : m.save E (some f) = (d, .ok n)) : m.ready E = .ok n ∧ ∃ e, encodeDict m.params = .ok e ∧
      d = some (written f e m.mapping n.net) := by
  unfold Model.save at h
  cases hr : m.ready E with
  | error e => rw [hr] at h; simp at h
  | ok k =>
    rw [hr] at h
    simp only at h
    rw [ensure_some] at h
    obtain ⟨-, h2, h3, -⟩ := ready_ok hr
    cases hd : dump (some f) "model_parameters.json" (.dict k.params) with
    | mk d1 r1 =>
      rw [hd] at h
      cases r1 with
      | error e => simp at h
      | ok u =>
        obtain ⟨j, hj, rfl⟩ := dump_ok hd
        obtain ⟨e, he, rfl⟩ := encode_dict hj
        simp only [dump_some, encode_mapping] at h
        simp only [Prod.mk.injEq, Except.ok.injEq] at h
        obtain ⟨h4, rfl⟩ := h
        refine ⟨rfl, e, by rw [← h2]; exact he, ?_⟩
        rw [← h4]
        unfold saveNet written
        cases k.net <;> simp [h3]

theorem modelSave_error {E : Env W} {m : Model W} {f : PyDict String (File W)} {d : Dir W} {x : Err}
    (h : m.save E (some f) = (d, .error x)) : (m.ready E = .error x ∧ d = some f) ∨
      ((∃ n, m.ready E = .ok n) ∧ encodeDict m.params = .error x ∧ d = some (PyDict.set f "model_parameters.json" .broken)) := by
  unfold Model.save at h
  cases hr : m.ready E with
  | error e => rw [hr] at h; simp at h; exact .inl ⟨by rw [h.2], h.1.symm⟩
  | ok k =>
    rw [hr] at h
    simp only at h
    rw [ensure_some] at h
    obtain ⟨-, h2, h3, -⟩ := ready_ok hr
    cases hd : dump (some f) "model_parameters.json" (.dict k.params) with
    | mk d1 r1 =>
      rw [hd] at h
      cases r1 with
      | error e =>
        simp at h
        obtain ⟨h4, h5⟩ := dump_error hd
        right
        refine ⟨⟨k, rfl⟩, ?_, by rw [← h.1]; exact h5⟩
        rw [encode] at h4
        rw [← h2, ← h.2]
        cases he : encodeDict k.params with
        | error e' => rw [he] at h4; simp [Except.map] at h4; rw [h4]
        | ok e' => rw [he] at h4; simp [Except.map] at h4
      | ok u =>
        obtain ⟨j, hj, rfl⟩ := dump_ok hd
        simp only [dump_some, encode_mapping] at h
        simp at h

/-- All files of a labeler. -/
def allFiles (f : PyDict String (File W)) (l : Labeler W) (e ep eq : Params) (net : Option (Net W)) : PyDict String (File W) :=
  PyDict.set (PyDict.set (written (PyDict.set f "data_labeler_parameters.json" (.json l.classes)) e l.model.mapping net)
    l.pre.cls.file (.json (.dict ep))) l.post.cls.file (.json (.dict eq))

theorem encode_classes (l : Labeler W) : encode l.classes = .ok l.classes := by
  simp [Labeler.classes, encode, encodeDict, Except.map]

theorem save_ok {E : Env W} {l n : Labeler W} {f : PyDict String (File W)} {d : Dir W} (h : l.save E (some f) = (d, .ok n)) :
    n.trainable = l.trainable ∧ n.pre = l.pre ∧ n.post = l.post ∧ l.model.ready E = .ok n.model ∧
    ∃ e ep eq, encodeDict l.model.params = .ok e ∧ encodeDict l.pre.stored = .ok ep ∧ encodeDict l.post.stored = .ok eq ∧
      d = some (allFiles f l e ep eq n.model.net) := by
  unfold Labeler.save at h
  simp only [dump_some, encode_classes] at h
  cases hm : l.model.save E (some (PyDict.set f "data_labeler_parameters.json" (.json l.classes))) with
  | mk d1 r1 =>
    rw [hm] at h
    cases r1 with
    | error e => simp at h
    | ok m =>
      obtain ⟨hr, e, he, rfl⟩ := modelSave_ok hm
      simp only [Proc.save] at h
      cases hp : dump (some (written (PyDict.set f "data_labeler_parameters.json" (.json l.classes)) e l.model.mapping m.net))
          l.pre.cls.file (.dict l.pre.stored) with
      | mk d2 r2 =>
        rw [hp] at h
        cases r2 with
        | error e => simp at h
        | ok u =>
          obtain ⟨j, hj, rfl⟩ := dump_ok hp
          obtain ⟨ep, hep, rfl⟩ := encode_dict hj
          simp only at h
          generalize hg : PyDict.set (written (PyDict.set f "data_labeler_parameters.json" (.json l.classes)) e
            l.model.mapping m.net) l.pre.cls.file (.json (.dict ep)) = g at h
          cases hq : dump (some g) l.post.cls.file (.dict l.post.stored) with
          | mk d3 r3 =>
            rw [hq] at h
            cases r3 with
            | error e => simp at h
            | ok u =>
              obtain ⟨j, hj, rfl⟩ := dump_ok hq
              obtain ⟨eq, heq, rfl⟩ := encode_dict hj
              simp only [Prod.mk.injEq, Except.ok.injEq] at h
              obtain ⟨rfl, rfl⟩ := h
              refine ⟨rfl, rfl, rfl, hr, e, ep, eq, he, hep, heq, ?_⟩
              unfold allFiles
              rw [hg]

theorem save_of {E : Env W} {l : Labeler W} {m : Model W} {f : PyDict String (File W)} {e ep eq : Params}
    (hr : l.model.ready E = .ok m) (he : encodeDict l.model.params = .ok e) (hp : encodeDict l.pre.stored = .ok ep)
    (hq : encodeDict l.post.stored = .ok eq) :
    l.save E (some f) = (some (allFiles f l e ep eq m.net), .ok { l with model := m }) := by
  obtain ⟨h1, h2, h3, -⟩ := ready_ok hr
  unfold Labeler.save Model.save Proc.save
  simp only [dump_some, encode_classes, hr, ensure_some, h2, h3, encode_mapping]
  rw [encode, he]
  simp only [Except.map, dump_some, encode_mapping]
  have : saveNet (some (PyDict.set (PyDict.set (PyDict.set f "data_labeler_parameters.json" (.json l.classes))
      "model_parameters.json" (.json (.dict e))) "label_mapping.json" (.json (mappingVal l.model.mapping)))) m.net =
      some (written (PyDict.set f "data_labeler_parameters.json" (.json l.classes)) e l.model.mapping m.net) := by
    unfold saveNet written
    cases m.net <;> rfl
  rw [this]
  simp only [dump_some]
  rw [encode, hp]
  simp only [Except.map, dump_some]
  rw [encode, hq]
  rfl

/-- The reading of the files. -/
theorem files_get {f : PyDict String (File W)} {l : Labeler W} {e ep eq : Params} {net : Option (Net W)}
    (hpre : l.pre.cls.isPre = true) (hpost : l.post.cls.isPre = false) :
    read (some (allFiles f l e ep eq net)) "data_labeler_parameters.json" = .ok l.classes ∧
    read (some (allFiles f l e ep eq net)) "model_parameters.json" = .ok (.dict e) ∧
    read (some (allFiles f l e ep eq net)) "label_mapping.json" = .ok (mappingVal l.model.mapping) ∧
    read (some (allFiles f l e ep eq net)) l.pre.cls.file = .ok (.dict ep) ∧
    read (some (allFiles f l e ep eq net)) l.post.cls.file = .ok (.dict eq) ∧
    (∀ n, net = some n → PyDict.get? (allFiles f l e ep eq net) "model.keras" = some (.net n.weights)) := by
  have h1 : l.pre.cls.file = "preprocessor_parameters.json" := by unfold ProcCls.file; rw [if_pos hpre]
  have h2 : l.post.cls.file = "postprocessor_parameters.json" := by unfold ProcCls.file; rw [if_neg (by rw [hpost]; decide)]
  unfold allFiles written read
  rw [h1, h2]
  cases net with
  | none => simp [PyDict.get?_set]
  | some n => simp [PyDict.get?_set]

theorem files_other {f : PyDict String (File W)} {l : Labeler W} {e ep eq : Params} {net : Option (Net W)}
    {n : String} (hn : n ∉ ["data_labeler_parameters.json", "model_parameters.json", "label_mapping.json", "model.keras",
      "preprocessor_parameters.json", "postprocessor_parameters.json"]) :
    PyDict.get? (allFiles f l e ep eq net) n = PyDict.get? f n := by
  simp only [List.mem_cons, List.not_mem_nil, or_false, not_or] at hn
  obtain ⟨n1, n2, n3, n4, n5, n6⟩ := hn
  have hf : ∀ c : ProcCls, c.file ≠ n := by
    intro c
    unfold ProcCls.file
    split_ifs
    · exact Ne.symm n5
    · exact Ne.symm n6
  unfold allFiles written
  rw [PyDict.get?_set, if_neg (hf _), PyDict.get?_set, if_neg (hf _)]
  cases net with
  | none =>
    simp only
    rw [PyDict.get?_set, if_neg (Ne.symm n3), PyDict.get?_set, if_neg (Ne.symm n2), PyDict.get?_set, if_neg (Ne.symm n1)]
  | some w =>
    simp only
    rw [PyDict.get?_set, if_neg (Ne.symm n4), PyDict.get?_set, if_neg (Ne.symm n3), PyDict.get?_set, if_neg (Ne.symm n2),
      PyDict.get?_set, if_neg (Ne.symm n1)]

theorem findModel_name (c : ModelCls) : findModel c.name = some c := by cases c <;> decide

theorem findProc_name (c : ProcCls) : findProc c.name = some c := by cases c <;> decide

theorem classOf_model (l : Labeler W) : classOf l.classes "model" = .ok (.str l.model.cls.name) := by
  simp [classOf, Labeler.classes, PyDict.get?]

theorem classOf_pre (l : Labeler W) : classOf l.classes "preprocessor" = .ok (.str l.pre.cls.name) := by
  simp [classOf, Labeler.classes, PyDict.get?]

theorem classOf_post (l : Labeler W) : classOf l.classes "postprocessor" = .ok (.str l.post.cls.name) := by
  simp [classOf, Labeler.classes, PyDict.get?]

/-- A model that was saved is loaded as the same model. -/
theorem loadModel_saved {E : Env W} {m n : Model W} (hm : MInv E m) (hf : FitsModel E m) (hr : m.ready E = .ok n) {e : Params}
    (he : encodeDict m.params = .ok e) {g : PyDict String (File W)}
    (h1 : read (some g) "model_parameters.json" = .ok (.dict e))
    (h2 : read (some g) "label_mapping.json" = .ok (mappingVal m.mapping))
    (h3 : ∀ k, n.net = some k → PyDict.get? g "model.keras" = some (.net k.weights)) :
    ∃ net, loadModel E m.cls (some g) = .ok ⟨m.cls, e, m.mapping, net⟩ ∧ net.map Net.weights = n.net.map Net.weights := by
  obtain ⟨-, -, -, hn1, hn2⟩ := ready_ok hr
  have hi := initModel_saved hm hf he fun hc => by
    obtain ⟨s, i, w, a, b, -⟩ := hn2 hc
    exact ⟨s, a, (PyDict.mem_keys_iff _ _).2 ⟨i, b⟩⟩
  unfold loadModel
  rw [h1, h2]
  simp only [bind, Except.bind, mappingOf_val, hi]
  cases hc : m.cls with
  | cnn =>
    obtain ⟨s, i, w, a, b, c⟩ := hn2 hc
    have := h3 _ c
    simp only [loadNet, Option.bind_some, this, dfltOf_saved he a, b]
    exact ⟨_, rfl, by rw [c]⟩
  | regex =>
    refine ⟨none, rfl, ?_⟩
    rw [hn1 (by rw [hc]; simp), hm.nonet (by rw [hc]; simp)]
  | columnName =>
    refine ⟨none, rfl, ?_⟩
    rw [hn1 (by rw [hc]; simp), hm.nonet (by rw [hc]; simp)]

theorem checkName_same {C : Type} (name : C → String) {g : Option C} {c : C} (h : ∀ x, g = some x → x = c) :
    checkName name g (.str (name c)) = .ok () := by
  cases g with
  | none => rfl
  | some x => rw [h x rfl]; simp [checkName]

theorem resolve_same {C : Type} {find : String → Option C} {name : C → String} (hf : ∀ c, find (name c) = some c) {g : Option C}
    {c : C} (h : ∀ x, g = some x → x = c) : resolve find g (.str (name c)) = .ok c := by
  cases g with
  | none => simp [resolve, named, hf]
  | some x => rw [h x rfl]; rfl

theorem load_saved {E : Env W} {id : ℕ} {tr : Bool} {o : LoadOptions} {l : Labeler W} {d : Dir W} (ho : OptionsFit o l)
    (hpre : l.pre.cls.isPre = true) (hpost : l.post.cls.isPre = false) (htr : tr = true → l.model.cls = .cnn)
    (hd : read d "data_labeler_parameters.json" = .ok l.classes) {m : Model W} {p q : Proc}
    (hm : loadModel E l.model.cls d = .ok m) (hp : loadProc E id l.pre.cls d = .ok p)
    (hq : loadProc E id l.post.cls d = .ok q) : load E id tr o d = .ok ⟨tr, m, p, q⟩ := by
  obtain ⟨o1, o2, o3⟩ := ho
  have hopt : ((o.pre.any fun c => !c.isPre) || (o.post.any fun c => c.isPre)) = false := by
    rw [Bool.or_eq_false_iff]
    constructor
    · cases hx : o.pre with
      | none => rfl
      | some c => rw [o2 c hx]; simp [hpre]
    · cases hx : o.post with
      | none => rfl
      | some c => rw [o3 c hx]; simp [hpost]
  have htm : (tr && !trainableModel l.model.cls) = false := by
    cases tr with
    | false => rfl
    | true => rw [htr rfl]; rfl
  unfold load loadModelPart loadProcPart
  simp only [hd, bind, Except.bind, hopt, Bool.false_eq_true, if_false, classOf_model, classOf_pre, classOf_post,
    checkName_same _ o1, checkName_same _ o2, checkName_same _ o3, resolve_same findModel_name o1,
    resolve_same findProc_name o2, resolve_same findProc_name o3, hm, hp, hq, htm, hpre, hpost, if_true]

theorem bind_ok {α β : Type} {x : Except Err α} {f : α → Except Err β} {y : β} (h : (x >>= f) = .ok y) :
    ∃ a, x = .ok a ∧ f a = .ok y := by
  cases x with
  | error e => cases h
  | ok a => exact ⟨a, rfl, h⟩

theorem loadProcPart_reads {E : Env W} {id : ℕ} {pre : Bool} {g : Option ProcCls} {v : Val} {part : String} {d : Dir W} {p : Proc}
    (h : loadProcPart E id pre g v part d = .ok p) :
    ∃ j, read d (if pre then "preprocessor_parameters.json" else "postprocessor_parameters.json") = .ok j := by
  unfold loadProcPart at h
  obtain ⟨_, _, h⟩ := bind_ok h
  obtain ⟨c, -, h⟩ := bind_ok h
  obtain ⟨q, hq, h⟩ := bind_ok h
  split_ifs at h with hc
  unfold loadProc at hq
  unfold ProcCls.file at hq
  rw [hc] at hq
  cases hr : read d (if pre = true then "preprocessor_parameters.json" else "postprocessor_parameters.json") with
  | error e => rw [hr] at hq; cases hq
  | ok j => exact ⟨j, rfl⟩

/-- What is loaded was read. -/
theorem load_reads {E : Env W} {id : ℕ} {tr : Bool} {o : LoadOptions} {d : Dir W} {l : Labeler W} (h : load E id tr o d = .ok l) :
    (∃ j, read d "model_parameters.json" = .ok j) ∧ (∃ j, read d "preprocessor_parameters.json" = .ok j) ∧
    ∃ j, read d "postprocessor_parameters.json" = .ok j := by
  unfold load at h
  obtain ⟨v, -, h⟩ := bind_ok h
  split_ifs at h
  obtain ⟨_, _, h⟩ := bind_ok h
  obtain ⟨_, _, h⟩ := bind_ok h
  obtain ⟨_, _, h⟩ := bind_ok h
  obtain ⟨_, _, h⟩ := bind_ok h
  obtain ⟨_, _, h⟩ := bind_ok h
  obtain ⟨_, _, h⟩ := bind_ok h
  obtain ⟨m, hm, h⟩ := bind_ok h
  obtain ⟨p, hp, h⟩ := bind_ok h
  obtain ⟨q, hq, h⟩ := bind_ok h
  refine ⟨?_, loadProcPart_reads hp, loadProcPart_reads hq⟩
  unfold loadModelPart at hm
  obtain ⟨_, _, hm⟩ := bind_ok hm
  obtain ⟨c, -, hm⟩ := bind_ok hm
  obtain ⟨m', hm', -⟩ := bind_ok hm
  unfold loadModel at hm'
  obtain ⟨j, hj, -⟩ := bind_ok hm'
  exact ⟨j, hj⟩

theorem read_broken (f : PyDict String (File W)) (n : String) : read (some (PyDict.set f n .broken)) n = .error .valueError := by
  unfold read
  simp [PyDict.get?_set]

theorem plainDict_iff (d : Params) : plainDict d = true ↔ ∀ kv ∈ d, plain kv.2 = true := by
  induction d with
  | nil => simp [plainDict]
  | cons a t ih =>
    obtain ⟨k, v⟩ := a
    rw [plainDict, Bool.and_eq_true, ih]
    simp

theorem simpleDict_iff (d : Params) : simpleDict d = true ↔ ∀ kv ∈ d, simple kv.2 = true := by
  induction d with
  | nil => simp [simpleDict]
  | cons a t ih =>
    obtain ⟨k, v⟩ := a
    rw [simpleDict, Bool.and_eq_true, ih]
    simp

theorem getState_plain (r : Rng) : plain (getState (.rng r)) = true := by
  rw [encode_plain]
  unfold getState
  rw [encode, encodeList, encode, encodeList, encode, encodeList_ints]
  cases r.state.gauss <;> exact ⟨_, rfl⟩

theorem stored_plain {p : Proc} (h : Inv p) : plainDict p.stored = true ↔
    ∀ k v, PyDict.get? p.params k = some v → k ≠ "random_state" → ¬ (p.cls = .structChar ∧ k = "flatten_split") → plain v = true := by
  have hw : PyDict.WF p.stored := by
    unfold PyDict.WF; rw [stored_keys h]
    exact (names_nodup p.cls).sublist (List.sublist_append_left _ _)
  rw [plainDict_iff]
  constructor
  · intro hs k v hv hr hn
    by_cases hk : k ∈ PyDict.keys p.cls.args
    · have := stored_get h hk
      rw [hv, Option.map_some, if_neg hr] at this
      exact hs _ (PyDict.mem_of_get? this)
    · have hk2 : k ∈ names p.cls := by
        rw [← h.keys]; exact (PyDict.mem_keys_iff _ _).2 ⟨v, hv⟩
      simp only [names, List.mem_append, hk, false_or] at hk2
      cases hc : p.cls <;> rw [hc] at hk2 <;> simp [ProcCls.fixed, PyDict.keys] at hk2
      · exact absurd ⟨hc, hk2⟩ hn
      · obtain ⟨i1, i2⟩ := h.inner hc
        rcases hk2 with rfl | rfl
        · rw [i1] at hv; cases hv; rfl
        · rw [i2] at hv; cases hv; rfl
  · intro hs kv hm
    have hk : kv.1 ∈ PyDict.keys p.cls.args := by
      rw [← stored_keys h]; exact List.mem_map_of_mem hm
    have hg := PyDict.get?_of_mem hw hm
    rw [stored_get h hk] at hg
    cases hv : PyDict.get? p.params kv.1 with
    | none => rw [hv] at hg; cases hg
    | some v =>
      rw [hv, Option.map_some, Option.some.injEq] at hg
      by_cases hr : kv.1 = "random_state"
      · rw [if_pos hr] at hg
        rw [hr] at hv
        obtain ⟨r, rfl⟩ := good_rng (h.good _ _ hv)
        rw [← hg]
        exact getState_plain r
      · rw [if_neg hr] at hg
        rw [← hg]
        refine hs _ _ hv hr ?_
        rintro ⟨hc, hk'⟩
        rw [hc, hk'] at hk
        revert hk
        decide

theorem ready_iff {E : Env W} {m : Model W} : (∃ n, m.ready E = .ok n) ↔ (m.cls = .cnn → ∃ s i,
    dfltOf m.params = some s ∧ PyDict.get? m.mapping s = some i) := by
  constructor
  · rintro ⟨n, h⟩ hc
    obtain ⟨-, -, -, -, hx⟩ := ready_ok h
    obtain ⟨s, i, w, a, b, -⟩ := hx hc
    exact ⟨s, i, a, b⟩
  · intro h
    unfold Model.ready
    cases hc : m.cls with
    | regex => exact ⟨_, rfl⟩
    | columnName => exact ⟨_, rfl⟩
    | cnn =>
      obtain ⟨s, i, a, b⟩ := h hc
      simp only [a, Option.bind_some, b]
      cases m.net with
      | none => exact ⟨_, rfl⟩
      | some net => simp only; split_ifs <;> exact ⟨_, rfl⟩

theorem dfltOf_some {d : Params} {s : String} : dfltOf d = some s ↔ PyDict.get? d "default_label" = some (.str s) := by
  unfold dfltOf
  split
  · rename_i h; rw [h]; simp
  · rename_i h
    constructor
    · intro hx; cases hx
    · intro hx; exact absurd hx (h s)

theorem eqv_of_get {a b : Params} (hl : a.length = b.length) (ha : PyDict.WF a)
    (h : ∀ k v, PyDict.get? a k = some v → PyDict.get? b k = some v ∧ simple v = true ∧ plain v = true) :
    paramsEq a b = true := by
  unfold paramsEq
  rw [eqv, Bool.and_eq_true]
  refine ⟨by simp [hl], eqvDict_refl a b (fun k v hm => (h k v (PyDict.get?_of_mem ha hm)).1) ?_ ?_⟩
  · rw [simpleDict_iff]; intro kv hm; exact (h _ _ (PyDict.get?_of_mem ha hm)).2.1
  · rw [plainDict_iff]; intro kv hm; exact (h _ _ (PyDict.get?_of_mem ha hm)).2.2

theorem procEq_loaded {E : Env W} {id : ℕ} {p : Proc} (h : Inv p) (hf : Fits p) {e : Params}
    (he : encodeDict p.stored = .ok e) (hc : p.cls ≠ .regexPost ∧ p.cls ≠ .structRegexPost)
    (hs : ∀ k v, PyDict.get? p.params k = some v → simple v = true) : procEq p ⟨p.cls, loaded E id p.cls e⟩ = true := by
  have key : ∀ k ∈ PyDict.keys p.cls.args, k ≠ "random_state" → ∃ v, PyDict.get? p.params k = some v ∧
      PyDict.get? (loaded E id p.cls e) k = some v ∧ simple v = true ∧ plain v = true := by
    intro k hk hr
    obtain ⟨v, w, hv, hw, hx⟩ := loaded_get (E := E) (id := id) h he hk
    rcases hx with ⟨-, hx⟩ | ⟨hx, -⟩
    · have := encode_simple v w (hs k v hv) hx
      subst this
      exact ⟨w, hv, hw, hs k w hv, (encode_plain w).2 ⟨w, hx⟩⟩
    · exact absurd hx hr
  unfold procEq
  simp only [decide_true, Bool.true_and]
  by_cases hsc : p.cls = .structCharPost
  · rw [if_pos hsc, List.all_eq_true]
    intro k hk
    obtain ⟨v, h1, h2, h3, h4⟩ := key k (by
      rw [hsc]
      simp only [List.mem_cons, List.not_mem_nil, or_false] at hk
      rcases hk with rfl | rfl | rfl | rfl <;> decide) (by
      simp only [List.mem_cons, List.not_mem_nil, or_false] at hk
      rcases hk with rfl | rfl | rfl | rfl <;> decide)
    unfold entryEq
    rw [h1, h2]
    exact eqv_refl v h3 h4
  · rw [if_neg hsc]
    refine eqv_of_get ?_ h.wf ?_
    · have : (PyDict.keys p.params).length = (PyDict.keys (loaded E id p.cls e)).length := by rw [h.keys, loaded_keys]
      simpa [PyDict.keys] using this
    · intro k v hv
      by_cases hk : k ∈ PyDict.keys p.cls.args
      · have hr : k ≠ "random_state" := by
          rintro rfl
          revert hk hsc
          obtain ⟨c1, c2⟩ := hc
          revert c1 c2
          cases p.cls <;> decide
        obtain ⟨v', h1, h2, h3, h4⟩ := key k hk hr
        rw [hv] at h1
        injection h1 with h1
        subst h1
        exact ⟨h2, h3, h4⟩
      · have hk2 : k ∈ names p.cls := by
          rw [← h.keys]; exact (PyDict.mem_keys_iff _ _).2 ⟨v, hv⟩
        simp only [names, List.mem_append, hk, false_or] at hk2
        rw [loaded_fixed hk]
        cases hcc : p.cls <;> rw [hcc] at hk2 <;> simp [ProcCls.fixed, PyDict.keys] at hk2
        · subst hk2
          have := hf.split hcc
          rw [hv] at this
          injection this with this
          subst this
          exact ⟨rfl, rfl, rfl⟩
        · exact absurd hcc hc.2

theorem mapping_eqv {m : PyDict String ℕ} (h : PyDict.WF m) : eqv (mappingVal m) (mappingVal m) = true := by
  refine eqv_refl _ ?_ ((encode_plain _).2 ⟨_, encode_mapping m⟩)
  unfold mappingVal
  rw [simple, Bool.and_eq_true]
  constructor
  · rw [decide_eq_true_eq, List.map_map]
    exact h
  · rw [simpleDict_iff]
    intro kv hkv
    obtain ⟨a, -, rfl⟩ := List.mem_map.1 hkv
    rfl

end Verif.LabelerDisk
