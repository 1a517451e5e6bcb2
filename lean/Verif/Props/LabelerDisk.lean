import Verif.Lemmas.LabelerDiskSave

/-!
# Data labelers on disk (C83)
-/

namespace Verif.Props.LabelerDisk

open Verif LabelerDisk LabelerDisk.Spec

variable {W : Type}

theorem isPre_of {c : ProcCls} (h : c ∈ [.direct, .char, .charEncoded, .structChar]) : c.isPre = true := by
  simp only [List.mem_cons, List.not_mem_nil, or_false] at h
  rcases h with rfl | rfl | rfl | rfl <;> rfl

theorem isPost_of {c : ProcCls} (h : c ∈ [.charPost, .structCharPost, .regexPost, .structRegexPost, .columnPost]) :
    c.isPre = false := by
  simp only [List.mem_cons, List.not_mem_nil, or_false] at h
  rcases h with rfl | rfl | rfl | rfl | rfl <;> rfl

/-- The names of the files of a labeler. -/
def fileNames : List String := ["data_labeler_parameters.json", "model_parameters.json", "label_mapping.json", "model.keras",
  "preprocessor_parameters.json", "postprocessor_parameters.json"]

/-- Saving succeeds exactly if the directory exists and everything can be written; whether the settings go together does not
matter. -/
theorem C83_saves (E : Env W) (l : Labeler W) (hm : MadeModel E l.model) (hp : MadeProc E l.pre) (hq : MadeProc E l.post)
    (d : Dir W) : (∃ n, (l.save E d).2 = .ok n) ↔ d ≠ none ∧ Writable l := by
  have ip := inv_made hp
  have iq := inv_made hq
  have im := minv_made hm
  cases d with
  | none =>
    constructor
    · rintro ⟨n, h⟩
      simp [Labeler.save, dump] at h
    · rintro ⟨h, -⟩; exact absurd rfl h
  | some f =>
    constructor
    · rintro ⟨n, h⟩
      have h' : l.save E (some f) = ((l.save E (some f)).1, .ok n) := by rw [← h]
      obtain ⟨-, -, -, hr, e, ep, eq, he, hep, heq, -⟩ := save_ok h'
      refine ⟨by simp, fun k v hv => ?_, fun hc => ?_, ?_, ?_⟩
      · obtain ⟨w, hw, -⟩ := encodeDict_some he hv
        exact (encode_plain v).2 ⟨w, hw⟩
      · obtain ⟨s, i, a, b⟩ := ready_iff.1 ⟨_, hr⟩ hc
        exact ⟨s, i, dfltOf_some.1 a, b⟩
      · exact (stored_plain ip).1 ((encodeDict_plain _).2 ⟨ep, hep⟩)
      · exact (stored_plain iq).1 ((encodeDict_plain _).2 ⟨eq, heq⟩)
    · rintro ⟨-, h1, h2, h3, h4⟩
      obtain ⟨ep, hep⟩ := (encodeDict_plain _).1 ((stored_plain ip).2 h3)
      obtain ⟨eq, heq⟩ := (encodeDict_plain _).1 ((stored_plain iq).2 h4)
      obtain ⟨e, he⟩ := (encodeDict_plain l.model.params).1 ((plainDict_iff _).2 fun kv hk =>
        h1 _ _ (PyDict.get?_of_mem im.wf hk))
      obtain ⟨m, hr⟩ := ready_iff.2 fun hc => by
        obtain ⟨s, i, a, b⟩ := h2 hc
        exact ⟨s, i, dfltOf_some.2 a, b⟩
      rw [save_of hr he hep heq]
      exact ⟨_, rfl⟩

/-- Saving changes nothing of the labeler except that its network is made ready, and no other file of the directory. -/
theorem C83_kept (E : Env W) (l n : Labeler W) (f : PyDict String (File W)) (d : Dir W)
    (h : l.save E (some f) = (d, .ok n)) :
    n.trainable = l.trainable ∧ n.pre = l.pre ∧ n.post = l.post ∧ n.model.cls = l.model.cls ∧
    n.model.params = l.model.params ∧ n.model.mapping = l.model.mapping ∧ (l.model.cls ≠ .cnn → n.model = l.model) ∧
    ∃ g, d = some g ∧ ∀ name, name ∉ fileNames → PyDict.get? g name = PyDict.get? f name := by
  obtain ⟨h1, h2, h3, hr, e, ep, eq, he, hep, heq, rfl⟩ := save_ok h
  obtain ⟨a, b, c, x, -⟩ := ready_ok hr
  refine ⟨h1, h2, h3, a, b, c, fun hc => ?_, _, rfl, fun name hn => files_other hn⟩
  have := x hc
  cases hn : n.model; cases hl : l.model
  rw [hn, hl] at a b c
  rw [hn, hl] at this
  simp_all

/-- Saving keeps the weights of a network: they are adapted if the network was made for another number of labels or another default,
and otherwise the network is left alone. A network that was not made yet is made. -/
theorem C83_network (E : Env W) (l n : Labeler W) (f : PyDict String (File W)) (d : Dir W)
    (h : l.save E (some f) = (d, .ok n)) (hc : l.model.cls = .cnn) :
    ∃ i, ∃ s, PyDict.get? l.model.params "default_label" = some (.str s) ∧ PyDict.get? l.model.mapping s = some i ∧
      (l.model.net = none → n.model.net = some ⟨E.construct l.model.params l.model.mapping, LabelMap.numLabels l.model.mapping, i⟩) ∧
      ∀ net, l.model.net = some net →
        (net.labels = LabelMap.numLabels l.model.mapping ∧ net.dflt = i → n.model.net = some net) ∧
        (¬ (net.labels = LabelMap.numLabels l.model.mapping ∧ net.dflt = i) →
          n.model.net = some ⟨E.adapt net.weights l.model.mapping, LabelMap.numLabels l.model.mapping, i⟩) := by
  obtain ⟨h1, h2, h3, hr, e, ep, eq, he, hep, heq, rfl⟩ := save_ok h
  obtain ⟨s, i, hs, hi⟩ := (ready_iff (E := E)).1 ⟨_, hr⟩ hc
  refine ⟨i, s, dfltOf_some.1 hs, hi, ?_⟩
  unfold Model.ready at hr
  rw [hc] at hr
  simp only [hs, Option.bind_some, hi] at hr
  cases hn : l.model.net with
  | none =>
    rw [hn] at hr
    simp only [Except.ok.injEq] at hr
    exact ⟨fun _ => by rw [← hr], fun net h => by cases h⟩
  | some net =>
    rw [hn] at hr
    refine ⟨fun h => (by cases h), fun net' h' => ?_⟩
    cases h'
    simp only at hr
    split_ifs at hr with hd
    · simp only [Except.ok.injEq] at hr
      refine ⟨fun hk => ?_, fun _ => by rw [← hr]⟩
      rcases hd with hd | hd
      · exact absurd hk.1.symm hd
      · exact absurd hk.2.symm hd
    · simp only [Except.ok.injEq] at hr
      refine ⟨fun _ => by rw [← hr, hn], fun hk => absurd ⟨?_, ?_⟩ hk⟩
      · by_contra hx; exact hd (.inl (Ne.symm hx))
      · by_contra hx; exact hd (.inr (Ne.symm hx))

/-- Saving a second time leaves the labeler as it is. -/
theorem C83_save_again (E : Env W) (l n n' : Labeler W) (f g : PyDict String (File W)) (d d' : Dir W)
    (h : l.save E (some f) = (d, .ok n)) (h' : n.save E (some g) = (d', .ok n')) : n' = n := by
  obtain ⟨a1, a2, a3, a4, a5, a6, a7, -⟩ := C83_kept E n n' g d' h'
  obtain ⟨b1, b2, b3, b4, b5, b6, -, -⟩ := C83_kept E l n f d h
  have hnet : n'.model.net = n.model.net := by
    by_cases hc : n.model.cls = .cnn
    · obtain ⟨i, s, p1, p2, p3, p4⟩ := C83_network E n n' g d' h' hc
      obtain ⟨j, t, q1, q2, q3, q4⟩ := C83_network E l n f d h (b4 ▸ hc)
      rw [b5, q1] at p1
      injection p1 with p1; injection p1 with p1; subst p1
      rw [b6, q2] at p2; injection p2 with p2; subst p2
      obtain ⟨net, hnet, hl', hd'⟩ : ∃ net, n.model.net = some net ∧ net.labels = LabelMap.numLabels n.model.mapping ∧ net.dflt = j := by
        cases hn : l.model.net with
        | none => exact ⟨_, q3 hn, by rw [b6], rfl⟩
        | some net =>
          by_cases hk : net.labels = LabelMap.numLabels l.model.mapping ∧ net.dflt = j
          · exact ⟨net, (q4 net hn).1 hk, by rw [b6]; exact hk.1, hk.2⟩
          · exact ⟨_, (q4 net hn).2 hk, by rw [b6], rfl⟩
      rw [(p4 net hnet).1 ⟨hl', hd'⟩, hnet]
    · rw [a7 hc]
  obtain ⟨t', m', p', q'⟩ := n'
  obtain ⟨t, m, p, q⟩ := n
  cases m'; cases m
  simp_all

/-- A labeler that was saved is loaded as the same labeler, whatever was in the directory before, with or without instances of
its classes given, as a labeler or, for a network, as a labeler that can be trained. -/
theorem C83_round_partial (E : Env W) (l n : Labeler W) (hl : Usable E l) (f : PyDict String (File W)) (d : Dir W)
    (h : l.save E (some f) = (d, .ok n)) (id : ℕ) (tr : Bool) (htr : tr = true → l.model.cls = .cnn) (o : LoadOptions)
    (ho : OptionsFit o l) : ∃ x, load E id tr o d = .ok x ∧ SameLabeler n x ∧ x.trainable = tr := by
  obtain ⟨h1, h2, h3, hr, e, ep, eq, he, hep, heq, rfl⟩ := save_ok h
  have ip := inv_made hl.pre
  have iq := inv_made hl.post
  have im := minv_made hl.model
  obtain ⟨a, b, c, -, -⟩ := ready_ok hr
  obtain ⟨f1, f2, f3, f4, f5, f6⟩ := files_get (f := f) (l := l) (e := e) (ep := ep) (eq := eq) (net := n.model.net)
    (isPre_of hl.preKind) (isPost_of hl.postKind)
  obtain ⟨net, hm, hw⟩ := loadModel_saved im hl.fits hr he f2 f3 f6
  refine ⟨_, load_saved ho (isPre_of hl.preKind) (isPost_of hl.postKind) htr f1 hm
    (loadProc_saved ip hl.fitsPre hep f4) (loadProc_saved iq hl.fitsPost heq f5), ⟨⟨?_, ?_, ?_, hw⟩, ?_, ?_⟩, rfl⟩
  · exact a.symm
  · rw [b]
    intro k
    cases hk : PyDict.get? l.model.params k with
    | none => simp only; rw [(encodeDict_none he).2 hk]
    | some v =>
      obtain ⟨w, hew, hg⟩ := encodeDict_some he hk
      simp only
      rw [hg, Option.map_some, Option.map_some, encode_form v w hew]
  · intro k; rw [c]
  · rw [h2]; exact ⟨rfl, sameParams_get ip hl.fitsPre hep⟩
  · rw [h3]; exact ⟨rfl, sameParams_get iq hl.fitsPost heq⟩

/-- What is loaded equals what was saved, for parameters without tuples and postprocessors that do not compare generators. -/
theorem C83_equal_partial (E : Env W) (l n : Labeler W) (hl : Usable E l) (f : PyDict String (File W)) (d : Dir W)
    (h : l.save E (some f) = (d, .ok n)) (id : ℕ) (tr : Bool) (x : Labeler W)
    (hx : load E id tr ⟨none, none, none⟩ d = .ok x) (htr : tr = true → l.model.cls = .cnn)
    (hpost : l.post.cls ≠ .regexPost ∧ l.post.cls ≠ .structRegexPost)
    (hsm : ∀ k v, PyDict.get? l.model.params k = some v → simple v = true)
    (hsp : ∀ k v, PyDict.get? l.pre.params k = some v → simple v = true)
    (hsq : ∀ k v, PyDict.get? l.post.params k = some v → simple v = true) : labelerEq n x = true := by
  obtain ⟨h1, h2, h3, hr, e, ep, eq, he, hep, heq, rfl⟩ := save_ok h
  have ip := inv_made hl.pre
  have iq := inv_made hl.post
  have im := minv_made hl.model
  obtain ⟨a, b, c, -, -⟩ := ready_ok hr
  obtain ⟨f1, f2, f3, f4, f5, f6⟩ := files_get (f := f) (l := l) (e := e) (ep := ep) (eq := eq) (net := n.model.net)
    (isPre_of hl.preKind) (isPost_of hl.postKind)
  obtain ⟨net, hm, hw⟩ := loadModel_saved im hl.fits hr he f2 f3 f6
  have hlo := load_saved (E := E) (id := id) (tr := tr) (o := ⟨none, none, none⟩) ⟨by simp, by simp, by simp⟩
    (isPre_of hl.preKind) (isPost_of hl.postKind) htr f1 hm (loadProc_saved ip hl.fitsPre hep f4)
    (loadProc_saved iq hl.fitsPost heq f5)
  rw [hlo] at hx
  injection hx with hx
  subst hx
  have he' : e = l.model.params := encodeDict_simple _ _ ((simpleDict_iff _).2 fun kv hk =>
    hsm _ _ (PyDict.get?_of_mem im.wf hk)) he
  unfold labelerEq
  rw [h2, h3, procEq_loaded ip hl.fitsPre hep ?_ hsp, procEq_loaded iq hl.fitsPost heq hpost hsq]
  · simp only [Bool.true_and, Bool.and_true]
    unfold modelEq
    simp only [a, b, c, he', decide_true, Bool.or_true, Bool.true_and, mapping_eqv im.mwf, Bool.and_true]
    refine eqv_of_get rfl im.wf fun k v hv => ⟨hv, hsm k v hv, ?_⟩
    obtain ⟨w, hew, -⟩ := encodeDict_some he hv
    exact (encode_plain v).2 ⟨w, hew⟩
  · have := hl.preKind
    simp only [List.mem_cons, List.not_mem_nil, or_false] at this
    rcases this with hc | hc | hc | hc <;> rw [hc] <;> decide

/-- Nothing is loaded from a directory after a value could not be written to it: what was there before is lost. -/
theorem C83_failed (E : Env W) (l : Labeler W) (hpre : l.pre.cls ∈ [.direct, .char, .charEncoded, .structChar])
    (hpost : l.post.cls ∈ [.charPost, .structCharPost, .regexPost, .structRegexPost, .columnPost])
    (f : PyDict String (File W)) (d : Dir W) (x : Err) (h : l.save E (some f) = (d, .error x))
    (hd : l.model.cls = .cnn → ∃ s i, PyDict.get? l.model.params "default_label" = some (.str s) ∧
      PyDict.get? l.model.mapping s = some i) (id : ℕ) (tr : Bool) (o : LoadOptions) :
    ∃ y, load E id tr o d = .error y := by
  obtain ⟨m, hr⟩ := (ready_iff (E := E)).2 fun hc => by
    obtain ⟨s, i, a, b⟩ := hd hc
    exact ⟨s, i, dfltOf_some.2 a, b⟩
  cases hlo : load E id tr o d with
  | error y => exact ⟨y, rfl⟩
  | ok y =>
    exfalso
    obtain ⟨⟨j1, r1⟩, ⟨j2, r2⟩, ⟨j3, r3⟩⟩ := load_reads hlo
    have hp1 : l.pre.cls.file = "preprocessor_parameters.json" := by unfold ProcCls.file; rw [if_pos (isPre_of hpre)]
    have hp2 : l.post.cls.file = "postprocessor_parameters.json" := by
      unfold ProcCls.file; rw [if_neg (by rw [isPost_of hpost]; decide)]
    unfold Labeler.save at h
    simp only [dump_some, encode_classes] at h
    cases hm : l.model.save E (some (PyDict.set f "data_labeler_parameters.json" (.json l.classes))) with
    | mk d1 q1 =>
      rw [hm] at h
      cases q1 with
      | error e =>
        simp only [Prod.mk.injEq] at h
        obtain ⟨rfl, -⟩ := h
        rcases modelSave_error hm with ⟨hc, -⟩ | ⟨-, -, rfl⟩
        · rw [hr] at hc; cases hc
        · rw [read_broken] at r1; cases r1
      | ok m' =>
        obtain ⟨-, e, -, rfl⟩ := modelSave_ok hm
        simp only [Proc.save] at h
        generalize written (PyDict.set f "data_labeler_parameters.json" (.json l.classes)) e l.model.mapping m'.net = g at h
        cases hp : dump (some g) l.pre.cls.file (.dict l.pre.stored) with
        | mk d2 q2 =>
          rw [hp] at h
          cases q2 with
          | error e =>
            simp only [Prod.mk.injEq] at h
            obtain ⟨rfl, -⟩ := h
            obtain ⟨-, rfl⟩ := dump_error hp
            rw [hp1, read_broken] at r2; cases r2
          | ok u =>
            obtain ⟨j, -, rfl⟩ := dump_ok hp
            simp only at h
            cases hq : dump (some (PyDict.set g l.pre.cls.file (.json j))) l.post.cls.file (.dict l.post.stored) with
            | mk d3 q3 =>
              rw [hq] at h
              cases q3 with
              | error e =>
                simp only [Prod.mk.injEq] at h
                obtain ⟨rfl, -⟩ := h
                obtain ⟨-, rfl⟩ := dump_error hq
                rw [hp2, read_broken] at r3; cases r3
              | ok u => simp at h

/-- Instances of other classes than those saved are refused. -/
theorem C83_options (E : Env W) (l n : Labeler W) (hl : Usable E l) (f : PyDict String (File W)) (d : Dir W)
    (h : l.save E (some f) = (d, .ok n)) (id : ℕ) (tr : Bool) (o : LoadOptions) (ho : ¬ OptionsFit o l) :
    ∃ y, load E id tr o d = .error y := by
  obtain ⟨h1, h2, h3, hr, e, ep, eq, he, hep, heq, rfl⟩ := save_ok h
  obtain ⟨f1, -⟩ := files_get (f := f) (l := l) (e := e) (ep := ep) (eq := eq) (net := n.model.net)
    (isPre_of hl.preKind) (isPost_of hl.postKind)
  cases hlo : load E id tr o (some (allFiles f l e ep eq n.model.net)) with
  | error y => exact ⟨y, rfl⟩
  | ok y =>
    exfalso
    unfold load at hlo
    rw [f1] at hlo
    obtain ⟨v, hv, hlo⟩ := bind_ok hlo
    injection hv with hv
    subst hv
    split_ifs at hlo
    obtain ⟨c1, k1, hlo⟩ := bind_ok hlo
    obtain ⟨_, n1, hlo⟩ := bind_ok hlo
    obtain ⟨c2, k2, hlo⟩ := bind_ok hlo
    obtain ⟨_, n2, hlo⟩ := bind_ok hlo
    obtain ⟨c3, k3, hlo⟩ := bind_ok hlo
    obtain ⟨_, n3, hlo⟩ := bind_ok hlo
    rw [classOf_model] at k1; injection k1 with k1; subst k1
    rw [classOf_pre] at k2; injection k2 with k2; subst k2
    rw [classOf_post] at k3; injection k3 with k3; subst k3
    have minj : ∀ a b : ModelCls, a.name = b.name → a = b := by
      intro a b hab
      have := findModel_name a
      rw [hab, findModel_name] at this
      injection this with this
      exact this.symm
    have pinj : ∀ a b : ProcCls, a.name = b.name → a = b := by
      intro a b hab
      have := findProc_name a
      rw [hab, findProc_name] at this
      injection this with this
      exact this.symm
    refine ho ⟨fun c hc => ?_, fun c hc => ?_, fun c hc => ?_⟩
    · rw [hc] at n1; simp only [checkName] at n1
      split_ifs at n1 with hx
      exact (minj _ _ hx).symm
    · rw [hc] at n2; simp only [checkName] at n2
      split_ifs at n2 with hx
      exact (pinj _ _ hx).symm
    · rw [hc] at n3; simp only [checkName] at n3
      split_ifs at n3 with hx
      exact (pinj _ _ hx).symm

/-- A labeler whose model is no network cannot be loaded as one that can be trained. -/
theorem C83_trainable (E : Env W) (l n : Labeler W) (hl : Usable E l) (f : PyDict String (File W)) (d : Dir W)
    (h : l.save E (some f) = (d, .ok n)) (hc : l.model.cls ≠ .cnn) (id : ℕ) (o : LoadOptions) :
    ∃ y, load E id true o d = .error y := by
  cases hlo : load E id true o d with
  | error y => exact ⟨y, rfl⟩
  | ok y =>
    exfalso
    by_cases ho : OptionsFit o l
    · obtain ⟨h1, h2, h3, hr, e, ep, eq, he, hep, heq, rfl⟩ := save_ok h
      obtain ⟨f1, -⟩ := files_get (f := f) (l := l) (e := e) (ep := ep) (eq := eq) (net := n.model.net)
        (isPre_of hl.preKind) (isPost_of hl.postKind)
      unfold load at hlo
      rw [f1] at hlo
      obtain ⟨v, hv, hlo⟩ := bind_ok hlo
      injection hv with hv
      subst hv
      split_ifs at hlo
      obtain ⟨_, _, hlo⟩ := bind_ok hlo
      obtain ⟨_, _, hlo⟩ := bind_ok hlo
      obtain ⟨_, _, hlo⟩ := bind_ok hlo
      obtain ⟨_, _, hlo⟩ := bind_ok hlo
      obtain ⟨_, _, hlo⟩ := bind_ok hlo
      obtain ⟨_, _, hlo⟩ := bind_ok hlo
      obtain ⟨m, hm, hlo⟩ := bind_ok hlo
      unfold loadModelPart at hm
      rw [classOf_model] at hm
      obtain ⟨c, hcc, hm⟩ := bind_ok hm
      injection hcc with hcc
      subst hcc
      rw [resolve_same findModel_name ho.model] at hm
      obtain ⟨c, hcc, hm⟩ := bind_ok hm
      injection hcc with hcc
      subst hcc
      obtain ⟨_, _, hm⟩ := bind_ok hm
      have : trainableModel l.model.cls = false := by
        cases hx : l.model.cls <;> first
          | rfl
          | exact absurd hx hc
      rw [this] at hm
      cases hm
    · obtain ⟨y', hy⟩ := C83_options E l n hl f d h id true o ho
      rw [hlo] at hy
      cases hy

/-! ## Cases -/

/-- An environment to compute in. -/
def env : Env ℕ := ⟨fun _ => ⟨[1, 2], none⟩, fun _ => true, fun _ m => m.length, fun w _ => w + 1⟩

def pre : Proc := ⟨.char, [("max_length", .int 5), ("default_label", .str "UNKNOWN"), ("pad_label", .str "PAD"),
  ("flatten_split", .int 0), ("flatten_separator", .str " "), ("is_separate_at_max_len", .bool false)]⟩

def structPost : Proc := ⟨.structCharPost, [("default_label", .str "UNKNOWN"), ("pad_label", .str "PAD"),
  ("flatten_separator", .str "\x01\x01\x01\x01\x01"), ("is_pred_labels", .bool true), ("random_state", .rng ⟨0, [1, 2], none⟩)]⟩

def regexPost : Proc := ⟨.regexPost, [("aggregation_func", .str "split"), ("priority_order", .none),
  ("random_state", .rng ⟨0, [1, 2], none⟩)]⟩

def netParams : Params := [("dropout", .int 0), ("max_length", .int 3400), ("max_char_encoding_id", .int 127), ("dim_embed", .int 64),
  ("size_fc", .list [.int 96, .int 96]), ("size_conv", .int 13), ("default_label", .str "UNKNOWN"),
  ("num_fil", .list [.int 48, .int 48, .int 48, .int 48]), ("pad_label", .str "PAD")]

def netModel : Model ℕ := ⟨.cnn, netParams, [("UNKNOWN", 1), ("NAME", 2), ("PAD", 0)], none⟩

def regexParams : Params := [("regex_patterns", .dict [("A", .list [.str "a+"])]),
  ("encapsulators", .dict [("start", .str ""), ("end", .str "")]), ("ignore_case", .bool true), ("default_label", .str "UNKNOWN")]

def regexModel : Model ℕ := ⟨.regex, regexParams, [("UNKNOWN", 1), ("A", 2)], none⟩

theorem pre_made : MadeProc env pre := .init (id := 0) (c := .char) (kw := [("max_length", .int 5)]) rfl

theorem structPost_made : MadeProc env structPost := .init (id := 0) (c := .structCharPost) (kw := []) rfl

theorem regexPost_made : MadeProc env regexPost := .init (id := 0) (c := .regexPost) (kw := []) rfl

theorem netModel_made : MadeModel env netModel :=
  .init (c := .cnn) (kw := [("dropout", .int 0)]) (l := [("UNKNOWN", 1), ("NAME", 2)]) (by decide) (by decide) rfl

theorem regexModel_made : MadeModel env regexModel :=
  .init (c := .regex) (kw := [("regex_patterns", .dict [("A", .list [.str "a+"])])]) (l := [("UNKNOWN", 1), ("A", 2)])
    (by decide) (by decide) rfl

/-- A labeler with a network, and one with expressions. -/
def netLabeler : Labeler ℕ := ⟨true, netModel, pre, structPost⟩

def regexLabeler : Labeler ℕ := ⟨false, regexModel, pre, regexPost⟩

theorem netLabeler_usable : Usable env netLabeler where
  model := netModel_made
  fits := ⟨by (intro h; cases h), by (intro h; cases h), fun _ => rfl⟩
  pre := pre_made
  fitsPre := ⟨by (intro h; cases h), by (intro h; cases h)⟩
  post := structPost_made
  fitsPost := ⟨by (intro h; cases h), by (intro h; cases h)⟩
  preKind := by decide
  postKind := by decide

theorem regexLabeler_usable : Usable env regexLabeler where
  model := regexModel_made
  fits := ⟨by (
    intro _ d k h hk
    have h' : (some (Val.dict [("A", .list [.str "a+"])]) : Option Val) = some (.dict d) := h
    injection h' with h'
    injection h' with h'
    subst h'
    simp at hk
    subst hk
    decide), by (intro h; cases h), by (intro h; cases h)⟩
  pre := pre_made
  fitsPre := ⟨by (intro h; cases h), by (intro h; cases h)⟩
  post := regexPost_made
  fitsPost := ⟨by (
    intro _ h
    have h' : (some (Val.str "split") : Option Val) = some (.str "priority") := h
    injection h' with h'
    injection h' with h'
    exact absurd h' (by decide)), by (intro h; cases h)⟩
  preKind := by decide
  postKind := by decide

/-- Both can be saved, and the hypotheses of all the theorems above hold for them. -/
example : (∃ n, (netLabeler.save env (some [])).2 = .ok n) ∧ ∃ n, (regexLabeler.save env (some [])).2 = .ok n :=
  ⟨⟨_, rfl⟩, ⟨_, rfl⟩⟩

example : ∃ n d x, netLabeler.save env (some []) = (d, .ok n) ∧ load env 1 true ⟨none, none, none⟩ d = .ok x ∧
    x.model.net.map Net.weights = some 3 ∧ labelerEq n x = true := ⟨_, _, _, rfl, rfl, rfl, rfl⟩

/-- A value that cannot be written: a compiled expression passes the check of the model. -/
example : ∃ m x, MadeModel env m ∧ ((⟨false, m, pre, regexPost⟩ : Labeler ℕ).save env (some [])).2 = .error x :=
  ⟨_, _, .set (kw := [("regex_patterns", .dict [("A", .list [.pattern "a+"])])]) regexModel_made rfl, rfl⟩

/-- A labeler is saved that cannot be loaded: the postprocessor takes a priority without an order if only the priority is
set. -/
theorem C83_order_fails : ∃ (p : Proc) (l n : Labeler ℕ) (d : Dir ℕ), MadeProc env p ∧ p.set [("aggregation_func", .str "priority")] = .ok l.post ∧
    MadeModel env l.model ∧ FitsModel env l.model ∧ MadeProc env l.pre ∧ Fits l.pre ∧
    l.save env (some []) = (d, .ok n) ∧ ∀ id, load env id false ⟨none, none, none⟩ d = .error .valueError :=
  ⟨regexPost, ⟨false, regexModel, pre, ⟨.regexPost, [("aggregation_func", .str "priority"), ("priority_order", .none),
    ("random_state", .rng ⟨0, [1, 2], none⟩)]⟩⟩, _, _, regexPost_made, rfl, regexModel_made, regexLabeler_usable.fits, pre_made,
    regexLabeler_usable.fitsPre, rfl, fun _ => rfl⟩

/-- A setting is lost: the preprocessor for structured data takes any value of its hidden parameter and does not save it. -/
theorem C83_split_fails : ∃ p q d x, MadeProc env p ∧ p.set [("flatten_split", .str "half")] = .ok q ∧
    (q.save (W := ℕ) (some [])) = (d, .ok ()) ∧ loadProc env 1 .structChar d = .ok x ∧
    PyDict.get? q.params "flatten_split" = some (.str "half") ∧ PyDict.get? x.params "flatten_split" = some (.float 1) :=
  ⟨_, _, _, _, .init (id := 0) (c := .structChar) (kw := []) rfl, rfl, rfl, rfl, rfl, rfl⟩

/-- A setting is lost: the padding of a network is always the default after loading. -/
theorem C83_pad_fails : ∃ m d n x, netModel.set env [("pad_label", .str "FILL")] = .ok m ∧ m.save env (some []) = (d, .ok n) ∧
    loadModel env .cnn d = .ok x ∧ PyDict.get? n.params "pad_label" = some (.str "FILL") ∧
    PyDict.get? x.params "pad_label" = some (.str "PAD") :=
  ⟨_, _, _, _, rfl, rfl, rfl, rfl, rfl⟩

/-- A model is saved that cannot be loaded: after its labels are changed, its expressions are not checked again. -/
theorem C83_relabel_fails : ∃ m d n, regexModel.relabel [("UNKNOWN", 1), ("B", 2)] = .ok m ∧
    m.save env (some []) = (d, .ok n) ∧ loadModel env .regex d = .error .valueError :=
  ⟨_, _, _, rfl, rfl, rfl⟩

/-- What is loaded does not equal what was saved: the default separators are a tuple before and a list after. -/
theorem C83_tuple_fails : ∃ p d x, initProc env 0 .charPost [("word_level_min_percent", .int 1)] = .ok p ∧ p.save (W := ℕ) (some []) = (d, .ok ()) ∧
    loadProc env 1 .charPost d = .ok x ∧ procEq p x = false :=
  ⟨_, _, _, rfl, rfl, rfl, rfl⟩

/-- What is loaded does not equal what was saved, with default settings: generators are compared as objects. -/
theorem C83_generator_fails : ∃ d x n, regexLabeler.save env (some []) = (d, .ok n) ∧
    load env 1 false ⟨none, none, none⟩ d = .ok x ∧ labelerEq n x = false :=
  ⟨_, _, _, rfl, rfl, rfl⟩

/-- A failed save mixes two labelers: if the default label is not among the labels, the classes are replaced before the network
is looked at, and loading gives the new classes with the old settings. -/
theorem C83_mixed_fails : ∃ (l0 l : Labeler ℕ) (m : Model ℕ) (d0 d : Dir ℕ) (n x : Labeler ℕ), Usable env l0 ∧ l0.save env (some []) = (d0, .ok n) ∧
    netModel.set env [("default_label", .str "OTHER")] = .ok m ∧ l.model = m ∧ l.save env d0 = (d, .error .keyError) ∧
    load env 1 true ⟨none, none, none⟩ d = .ok x ∧ x.pre.cls = l.pre.cls ∧ x.pre.cls ≠ l0.pre.cls ∧
    PyDict.get? x.pre.params "max_length" = PyDict.get? l0.pre.params "max_length" ∧
    PyDict.get? x.pre.params "max_length" ≠ PyDict.get? l.pre.params "max_length" := by
  refine ⟨⟨true, netModel, ⟨.structChar, (ProcCls.structChar.args ++ ProcCls.structChar.fixed)⟩, structPost⟩,
    ⟨true, ⟨.cnn, PyDict.set netParams "default_label" (.str "OTHER"), netModel.mapping, none⟩, pre, structPost⟩, _, _, _, _, _,
    ⟨netModel_made, netLabeler_usable.fits, .init (id := 0) (c := .structChar) (kw := []) rfl,
      ⟨by (intro h; cases h), fun _ => rfl⟩, structPost_made, netLabeler_usable.fitsPost, by decide, by decide⟩,
    rfl, rfl, rfl, rfl, rfl, rfl, by decide, rfl, ?_⟩
  intro h
  have h' : (some (Val.int 3400) : Option Val) = some (.int 5) := h
  injection h' with h'
  injection h' with h'
  exact absurd h' (by decide)

/-- The preprocessor with an encoding map cannot be made with its own defaults. -/
theorem C83_encoded_fails (E : Env W) (id : ℕ) : initProc E id .charEncoded [] = .error .valueError := rfl

/-- Parameters of a column name model cannot be set on their own. -/
theorem C83_column_fails (E : Env W) (m : Model W) (hc : m.cls = .columnName) (kw : Params)
    (hk : "true_positive_dict" ∉ PyDict.keys kw) : m.set E kw = .error .keyError := by
  unfold Model.set
  rw [hc, validate, columnValidate, item, (PyDict.get?_eq_none_iff _ _).2 hk]

theorem eqv_text (v : Val) (k : String) : eqv v (.str k) = true ↔ v = .str k := by
  cases v <;> simp [eqv]

/-- A column name model whose other parameters are accepted is refused exactly if the texts of the first entry are strictly more than the
labels of the model. -/
theorem C83_labels (mapping : PyDict String ℕ) (kw : Params) (d : List (String × Val)) (t : List Val)
    (h : PyDict.get? kw "true_positive_dict" = some (.list (.dict d :: t))) (hl : columnLoop kw kw = .ok true) :
    columnValidate mapping kw = .error .valueError ↔
      (∀ k ∈ PyDict.keys mapping, ∃ n, (n, Val.str k) ∈ d) ∧ ∃ n v, (n, v) ∈ d ∧ ∀ k ∈ PyDict.keys mapping, v ≠ .str k := by
  have e : properSuperset (d.map (·.2)) mapping = true ↔
      (∀ k ∈ PyDict.keys mapping, ∃ n, (n, Val.str k) ∈ d) ∧ ∃ n v, (n, v) ∈ d ∧ ∀ k ∈ PyDict.keys mapping, v ≠ .str k := by
    unfold properSuperset
    rw [Bool.and_eq_true, List.all_eq_true, List.any_eq_true]
    refine and_congr (forall_congr' fun k => forall_congr' fun _ => ?_) ?_
    · rw [List.any_eq_true]
      constructor
      · rintro ⟨v, hv, he⟩
        obtain ⟨⟨n, w⟩, hm, rfl⟩ := List.mem_map.1 hv
        exact ⟨n, ((eqv_text _ _).1 he) ▸ hm⟩
      · rintro ⟨n, hm⟩
        exact ⟨_, List.mem_map.2 ⟨_, hm, rfl⟩, (eqv_text _ _).2 rfl⟩
    · constructor
      · rintro ⟨v, hv, he⟩
        obtain ⟨⟨n, w⟩, hm, rfl⟩ := List.mem_map.1 hv
        refine ⟨n, w, hm, fun k hk hw => ?_⟩
        have : ((PyDict.keys mapping).any fun k => eqv w (.str k)) = true := List.any_eq_true.2 ⟨k, hk, (eqv_text _ _).2 hw⟩
        rw [Bool.not_eq_true'] at he
        exact absurd (this.symm.trans he) (by decide)
      · rintro ⟨n, v, hm, hk⟩
        refine ⟨v, List.mem_map.2 ⟨_, hm, rfl⟩, ?_⟩
        rw [Bool.not_eq_true', List.any_eq_false]
        exact fun k hk' he => hk k hk' ((eqv_text _ _).1 he)
  rw [← e]
  unfold columnValidate labelsOk
  simp only [item, h, Val.truthy, Val.first, Val.items, hl]
  cases properSuperset (d.map (·.2)) mapping <;> simp

example : columnValidate [("SSN", 1)] [("true_positive_dict", .list [.dict [("attribute", .str "ssn"), ("label", .str "SSN")]]),
    ("false_positive_dict", .none), ("include_label", .bool true), ("negative_threshold_config", .none),
    ("positive_threshold_config", .int 85)] = .error .valueError :=
  (C83_labels _ _ [("attribute", .str "ssn"), ("label", .str "SSN")] [] rfl rfl).2
    ⟨fun k hk => ⟨"label", by simp [PyDict.keys] at hk; simp [hk]⟩, "attribute", .str "ssn", by simp, fun k hk => by
      simp [PyDict.keys] at hk; simp [hk]⟩

end Verif.Props.LabelerDisk
