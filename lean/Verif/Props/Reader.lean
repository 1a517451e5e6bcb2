import Verif.Lemmas.Reader
import Mathlib.Tactic.SplitIfs

/-!
# C70, C71 and C72: opening, reloading and reading a dataset
-/

namespace Verif.Props.Reader

open Verif Verif.Reader Verif.Spec.Reader

/-- Two files: `1` holds JSON and `2` a table; the table recogniser finds a delimiter. -/
def sample : Lib where
  isUrl s := s == "s3://b/k"
  isS3 s := s == "s3://b/k"
  s3 _ _ := .ok (.stream 2)
  download _ _ := .error .exception
  jsonMatch s o := .ok (s == .stream 1, o)
  graphMatch _ o := .ok (false, PyDict.set o "column_names" (.strs ["a"]))
  csvCore s o := .ok (s == .stream 2, PyDict.set o "delimiter" (PyDict.getD o "delimiter" (.str ";")))
  parquetMatch _ o := .ok (false, o)
  avroMatch _ o := .ok (false, o)
  detect _ := .ok "utf-8"
  isTextStream _ := false
  parse _ s a := .ok (.text s, a)
  read _ _ _ a := .ok (.frame 0, a)

/-! ## C70 -/

/-- The calls refused: nothing or both given, or data in memory without a type. -/
theorem C70_arguments (L : Lib) (src : Option Src) (data : Option Mem) (ty : String) (o : Opts)
    (h : (given src = false ∧ data = none) ∨ (given src = true ∧ data ≠ none) ∨ (data ≠ none ∧ ty = "")) :
    factory L src data ty o = (.error .valueError, o) := by
  unfold factory
  rcases h with ⟨h1, h2⟩ | ⟨h1, h2⟩ | ⟨h1, h2⟩
  · subst h2; rw [h1]; rfl
  · obtain ⟨m, rfl⟩ := Option.ne_none_iff_exists'.1 h2
    rw [h1]; rfl
  · obtain ⟨m, rfl⟩ := Option.ne_none_iff_exists'.1 h1
    subst h2
    cases given src <;> rfl

/-- A file is opened by the first reader, in the order JSON, graph, CSV, Parquet, Avro, text, among those of the type asked for, that accepts
it when asked with the caller's own options; the reader gets the options as its own recogniser left them. If a recogniser fails before one
accepts, so does the call; if all refuse it, it is a `ValueError`. -/
theorem C70_file (L : Lib) (s : Src) (ty : String) (o : Opts) (hs : given (some s) = true)
    (hu : ∀ p, s = .path p → L.isUrl p = false) (x : Except Err Obj) :
    (factory L (some s) none ty o = (x, o) ↔
      (∃ k r, Chosen (fun k => isMatch L k s o) ty k r ∧ x = construct L k (some s) none (some r)) ∨
      (∃ k e, Fails (fun k => isMatch L k s o) ty k e ∧ x = .error e) ∨
      (Refused (fun k => isMatch L k s o) ty ∧ x = .error .valueError)) ∧
    (factory L (some s) none ty o).2 = o := by
  have hfetch : fetch L (some s) o = (.ok (some s), o) := by
    cases s with
    | path p => simp [fetch, hu p rfl]
    | stream n => rfl
  have hfac : factory L (some s) none ty o = (pick L (some s) none ty o classes, o) := by
    simp only [factory, hs, hfetch]
    rfl
  refine ⟨?_, by rw [hfac]⟩
  rw [hfac]
  constructor
  · intro h
    exact pick_classes L s ty o x (Prod.mk.inj h).1
  · intro h
    refine Prod.ext ?_ rfl
    show pick L (some s) none ty o classes = x
    have h' := pick_classes L s ty o _ rfl
    rcases h with ⟨k, r, hc, rfl⟩ | ⟨k, e, hc, rfl⟩ | ⟨hc, rfl⟩
    · rcases h' with ⟨k', r', hc', h'⟩ | ⟨k', e', hc', h'⟩ | ⟨hc', h'⟩
      · obtain ⟨rfl, rfl⟩ := chosen_unique hc hc'
        exact h'
      · exact (chosen_not_fails hc hc').elim
      · obtain ⟨_, hx⟩ := hc' k hc.1
        rw [hc.2.1] at hx; cases hx
    · rcases h' with ⟨k', r', hc', h'⟩ | ⟨k', e', hc', h'⟩ | ⟨hc', h'⟩
      · exact (chosen_not_fails hc' hc).elim
      · rw [h', fails_unique hc hc']
      · obtain ⟨_, hx⟩ := hc' k hc.1
        rw [hc.2.1] at hx; cases hx
    · rcases h' with ⟨k', r', hc', h'⟩ | ⟨k', e', hc', h'⟩ | ⟨hc', h'⟩
      · obtain ⟨_, hx⟩ := hc k' hc'.1
        rw [hc'.2.1] at hx; cases hx
      · obtain ⟨_, hx⟩ := hc k' hc'.1
        rw [hc'.2.1] at hx; cases hx
      · exact h'

example : (factory sample (some (.stream 2)) none "" [("header", .int 0)]).1.toOption.map (fun x => (x.kind, x.options)) =
    some (.csv, some [("header", .int 0), ("delimiter", .str ";")]) := by decide +kernel

/-- Without a type no file is refused for want of a reader: the text reader takes what is left. -/
theorem C70_text_takes_all (L : Lib) (s : Src) (o : Opts) (hs : given (some s) = true)
    (hu : ∀ p, s = .path p → L.isUrl p = false) (ok : ∀ k, ∃ r, isMatch L k s o = .ok r) :
    ∃ k r, Chosen (fun k => isMatch L k s o) "" k r ∧ factory L (some s) none "" o = (construct L k (some s) none (some r), o) := by
  have h := (C70_file L s "" o hs hu (factory L (some s) none "" o).1)
  have heq : factory L (some s) none "" o = ((factory L (some s) none "" o).1, o) := Prod.ext rfl h.2
  rcases h.1.1 heq with ⟨k, r, hc, hx⟩ | ⟨k, e, hc, _⟩ | ⟨hc, _⟩
  · exact ⟨k, r, hc, heq.trans (by rw [hx])⟩
  · obtain ⟨r, hr⟩ := ok k
    cases hc.2.1.symm.trans hr
  · obtain ⟨o', ho'⟩ := hc .text (.inl rfl)
    exfalso
    dsimp only [isMatch, textMatch] at ho'
    split_ifs at ho'
    · cases ho'
    · cases hd : L.detect s <;> rw [hd] at ho' <;> cases ho'

/-- Data in memory are read by the reader of their type, with the caller's options; an unknown type is an error. -/
theorem C70_memory (L : Lib) (src : Option Src) (hs : given src = false) (hp : ∀ p, src = some (.path p) → L.isUrl p = false)
    (m : Mem) (ty : String) (hty : ty ≠ "") (o : Opts) :
    factory L src (some m) ty o =
      ((match typeOf ty with
        | some k => construct L k src (some m) (some o)
        | none => .error .valueError), o) := by
  have hfetch : fetch L src o = (.ok src, o) := by
    match src with
    | none => rfl
    | some (.path p) => simp [fetch, hp p rfl]
    | some (.stream n) => rfl
  simp only [factory, hs, hfetch, pick_mem L src m ty hty o]
  have : (ty == "") = false := by simpa using hty
  rw [this]
  rfl

example : (factory sample none (some (.frame 7)) "csv" []).1.toOption.map (fun x => (x.kind, x.data)) =
    some (.csv, some (.frame 7)) ∧ (factory sample none (some (.frame 7)) "xml" []).1.toOption = none := by decide +kernel

/-- The caller's options stay as they are, except that the credentials for S3 are taken out. -/
theorem C70_options_kept (L : Lib) (src : Option Src) (data : Option Mem) (ty : String) (o : Opts) :
    (factory L src data ty o).2 = o ∨
    (∃ p, src = some (.path p) ∧ L.isUrl p = true ∧ L.isS3 p = true ∧
      (factory L src data ty o).2 = PyDict.del o "storage_options") := by
  unfold factory
  split_ifs
  · exact .inl rfl
  · exact .inl rfl
  · exact .inl rfl
  · have hf : (fetch L src o).2 = o ∨ (∃ p, src = some (.path p) ∧ L.isUrl p = true ∧ L.isS3 p = true ∧
        (fetch L src o).2 = PyDict.del o "storage_options") := by
      match src with
      | none => exact .inl rfl
      | some (.stream _) => exact .inl rfl
      | some (.path p) =>
        unfold fetch
        dsimp only
        by_cases h1 : L.isUrl p = true
        · rw [if_pos h1]
          by_cases h2 : L.isS3 p = true
          · rw [if_pos h2]
            exact .inr ⟨p, rfl, h1, h2, rfl⟩
          · rw [if_neg h2]
            exact .inl rfl
        · rw [if_neg h1]
          exact .inl rfl
    generalize fetch L src o = f at hf
    obtain ⟨f1, f2⟩ := f
    cases f1 <;> exact hf

/-- The credentials are taken out of the caller's dictionary: opening a second object with the same options has none. -/
theorem C70_credentials_fails :
    (factory sample (some (.path "s3://b/k")) none "" [("storage_options", .other 1)]).1.toOption.map (·.kind) = some .csv ∧
    (factory sample (some (.path "s3://b/k")) none "" [("storage_options", .other 1)]).2 = [] := by decide +kernel

/-- A table is not opened as such if it is also JSON, Parquet or Avro, even when asked for by name. -/
theorem C70_csv_last (L : Lib) (s : Src) (o r : Opts) (h : isMatch L .csv s o = .ok (true, r)) :
    (∃ a, L.jsonMatch s [] = .ok (false, a)) ∧ (∃ a, L.parquetMatch s [] = .ok (false, a)) ∧
    (∃ a, L.avroMatch s [] = .ok (false, a)) ∧ L.csvCore s o = .ok (true, r) := by
  dsimp only [isMatch, csvMatch] at h
  cases h1 : L.jsonMatch s [] with
  | error e => rw [h1] at h; cases h
  | ok j =>
    obtain ⟨j, a⟩ := j
    rw [h1] at h
    cases j with
    | true => cases h
    | false =>
      refine ⟨⟨a, rfl⟩, ?_⟩
      change (do
        let p ← L.parquetMatch s []
        if p.1 = true then Except.ok (false, o)
        else do
          let a ← L.avroMatch s []
          if a.1 = true then Except.ok (false, o) else L.csvCore s o) = Except.ok (true, r) at h
      cases h2 : L.parquetMatch s [] with
      | error e => rw [h2] at h; cases h
      | ok p =>
        obtain ⟨p, b⟩ := p
        rw [h2] at h
        cases p with
        | true => cases h
        | false =>
          refine ⟨⟨b, rfl⟩, ?_⟩
          change (do
              let a ← L.avroMatch s []
              if a.1 = true then Except.ok (false, o) else L.csvCore s o) = Except.ok (true, r) at h
          cases h3 : L.avroMatch s [] with
          | error e => rw [h3] at h; cases h
          | ok q =>
            obtain ⟨q, c⟩ := q
            rw [h3] at h
            cases q with
            | true => cases h
            | false => exact ⟨⟨c, rfl⟩, h⟩

example : (factory sample (some (.stream 1)) none "csv" []).1.toOption = none ∧
    (factory sample (some (.stream 1)) none "" []).1.toOption.map (·.kind) = some .json := by decide +kernel

/-- The CSV reader refuses exactly illegal options, the others none. -/
theorem C70_csv_options (L : Lib) (k : Kind) (path : Option Src) (o : Opts) (hw : PyDict.WF o) :
    ((∃ x, construct L k path none (some o) = .ok x) ↔ (k = .csv → LegalCsv o)) ∧
    (∀ x, construct L k path none (some o) = .ok x →
      x.kind = k ∧ x.path = path ∧ x.options = some o ∧ x.data = none) := by
  have hc : construct L k path none (some o) = if optionsOk k o = true then .ok (blank k path none o) else .error .valueError := by
    unfold construct init
    simp only [refused, Option.getD_some, Bool.false_or]
    cases optionsOk k o <;> rfl
  have hok : optionsOk k o = true ↔ (k = .csv → LegalCsv o) := by
    rw [← csvOptionsOk_iff o hw]
    cases k <;> simp [optionsOk]
  rw [hc]
  by_cases h : optionsOk k o = true
  · rw [if_pos h]
    refine ⟨⟨fun _ => hok.1 h, fun _ => ⟨_, rfl⟩⟩, ?_⟩
    rintro x hx
    cases hx
    exact ⟨rfl, rfl, rfl, rfl⟩
  · rw [if_neg h]
    refine ⟨⟨?_, fun h' => absurd (hok.2 h') h⟩, ?_⟩
    · rintro ⟨x, hx⟩; cases hx
    · rintro x hx; cases hx

example : LegalCsv [("header", .int 3), ("sample_nrows", .int 0)] ∧ ¬ LegalCsv [("header", .int (-1))] := by
  constructor
  · rw [← csvOptionsOk_iff _ (by decide)]; decide
  · rw [← csvOptionsOk_iff _ (by decide)]; decide

/-! ## C71 -/

/-- The reader reloaded is the one a new object would be. -/
theorem reloadWith_ok (L : Lib) (x y : Obj) (src : Option Src) (data : Option Mem) (options o' : Option Opts)
    (h : reloadWith L x src data options = (y, o', none)) :
    construct L x.kind (if given src = true then src else x.path) data o' = .ok y ∧
    (given src = true → ∃ s r, src = some s ∧ isMatch L x.kind s (options.getD []) = .ok (true, r) ∧ o' = options.map fun _ => r) ∧
    (given src = false → o' = options) := by
  have key : ∀ z p, init L x.kind z p data o' = (y, none) → construct L x.kind p data o' = .ok y := by
    intro z p hz
    unfold construct
    unfold init at hz ⊢
    dsimp only at hz ⊢
    by_cases h1 : (refused x.kind data || !optionsOk x.kind (o'.getD [])) = true
    · rw [if_pos h1] at hz
      cases hz
    rw [if_neg h1] at hz ⊢
    cases data with
    | none =>
      cases hz
      rfl
    | some m =>
      dsimp only at hz ⊢
      cases hl : loadMem L x.kind m (initAttrs x.kind (o'.getD [])) with
      | error e => rw [hl] at hz; cases hz
      | ok r =>
        obtain ⟨m', a⟩ := r
        rw [hl] at hz
        cases hz
        rfl
  have noSrc : given src = false → baseReload L x src options = ({ x with data := none, options := none }, options, none) := by
    intro hg
    unfold baseReload
    cases src with
    | none => rfl
    | some s => simp [hg]
  unfold reloadWith at h
  by_cases hg : given src = true
  · obtain ⟨s, rfl⟩ : ∃ s, src = some s := by
      cases src with
      | none => cases hg
      | some s => exact ⟨s, rfl⟩
    unfold baseReload at h
    dsimp only at h
    rw [if_pos hg] at h
    cases hm : isMatch L x.kind s (options.getD []) with
    | error e => rw [hm] at h; cases h
    | ok r =>
      obtain ⟨b, r⟩ := r
      rw [hm] at h
      cases b with
      | false => cases h
      | true =>
        dsimp only at h
        generalize hi : init L x.kind { x with path := some s, data := none, options := none } (some s) data (options.map fun _ => r) = zz at h
        obtain ⟨z, e⟩ := zz
        cases h
        rw [if_pos hg]
        refine ⟨key _ _ hi, fun _ => ⟨s, r, rfl, hm, rfl⟩, fun h => ?_⟩
        rw [hg] at h; cases h
  · have hg' : given src = false := by simpa using hg
    rw [noSrc hg'] at h
    dsimp only at h
    generalize hi : init L x.kind { x with data := none, options := none } x.path data options = zz at h
    obtain ⟨z, e⟩ := zz
    cases h
    rw [if_neg hg]
    exact ⟨key _ _ hi, fun h => absurd h hg, fun _ => rfl⟩

/-- After a successful reload a text, Parquet, JSON or Avro reader is what a new reader of the same file (the old one, if no other is given),
data and options would be: nothing of its history is left. -/
theorem C71_reload_fresh (L : Lib) (x y : Obj) (hk : x.kind = .text ∨ x.kind = .parquet ∨ x.kind = .json ∨ x.kind = .avro)
    (src : Option Src) (data : Option Mem) (options o' : Option Opts) (h : reload L x src data options = (y, o', none)) :
    construct L x.kind (if given src = true then src else x.path) data o' = .ok y ∧
    (given src = true → ∃ s r, src = some s ∧ isMatch L x.kind s (options.getD []) = .ok (true, r) ∧ o' = options.map fun _ => r) ∧
    (given src = false → o' = options) := by
  obtain ⟨k, p, ox, d, f, en, a⟩ := x
  dsimp only at hk
  rcases hk with rfl | rfl | rfl | rfl
  · exact reloadWith_ok L _ y src data options o' h
  · exact reloadWith_ok L _ y src data options o' h
  · exact reloadWith_ok L ⟨.json, p, ox, d, f, en, forgetKeys a⟩ y src data options o' h
  · exact reloadWith_ok L ⟨.avro, p, ox, d, f, en, forgetKeys a⟩ y src data options o' h

/-- A reader with a history: JSON, with data, metadata and selected keys. -/
def used : Obj :=
  ⟨.json, some (.stream 9), some [("selected_keys", .strs ["a"])], some (.frame 3), .str "records", .str "ascii",
    .json (.strs ["p"]) (.str "/") (.strs ["a"]) (some 4)⟩

example : reload sample used (some (.stream 1)) none (some [("key_separator", .str "-")]) =
    (⟨.json, some (.stream 1), some [("key_separator", .str "-")], none, .str "flattened_dataframe", .none,
      .json (.strs ["data", "payload"]) (.str "-") (.strs []) none⟩, some [("key_separator", .str "-")], none) := by decide +kernel

/-- Two readers of one kind, whatever happened to them before, are the same after reloading the same file. -/
theorem C71_history_free (L : Lib) (x1 x2 y1 y2 : Obj) (hx : x1.kind = x2.kind)
    (hk : x1.kind = .text ∨ x1.kind = .parquet ∨ x1.kind = .json ∨ x1.kind = .avro)
    (src : Option Src) (hs : given src = true) (data : Option Mem) (options o1 o2 : Option Opts)
    (h1 : reload L x1 src data options = (y1, o1, none)) (h2 : reload L x2 src data options = (y2, o2, none)) : y1 = y2 ∧ o1 = o2 := by
  obtain ⟨a1, b1, _⟩ := C71_reload_fresh L x1 y1 hk src data options o1 h1
  obtain ⟨a2, b2, _⟩ := C71_reload_fresh L x2 y2 (hx ▸ hk) src data options o2 h2
  obtain ⟨s, r, rfl, hm, rfl⟩ := b1 hs
  obtain ⟨s', r', hs', hm', rfl⟩ := b2 hs
  cases hs'
  rw [← hx, hm] at hm'
  cases hm'
  rw [if_pos hs, ← hx] at a2
  rw [if_pos hs] at a1
  have := a1.symm.trans a2
  cases this
  exact ⟨rfl, rfl⟩

/-- A file of another format is refused and leaves the reader as it was; a JSON or Avro reader forgets its selected keys. -/
theorem C71_refused (L : Lib) (x : Obj) (hk : x.kind ≠ .csv) (s : Src) (hs : given (some s) = true) (data : Option Mem)
    (options : Option Opts) (r : Opts) (hm : isMatch L x.kind s (options.getD []) = .ok (false, r)) :
    reload L x (some s) data options =
      (if x.kind = .json ∨ x.kind = .avro then { x with attrs := forgetKeys x.attrs } else x, options.map fun _ => r, some .valueError) := by
  have hb : ∀ a, baseReload L { x with attrs := a } (some s) options =
      ({ x with attrs := a }, options.map fun _ => r, some .valueError) := by
    intro a
    unfold baseReload
    dsimp only
    rw [if_pos hs, hm]
  have hw : ∀ a, reloadWith L { x with attrs := a } (some s) data options =
      ({ x with attrs := a }, options.map fun _ => r, some .valueError) := by
    intro a
    unfold reloadWith
    rw [hb a]
  unfold reload
  cases hkind : x.kind with
  | csv => exact absurd hkind hk
  | text => simpa using hw x.attrs
  | parquet => simpa using hw x.attrs
  | graph => simpa using hb x.attrs
  | json => simpa [hkind] using hw (forgetKeys x.attrs)
  | avro => simpa [hkind] using hw (forgetKeys x.attrs)

/-- The keys are forgotten although the reload was refused. -/
theorem C71_keys_forgotten_fails :
    (reload sample used (some (.stream 2)) none none).1.attrs = .json (.strs ["p"]) (.str "/") .none (some 4) ∧
    (reload sample used (some (.stream 2)) none none).2.2 = some .valueError := by decide +kernel

/-- A CSV reader is what a new reader would be with the old header, delimiter and quote character in place of those given. Missing for the full
claim: the options given. -/
theorem C71_csv_partial (L : Lib) (x y : Obj) (hk : x.kind = .csv) (c d q b h s : V) (ch : Bool)
    (ha : x.attrs = .csv c d q b h ch s) (src : Option Src)
    (data : Option Mem) (options o' : Option Opts) (hr : reload L x src data options = (y, o', none)) :
    ∃ o, construct L .csv (if given src = true then src else x.path) data (some o) = .ok y ∧
      (given src = false → o = PyDict.set (PyDict.set (PyDict.set (options.getD []) "header" h) "delimiter" d) "quotechar" q) ∧
      (given src = true → ∃ s, src = some s ∧
        isMatch L .csv s (PyDict.set (PyDict.set (PyDict.set (options.getD []) "header" h) "delimiter" d) "quotechar" q) = .ok (true, o)) ∧
      o' = if options.getD [] = [] then options else some o := by
  unfold reload at hr
  rw [hk] at hr
  dsimp only at hr
  rw [ha] at hr
  generalize hi : reloadWith L x src data (some (keepCsv (.csv c d q b h ch s) (options.getD []))) = w at hr
  obtain ⟨y1, o1, e1⟩ := w
  dsimp only at hr
  cases hr
  obtain ⟨h1, h2, h3⟩ := reloadWith_ok L x y src data _ o1 hi
  rw [hk] at h1 h2
  by_cases hg : given src = true
  · obtain ⟨s', r, hs', hm, ho⟩ := h2 hg
    rw [Option.map_some] at ho
    subst ho
    exact ⟨r, h1, fun h => (by rw [hg] at h; cases h), fun _ => ⟨s', hs', hm⟩, rfl⟩
  · have hg' : given src = false := by simpa using hg
    have ho := h3 hg'
    subst ho
    exact ⟨_, h1, fun _ => rfl, fun h => absurd h hg, rfl⟩

/-- A CSV reader. -/
def table : Obj :=
  ⟨.csv, some (.stream 9), some [], some (.frame 3), .str "dataframe", .none,
    .csv (.int 1) (.str ",") (.str "\"") (.strs []) (.int 0) true .none⟩

/-- The delimiter asked for in a reload is not used, and the caller's options are overwritten. -/
theorem C71_csv_fails :
    reload sample table (some (.stream 2)) none (some [("delimiter", .str ";")]) =
      (⟨.csv, some (.stream 2), some [("delimiter", .str ","), ("header", .int 0), ("quotechar", .str "\"")], none, .str "dataframe", .none,
        .csv (.int 1) (.str ",") (.str "\"") (.strs []) (.int 0) true .none⟩,
       some [("delimiter", .str ","), ("header", .int 0), ("quotechar", .str "\"")], none) := by decide +kernel

/-- A graph reader ignores the data and options given: it keeps all its settings, found in the old file, and has no options. -/
theorem C71_graph_fails (L : Lib) (x : Obj) (hk : x.kind = .graph) (src : Option Src) (data : Option Mem) (options o' : Option Opts)
    (y : Obj) (h : reload L x src data options = (y, o', none)) :
    y.attrs = x.attrs ∧ y.encoding = x.encoding ∧ y.data = none ∧ y.options = none ∧
    y.path = if given src = true then src else x.path := by
  unfold reload at h
  rw [hk] at h
  dsimp only at h
  unfold baseReload at h
  cases src with
  | none =>
    cases h
    exact ⟨rfl, rfl, rfl, rfl, rfl⟩
  | some s =>
    dsimp only at h
    by_cases hg : given (some s) = true
    · rw [if_pos hg] at h
      cases hm : isMatch L x.kind s (options.getD []) with
      | error e => rw [hm] at h; cases h
      | ok r =>
        obtain ⟨b, r⟩ := r
        rw [hm] at h
        cases b with
        | false => cases h
        | true =>
          cases h
          exact ⟨rfl, rfl, rfl, rfl, by rw [if_pos hg]⟩
    · rw [if_neg hg] at h
      cases h
      exact ⟨rfl, rfl, rfl, rfl, by rw [if_neg hg]⟩

example : (reload { sample with graphMatch := fun _ o => .ok (true, o) } { table with kind := .graph } (some (.stream 2)) (some (.graph 5)) (some [])).2.2 =
    none := by decide +kernel

/-! ## C72 -/

/-- Data are read at most once: after a successful access the reader holds them, and reading again gives the same whatever happens to the file. -/
theorem C72_read_once (L L' : Lib) (x y : Obj) (m : Mem) (f : Option String) (h : getData L x = (y, .ok (m, f))) :
    y.data = some m ∧ getData L' y = (y, .ok (m, f)) ∧ (∀ d, x.data = some d → y = x ∧ m = d) ∧
    (x.data = none → ∃ s a, x.path = some s ∧ L.read x.kind s x.encoding x.attrs = .ok (m, a) ∧ y = { x with data := some m, attrs := a }) := by
  have tail : ∀ (z : Obj), (match z.data with
      | none => ((z, .error .valueError) : Obj × Except Err (Mem × Option String))
      | some m =>
        if truthy z.format = false then (z, .ok (m, none))
        else
          match z.format with
          | .str f => if f ∈ formats z.kind then (z, .ok (m, some f)) else (z, .error .valueError)
          | _ => (z, .error .valueError)) = (y, .ok (m, f)) → z = y ∧ y.data = some m := by
    intro z hz
    cases hd : z.data with
    | none => rw [hd] at hz; cases hz
    | some d =>
      rw [hd] at hz
      dsimp only at hz
      split_ifs at hz with h1
      · cases hz
        exact ⟨rfl, hd⟩
      · split at hz
        · split_ifs at hz
          · cases hz
            exact ⟨rfl, hd⟩
          · cases hz
        · cases hz
  unfold getData at h
  cases hd : x.data with
  | some d =>
    rw [hd] at h
    obtain ⟨rfl, h2⟩ := tail x h
    refine ⟨h2, ?_, ?_, fun hn => ?_⟩
    · unfold getData
      rw [hd]
      exact h
    · intro d' hd'
      rw [hd] at h2
      cases hd'
      cases h2
      exact ⟨rfl, rfl⟩
    · cases hn
  | none =>
    rw [hd] at h
    dsimp only at h
    cases hl : loadFile L x with
    | error e => rw [hl] at h; cases h
    | ok z =>
      rw [hl] at h
      dsimp only at h
      obtain ⟨rfl, h2⟩ := tail z h
      refine ⟨h2, ?_, fun d hd' => ?_, fun _ => ?_⟩
      · unfold getData
        rw [h2]
        dsimp only
        exact h
      · cases hd'
      · unfold loadFile at hl
        cases hp : x.path with
        | none => rw [hp] at hl; cases hl
        | some s =>
          rw [hp] at hl
          dsimp only at hl
          split at hl
          · cases hl
          cases hr : L.read x.kind s x.encoding x.attrs with
          | error e => rw [hr] at hl; cases hl
          | ok r =>
            obtain ⟨m', a⟩ := r
            rw [hr] at hl
            cases hl
            cases h2
            exact ⟨s, a, rfl, hr, rfl⟩

example : (getData sample table).2.toOption = some (.frame 3, some "dataframe") ∧
    (getData sample { table with data := none }).2.toOption = some (.frame 0, some "dataframe") := by decide +kernel

/-- Data come in the format selected, if the reader offers it; otherwise there is an error, and the reader keeps the data. -/
theorem C72_format (L : Lib) (x : Obj) (m : Mem) (f : String) (hd : x.data = some m) (hf : x.format = .str f) (hne : f ≠ "") :
    (getData L x = (x, .ok (m, some f)) ↔ offers x.kind f) ∧ (getData L x = (x, .error .valueError) ↔ ¬ offers x.kind f) := by
  have ht : truthy (.str f) = true := by simp [truthy, hne]
  unfold getData
  rw [hd]
  dsimp only
  rw [hd]
  dsimp only
  rw [hf, ht]
  dsimp only
  rw [if_neg (by decide)]
  rw [← mem_formats]
  by_cases h : f ∈ formats x.kind
  · rw [if_pos h]
    exact ⟨⟨fun _ => h, fun _ => rfl⟩, ⟨fun h' => (by cases (Prod.mk.inj h').2), fun h' => absurd h h'⟩⟩
  · rw [if_neg h]
    exact ⟨⟨fun h' => (by cases (Prod.mk.inj h').2), fun h' => absurd h' h⟩, ⟨fun _ => h, fun _ => rfl⟩⟩

/-- Selecting a format changes it exactly if the reader offers it, in lower case, and changes nothing else. -/
theorem C72_set_format (lower : String → String) (x : Obj) (v : String) :
    (offers x.kind (lower v) → setFormat lower x v = ({ x with format := .str (lower v) }, none)) ∧
    (¬ offers x.kind (lower v) → setFormat lower x v = (x, some .valueError)) := by
  unfold setFormat
  rw [← mem_formats]
  exact ⟨fun h => by rw [if_pos h], fun h => by rw [if_neg h]⟩

/-- Without data an empty path is no file for the readers of tables, and no file is read; the readers of texts and graphs open it like any other. -/
theorem C72_empty_path (L : Lib) (x : Obj) (hd : x.data = none) (hp : x.path = some (.path "")) :
    (x.kind ≠ .text → x.kind ≠ .graph → getData L x = (x, .error .valueError)) ∧
    (x.kind = .text ∨ x.kind = .graph → ∀ e, L.read x.kind (.path "") x.encoding x.attrs = .error e → getData L x = (x, .error e)) := by
  unfold getData
  rw [hd]
  dsimp only
  unfold loadFile
  rw [hp]
  dsimp only
  constructor
  · intro h1 h2
    rw [if_pos (by simp [given, h1, h2])]
  · intro h e he
    rw [if_neg (by rcases h with h | h <;> simp [h]), he]
    rfl

example : getData sample { table with data := none, path := some (.path "") } =
    ({ table with data := none, path := some (.path "") }, .error .valueError) :=
  (C72_empty_path sample _ rfl rfl).1 (by decide) (by decide)

/-- Without data and without a file nothing can be read: texts and graphs fail when opening the file, the other readers say that there is none. -/
theorem C72_no_file (L : Lib) (x : Obj) (hd : x.data = none) (hp : x.path = none) :
    (x.kind = .text ∨ x.kind = .graph → getData L x = (x, .error .attributeError)) ∧
    (x.kind ≠ .text → x.kind ≠ .graph → getData L x = (x, .error .valueError)) := by
  unfold getData
  rw [hd]
  dsimp only
  unfold loadFile
  rw [hp]
  dsimp only
  exact ⟨fun h => by rw [if_pos h], fun h1 h2 => by rw [if_neg (fun h => h.elim h1 h2)]⟩

/-- A format given in the options is only looked at when the data are read (CSV apart), and must be in lower case there. -/
theorem C72_late_fails :
    (construct sample .json (some (.stream 1)) none (some [("data_format", .str "JSON")])).toOption.map
      (fun x => (getData sample x).2.toOption) = some none ∧
    (construct sample .json (some (.stream 1)) none none).toOption.map
      (fun x => (getData sample (setFormat String.toLower x "JSON").1).2.toOption) = some (some (.frame 0, some "json")) := by
  decide +kernel

end Verif.Props.Reader
