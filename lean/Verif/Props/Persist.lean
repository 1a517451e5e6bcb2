import Verif.Lemmas.Persist

/-!
# C42: saving and loading
-/

namespace Verif.Props.Persist

open Verif Verif.Persist Verif.Spec.Persist
open Verif.Schema (Key)

variable {L A : Type}

/-! ### Pickle -/

/-- A successful save leaves the profiler in memory unchanged. -/
theorem C42_save_unchanged (mk : Option String → Except Err L) (repl l : L) (p : Prof L A)
    (h : Agree l p.options (p.columns.map (·.slot))) :
    (savePickle mk repl none p).1 = p ∧ ∃ f, (savePickle mk repl none p).2 = .ok f := by
  rw [save_agree mk repl l p h]
  exact ⟨rfl, _, rfl⟩

/-- C42, pickle: loading what was saved gives back the profiler, with the labeler the library loads,
except for the sampling ratio, the minimum sample size, the correlation matrix and the null replication
metrics, which are those of a new profiler. -/
theorem C42_pickle_partial (mk : Option String → Except Err L) (repl l : L) (p fresh : Prof L A) (f : Pickle L A)
    (h : Agree l p.options (p.columns.map (·.slot))) (hf : (savePickle mk repl none p).2 = .ok f)
    (hmk : p.options.enabled = true → mk p.options.dirpath = .ok l) :
    loadPickle mk fresh f = ({ p with samplingRatio := fresh.samplingRatio, minSampleSize := fresh.minSampleSize,
                                      correlation := fresh.correlation, nullRep := fresh.nullRep }, none) := by
  rw [save_agree mk repl l p h, Except.ok.injEq] at hf
  subst hf
  unfold Agree at h
  unfold loadPickle
  cases he : p.options.enabled with
  | true =>
    rw [he, if_pos rfl] at h
    have hrep := eq_replicate h.2
    have hlen : (p.columns.map (·.slot)).length = p.columns.length := by simp
    have hcol : (p.columns.map fun _ => Slot.labelled (some repl)) = List.replicate p.columns.length (.labelled (some repl)) := by
      simp
    simp only [dump, withLabelers, if_true, hcol]
    rw [slots_withSlots _ _ (by simp)]
    unfold restore
    simp only [he, if_true, hmk he]
    rw [restoreSlots_labelled]
    simp only
    rw [withSlots_withSlots _ _ _ (by simp), ← hlen, ← hrep, withSlots_self]
    obtain ⟨h1, _⟩ := h
    cases p with
    | mk _ _ _ _ _ _ _ _ _ _ _ _ _ _ _ o _ =>
      cases o with
      | mk _ _ _ _ _ _ => simp only at h1 he; subst h1; subst he; rfl
  | false =>
    simp only [dump, withLabelers, Bool.false_eq_true, if_false]
    unfold restore
    simp only [he, Bool.false_eq_true, if_false]
    rw [withSlots_self]

theorem report_congr (p : Prof L A) (a b : A) (c : Option (PyDict Key A)) (hn : p.options.nullRep = false) :
    report { p with samplingRatio := a, minSampleSize := b, nullRep := c } = report p := by
  simp [report, hn]

/-- Hence the report is the same when no correlation matrix was computed and null replication metrics are
disabled. -/
theorem C42_pickle_report_partial (mk : Option String → Except Err L) (repl l : L) (p fresh : Prof L A) (f : Pickle L A)
    (h : Agree l p.options (p.columns.map (·.slot))) (hf : (savePickle mk repl none p).2 = .ok f)
    (hmk : p.options.enabled = true → mk p.options.dirpath = .ok l) (hc : p.correlation = fresh.correlation)
    (hn : p.options.nullRep = false) : report (loadPickle mk fresh f).1 = report p := by
  rw [C42_pickle_partial mk repl l p fresh f h hf hmk]
  rw [← hc]
  exact report_congr p _ _ _ hn

/-- Whatever goes wrong while saving, and whatever the profiler, only labelers can have changed in
memory. -/
theorem C42_crash_partial (mk : Option String → Except Err L) (repl : L) (written : Option Err) (p : Prof L A) :
    SameButLabelers p (savePickle mk repl written p).1 := save_same mk repl written p

/-- The report in memory never changes, however saving ends. -/
theorem C42_crash_report (mk : Option String → Except Err L) (repl : L) (written : Option Err) (p : Prof L A) :
    report (savePickle mk repl written p).1 = report p := by
  obtain ⟨h1, h2, h3⟩ := C42_crash_partial mk repl written p
  revert h1 h2 h3
  generalize (savePickle mk repl written p).1 = q
  intro h1 h2 h3
  have hm : ∀ (d : Option (PyDict Key A)) (i : ℕ) (cs cs' : List (Col L A)), cs.length = cs'.length →
      metrics d i cs = metrics d i cs' := by
    intro d i cs
    induction cs generalizing i with
    | nil => intro cs' h; cases cs' with
      | nil => rfl
      | cons c cs' => simp at h
    | cons c cs ih => intro cs' h; cases cs' with
      | nil => simp at h
      | cons c' cs' => simp only [metrics]; rw [ih (i + 1) cs' (by simpa using h)]
  have hlen : q.columns.length = p.columns.length := by
    have := congrArg List.length h3; simpa using this.symm
  have hnr : q.options.nullRep = p.options.nullRep := by rw [← h2]
  have hrest : q.options.rest = p.options.rest := by rw [← h2]
  have hconst : (q.columns.map fun _ => (none : Option A)) = p.columns.map fun _ => none := by
    rw [List.map_const', List.map_const', hlen]
  rw [← h1]
  simp only [report]
  rw [hnr, hrest, hconst, hm _ 0 q.columns p.columns hlen, h3]

/-! ### JSON -/

/-- C42, JSON: writing and reading gives back exactly the profiler, provided the column names are all
integers or all strings of which one does not look like an integer, rows are hashed without a sketch,
there are no null replication metrics and no null values of individual columns, and labelers come from
the library. -/
theorem C42_json_partial (fmt : ℤ → String) (parse : String → Option ℤ) (loc : L → Option String)
    (library : String → Except Err L) (p : Prof L A) (hp : ∀ n, parse (fmt n) = some n)
    (hrows : ∃ d, p.rows = .hashes d ∧ IntKeyed d)
    (hnames : IntKeyed p.names ∨ (StrKeyed p.names ∧ ∃ s b, (Key.str s, b) ∈ p.names ∧ parse s = none))
    (hnull : p.nullRep = none) (hcn : StrKeyed p.options.columnNull)
    (hobj : ∀ l, p.options.object = some l → ∃ s, loc l = some s ∧ library s = .ok l)
    (hcols : ∀ c ∈ p.columns, ∀ l, c.slot = .labelled (some l) → ∃ s, loc l = some s ∧ library s = .ok l) :
    jsonRound fmt parse loc library p = .ok p := by
  obtain ⟨d, hd, hi⟩ := hrows
  have ho : jsonOpts fmt loc library p.options = .ok p.options := by
    unfold jsonOpts
    rw [jsonDict_str fmt hcn]
    cases hobj' : p.options.object with
    | none => simp [jsonLabeler, Except.map]; rw [← hobj']
    | some l =>
      obtain ⟨s, h1, h2⟩ := hobj l hobj'
      simp [jsonLabeler, encodeLabeler, h1, h2, Except.map]; rw [← hobj']
  have hnm : loadNames parse (jsonDict fmt p.names) = p.names := by
    rcases hnames with h | ⟨h1, h2⟩
    · exact loadNames_int fmt parse hp h
    · exact loadNames_str fmt parse h1 h2
  unfold jsonRound
  simp only [hd, jsonDict_int fmt parse hp hi, ho, jsonCols_id loc library hcols, hnm, hnull, Option.map_none]
  rw [← hd, ← hnull]

/-- In particular the report is the same. -/
theorem C42_json_report (fmt : ℤ → String) (parse : String → Option ℤ) (loc : L → Option String)
    (library : String → Except Err L) (p q : Prof L A) (hp : ∀ n, parse (fmt n) = some n)
    (hrows : ∃ d, p.rows = .hashes d ∧ IntKeyed d) (hq : jsonRound fmt parse loc library p = .ok q)
    (hnull : p.options.nullRep = false) : report q = report p := by
  obtain ⟨d, hd, hi⟩ := hrows
  unfold jsonRound at hq
  simp only [hd, jsonDict_int fmt parse hp hi] at hq
  split at hq
  · cases hq
  · rename_i o ho
    split at hq
    · cases hq
    · rename_i cols hc
      have hor : o.nullRep = p.options.nullRep ∧ o.rest = p.options.rest := by
        unfold jsonOpts at ho
        cases hl : jsonLabeler loc library p.options.object with
        | error e => rw [hl] at ho; cases ho
        | ok l => rw [hl] at ho; cases ho; exact ⟨rfl, rfl⟩
      have hcr : cols.map (·.rest) = p.columns.map (·.rest) := by
        revert hc
        generalize p.columns = cs
        intro hc
        clear ho hor hq
        induction cs generalizing cols with
        | nil => cases hc; rfl
        | cons c cs ih =>
          simp only [jsonCols] at hc
          cases h1 : jsonCol loc library c with
          | error e => rw [h1] at hc; cases hc
          | ok c' =>
            rw [h1] at hc
            cases h2 : jsonCols loc library cs with
            | error e => rw [h2] at hc; cases hc
            | ok cs' =>
              rw [h2] at hc
              cases hc
              have hcc : c'.rest = c.rest := by
                unfold jsonCol at h1
                split at h1
                · cases h1; rfl
                · cases h1; rfl
                · rename_i l _
                  cases hl : jsonLabeler loc library l with
                  | error e => rw [hl] at h1; cases h1
                  | ok l => rw [hl] at h1; cases h1; rfl
              rw [List.map_cons, List.map_cons, hcc, ih _ h2]
      have hlen : cols.length = p.columns.length := by
        have := congrArg List.length hcr; simpa using this
      have hconst : (cols.map fun _ => (none : Option A)) = p.columns.map fun _ => none := by
        rw [List.map_const', List.map_const', hlen]
      simp only [Except.ok.injEq] at hq
      subst hq
      simp [report, hor, hnull, hcr, hconst, hd]

theorem jsonLabeler_ok {loc : L → Option String} {library : String → Except Err L} {l : L} {r : Option L}
    (h : jsonLabeler loc library (some l) = .ok r) : ∃ s l', loc l = some s ∧ library s = .ok l' ∧ r = some l' := by
  simp only [jsonLabeler, encodeLabeler] at h
  cases hs : loc l with
  | none => rw [hs] at h; cases h
  | some s =>
    rw [hs] at h
    cases hl : library s with
    | error e => simp [hl, Except.map] at h
    | ok l' =>
      simp only [hl, Except.map, Except.ok.injEq] at h
      exact ⟨s, l', rfl, hl, h.symm⟩

/-- C42, JSON: a labeler in the options is read from the library by its place. So a profiler whose labeler has none cannot be saved and
loaded, and the one loaded has the labeler of the library and not the one it was saved with. -/
theorem C42_json_labelers (fmt : ℤ → String) (parse : String → Option ℤ) (loc : L → Option String)
    (library : String → Except Err L) (p q : Prof L A) (hq : jsonRound fmt parse loc library p = .ok q) (l : L)
    (hl : p.options.object = some l) :
    ∃ s l', loc l = some s ∧ library s = .ok l' ∧ q.options.object = some l' := by
  unfold jsonRound at hq
  split at hq
  · cases hq
  · split at hq
    · cases hq
    · split at hq
      · cases hq
      · rename_i o ho
        split at hq
        · cases hq
        · simp only [Except.ok.injEq] at hq
          subst hq
          unfold jsonOpts at ho
          rw [hl] at ho
          cases hr : jsonLabeler loc library (some l) with
          | error e => rw [hr] at ho; cases ho
          | ok r =>
            rw [hr] at ho
            simp only [Except.map, Except.ok.injEq] at ho
            subst ho
            exact jsonLabeler_ok hr

/-! ### Unstructured profilers -/

/-- An unstructured profiler with data: saving leaves it unchanged, loading gives it back except for the
sampling ratio and the minimum sample size. -/
theorem C42_unstructured (mk : Option String → Except Err L) (repl l : L) (p fresh : UProf L A)
    (he : p.options.enabled = true) (ho : p.options.object = some l) (hs : p.slot = .labelled (some l))
    (hmk : mk p.options.dirpath = .ok l) :
    ∃ f, uSave mk repl none p = (p, .ok f) ∧
      uLoad mk fresh f = ({ p with samplingRatio := fresh.samplingRatio, minSampleSize := fresh.minSampleSize }, none) := by
  cases p with
  | mk _ _ _ o s _ =>
    cases o with
    | mk _ _ dir _ _ _ =>
      simp only at he ho hs hmk
      subst he; subst ho; subst hs
      refine ⟨_, rfl, ?_⟩
      simp [uLoad, uWith, restore, restoreSlots, hmk, removeSlots, remove]

/-! ### The format -/

/-- Loading: a pickle of a structured or unstructured profiler is loaded as such by default and by the
method "pickle", one without a class by whether it counts empty lines, a JSON file is loaded by every admissible method, other methods are refused. -/
theorem C42_method (m : Option String) (unpickle : Except Err PickleClass) (json : Except Err Unit) :
    (m ≠ none → m ≠ some "pickle" → m ≠ some "json" → chooseLoader m unpickle json = .error .valueError) ∧
    ((m = none ∨ m = some "pickle") → unpickle = .ok .structured →
      chooseLoader m unpickle json = .ok (.pickle .structured)) ∧
    ((m = none ∨ m = some "pickle") → unpickle = .ok .unstructured →
      chooseLoader m unpickle json = .ok (.pickle .unstructured)) ∧
    (∀ b, (m = none ∨ m = some "pickle") → unpickle = .ok (.missing b) →
      (b = true → chooseLoader m unpickle json = .ok (.pickle .unstructured)) ∧
      (b = false → chooseLoader m unpickle json = .ok (.pickle .structured))) ∧
    ((m = none ∨ m = some "pickle" ∨ m = some "json") → (∃ e, unpickle = .error e) → json = .ok () →
      chooseLoader m unpickle json = .ok .json) := by
  refine ⟨fun h1 h2 h3 => by simp [chooseLoader, h1, h2, h3], ?_, ?_, ?_, ?_⟩
  · rintro (rfl | rfl) rfl <;> simp [chooseLoader]
  · rintro (rfl | rfl) rfl <;> simp [chooseLoader]
  · rintro b (rfl | rfl) rfl <;> cases b <;> simp [chooseLoader]
  · rintro (rfl | rfl | rfl) ⟨e, rfl⟩ rfl <;> simp [chooseLoader, Except.map]

/-! ### Non-trivial cases -/

/-- Options with labeler 7, enabled. -/
def opts : Opts ℕ ℕ := ⟨true, some 7, none, false, [], 0⟩

/-- A profiler of two columns. -/
def prof : Prof ℕ ℕ where
  encoding := 1
  fileType := 2
  samplesPerUpdate := 3
  minTrueSamples := 4
  totalSamples := 5
  times := 6
  samplingRatio := 7
  minSampleSize := 8
  rowHasNull := 9
  rowIsNull := 10
  rows := .hashes [(.int 11, 0), (.int (-5), 1)]
  names := [(.str "a", [0]), (.str "12", [1])]
  correlation := 12
  chi2 := 13
  nullRep := none
  options := opts
  columns := [⟨.labelled (some 7), 20⟩, ⟨.labelled (some 7), 21⟩]

/-- A new profiler. -/
def fresh : Prof ℕ ℕ where
  encoding := 0
  fileType := 0
  samplesPerUpdate := 0
  minTrueSamples := 0
  totalSamples := 0
  times := 0
  samplingRatio := 0
  minSampleSize := 0
  rowHasNull := 0
  rowIsNull := 0
  rows := .hashes []
  names := []
  correlation := 0
  chi2 := 0
  nullRep := none
  options := ⟨true, none, none, false, [], 0⟩
  columns := []

/-- Python's `str` of an integer. -/
def fmt : ℤ → String
  | .ofNat n => String.ofList (Nat.toDigits 10 n)
  | .negSucc n => String.ofList ('-' :: Nat.toDigits 10 (n + 1))

/-- A number in decimal digits. -/
def digits (cs : List Char) : Option ℕ :=
  if cs ≠ [] ∧ cs.all Char.isDigit then some (Nat.ofDigitChars 10 cs 0) else none

/-- Python's `int` of a string of digits with or without sign. -/
def parse (s : String) : Option ℤ :=
  match s.toList with
  | '-' :: cs => (digits cs).map fun n => -(n : ℤ)
  | cs => (digits cs).map fun n => (n : ℤ)

theorem digits_toDigits (n : ℕ) : digits (Nat.toDigits 10 n) = some n := by
  have h1 : Nat.toDigits 10 n ≠ [] := Nat.toDigits_ne_nil
  have h2 : (Nat.toDigits 10 n).all Char.isDigit = true :=
    List.all_eq_true.2 fun c hc => Nat.isDigit_of_mem_toDigits (by decide) (by decide) hc
  simp [digits, h1, h2, Nat.ofDigitChars_toDigits]

theorem parse_fmt (n : ℤ) : parse (fmt n) = some n := by
  cases n with
  | ofNat n =>
    unfold parse fmt
    simp only [String.toList_ofList]
    split
    · rename_i cs h
      have := Nat.isDigit_of_mem_toDigits (b := 10) (n := n) (c := '-') (by decide) (by decide) (h ▸ List.mem_cons_self)
      exact absurd this (by decide)
    · rw [digits_toDigits]; rfl
  | negSucc n =>
    unfold parse fmt
    simp only [String.toList_ofList, digits_toDigits]
    rfl

example : Agree 7 prof.options (prof.columns.map (·.slot)) := by
  simp [Agree, prof, opts]

example : (savePickle (fun _ => .ok 7) 0 none prof).1 = prof := by decide +kernel

/-- The file on disk holds the placeholder instead of the labeler. -/
example : ∃ f, (savePickle (fun _ => .ok 7) 0 none prof).2 = .ok f ∧ f.options.object = some 0 ∧
    f.columns.map (·.slot) = [.labelled (some 0), .labelled (some 0)] := ⟨_, rfl, by decide +kernel, by decide +kernel⟩

example : ∃ q, jsonRound fmt parse (fun _ => some "structured_model") (fun _ => .ok 9) prof = .ok q ∧ prof.options.object = some 7 ∧
    q.options.object = some 9 := ⟨_, rfl, rfl, rfl⟩

example : jsonRound fmt parse (fun _ => some "structured_model") (fun _ => .ok 7) prof = .ok prof :=
  C42_json_partial fmt parse _ _ prof parse_fmt ⟨_, rfl, [(11, 0), (-5, 1)], by decide, rfl⟩
    (.inr ⟨⟨[("a", [0]), ("12", [1])], by decide, rfl⟩, "a", [0], by decide, by decide +kernel⟩) rfl
    ⟨[], by decide, rfl⟩ (by simp [prof, opts]) (by simp [prof])

/-! ### What fails -/

/-- C42 fails for crashes: when the file cannot be written, the profiler in memory is left with the
placeholder instead of its labelers. -/
theorem C42_crash_fails : ∃ p : Prof ℕ ℕ, Agree 7 p.options (p.columns.map (·.slot)) ∧
    (savePickle (fun _ => .ok 7) 0 (some .exception) p).1 ≠ p ∧
    (savePickle (fun _ => .ok 7) 0 (some .exception) p).1.columns.map (·.slot) = [.labelled (some 0), .labelled (some 0)] :=
  ⟨prof, by simp [Agree, prof, opts], by decide +kernel, by decide +kernel⟩

/-- C42 fails for pickles: the correlation matrix and the sampling parameters are lost, so the report is
another one. -/
theorem C42_pickle_fails : ∃ (p : Prof ℕ ℕ) (f : Pickle ℕ ℕ), (savePickle (fun _ => .ok 7) 0 none p).2 = .ok f ∧
    (loadPickle (fun _ => .ok 7) fresh f).1.samplingRatio ≠ p.samplingRatio ∧
    report (loadPickle (fun _ => .ok 7) fresh f).1 ≠ report p :=
  ⟨prof, _, rfl, by decide +kernel, by decide +kernel⟩

/-- C42 fails for null replication metrics: the report of the profiler loaded from a pickle raises. -/
theorem C42_metrics_fails : ∃ (p : Prof ℕ ℕ) (f : Pickle ℕ ℕ) (r : Report ℕ), report p = .ok r ∧
    (savePickle (fun _ => .ok 7) 0 none p).2 = .ok f ∧
    report (loadPickle (fun _ => .ok 7) fresh f).1 = .error .typeError :=
  ⟨{ prof with options := { opts with nullRep := true }, nullRep := some [(.int 0, 5)] }, _, _, rfl, rfl, by decide +kernel⟩

/-- C42 fails when the labelers cannot be loaded again: data labeling is switched off and the columns have
no labeler. -/
theorem C42_labeler_fails : ∃ (p : Prof ℕ ℕ) (f : Pickle ℕ ℕ), (savePickle (fun _ => .error .exception) 0 none p).2 = .ok f ∧
    (loadPickle (fun _ => .error .exception) fresh f).1.options.enabled = false ∧
    (loadPickle (fun _ => .error .exception) fresh f).1.columns.map (·.slot) = [.labelled none, .labelled none] :=
  ⟨prof, _, rfl, by decide +kernel, by decide +kernel⟩

theorem restoreSlots_none (kind : Kind) (ss : List (Slot L)) (h : ∀ s ∈ ss, ∃ l, s = .labelled l) :
    restoreSlots kind none ss = (ss.map fun _ => .labelled none, none) := by
  induction ss with
  | nil => rfl
  | cons s ss ih =>
    obtain ⟨l, rfl⟩ := h s (by simp)
    simp [restoreSlots, ih fun t ht => h t (by simp [ht])]

/-- **C42** What loading does when labelers cannot be loaded: a `ValueError` is raised; after any other exception there is a profile, with data
labeling switched off and without labelers. -/
theorem C42_labeler (mk : Option String → Except Err L) (e : Err) (fresh : Prof L A) (f : Pickle L A) (he : f.options.enabled = true)
    (hm : mk f.options.dirpath = .error e) (hs : ∀ c ∈ f.columns, ∃ l, c.slot = .labelled l) :
    (e = .valueError → (loadPickle mk fresh f).2 = some .valueError) ∧
    (e ≠ .valueError → (loadPickle mk fresh f).2 = none ∧ (loadPickle mk fresh f).1.options.enabled = false ∧
      (loadPickle mk fresh f).1.columns = f.columns.map fun c => { c with slot := .labelled none }) := by
  have hr := restoreSlots_none .structured (f.columns.map (·.slot)) (by simpa using hs)
  refine ⟨?_, fun hne => ?_⟩
  · rintro rfl
    simp [loadPickle, restore, he, hm]
  · have hz : List.zipWith (fun (c : Col L A) (s : Slot L) => ({ c with slot := s } : Col L A)) f.columns
        ((f.columns.map (·.slot)).map fun _ => .labelled none) = f.columns.map fun c => { c with slot := .labelled none } := by
      generalize f.columns = cols
      induction cols with
      | nil => rfl
      | cons c cols ih =>
        simp only [List.map_cons, List.zipWith_cons_cons, ih]
    cases e <;> first | exact absurd rfl hne | (simp only [loadPickle, restore, he, hm, if_true, hr, withLabelers, withSlots, hz, and_self])

example : ∃ f : Pickle ℕ ℕ, (savePickle (fun _ => .ok 7) 0 none prof).2 = .ok f ∧ f.options.enabled = true ∧
    (∀ c ∈ f.columns, ∃ l, c.slot = .labelled l) ∧ f.columns ≠ [] := by
  refine ⟨_, rfl, by decide +kernel, ?_, by decide +kernel⟩
  intro c hc
  have : ∀ c ∈ (dump (withLabelers prof (remove 0 prof.options (prof.columns.map (·.slot))).1)).columns, c.slot = .labelled (some 0) := by
    decide +kernel
  exact ⟨_, this c hc⟩

/-- C42 fails for an unstructured profiler without data: `save` writes the file and raises. -/
theorem C42_empty_fails (mk : Option String → Except Err L) (repl l : L) (p : UProf L A) (he : p.options.enabled = true)
    (ho : p.options.object = some l) (hs : p.slot = .absent) :
    (uSave mk repl none p).2 = .error .attributeError := by
  simp [uSave, uWith, remove, removeSlots, restore, restoreSlots, he, ho, hs]

/-- C42 fails for JSON: column names that all look like integers become integers. -/
theorem C42_json_names_fails : ∃ (p q : Prof ℕ ℕ), jsonRound fmt parse (fun _ => some "structured_model") (fun _ => .ok 7) p = .ok q ∧
    p.names = [(.str "1", [0]), (.str "01", [1])] ∧ q.names = [(.int 1, [1])] :=
  ⟨{ prof with names := [(.str "1", [0]), (.str "01", [1])] }, _, rfl, rfl, by decide +kernel⟩

/-- C42 fails for JSON: the null replication metrics disappear from the report. -/
theorem C42_json_metrics_fails : ∃ (p q : Prof ℕ ℕ) (r r' : Report ℕ),
    jsonRound fmt parse (fun _ => some "structured_model") (fun _ => .ok 7) p = .ok q ∧
    report p = .ok r ∧ report q = .ok r' ∧ r.metrics = [some 5, none] ∧ r'.metrics = [none, none] :=
  ⟨{ prof with options := { opts with nullRep := true }, nullRep := some [(.int 0, 5)] }, _, _, _, rfl, rfl, rfl,
    by decide +kernel, by decide +kernel⟩

/-- C42 fails for JSON: null values given for a column index are afterwards given for a string. -/
theorem C42_json_null_fails : ∃ (p q : Prof ℕ ℕ), jsonRound fmt parse (fun _ => some "structured_model") (fun _ => .ok 7) p = .ok q ∧
    p.options.columnNull = [(.int 0, 5)] ∧ q.options.columnNull = [(.str "0", 5)] :=
  ⟨{ prof with options := { opts with columnNull := [(.int 0, 5)] } }, _, rfl, rfl, by decide +kernel⟩

/-- C42 fails for JSON: profilers counting rows with a sketch, and those with a labeler from outside the
library, cannot be saved. -/
theorem C42_json_save_fails (fmt : ℤ → String) (parse : String → Option ℤ) (loc : L → Option String)
    (library : String → Except Err L) (p : Prof L A) (a : A) (h : p.rows = .hll a) :
    jsonRound fmt parse loc library p = .error .typeError := by
  simp [jsonRound, h]

/-- C42 fails for `load_method="pickle"`: a JSON file is not refused. -/
theorem C42_method_fails (e : Err) : chooseLoader (some "pickle") (.error e) (.ok ()) = .ok .json := by
  simp [chooseLoader, Except.map]

/-- C42 fails for graph profilers: their pickles are refused. -/
theorem C42_graph_fails (json : Except Err Unit) : chooseLoader none (.ok .other) json = .error .valueError := by
  simp [chooseLoader]

end Verif.Props.Persist
