import Verif.Lemmas.Options

/-!
# C33: validation of options
-/

namespace Verif.Props.OptionsValid

open Verif Verif.Options Verif.Spec.Options Verif.Lemmas.Options

/-- Places where a ratio is accepted although it is not a number. -/
structure NoNan (o : Opt) : Prop where
  precision : attr o ["structured_options", "float", "precision", "sample_ratio"] ≠ .nan
  stop : attr o ["structured_options", "category", "stop_condition_unique_value_ratio"] ≠ .nan
  confidence : attr o ["structured_options", "category", "cms_confidence"] ≠ .nan
  error : attr o ["structured_options", "category", "cms_relative_error"] ≠ .nan

/-- C33, first half: options of a numeric column are accepted if and only if all flags are booleans, the numbers are in
range and each enabled statistic has its prerequisites enabled. -/
theorem C33_numeric (o : Opt) (p : List String) : numericalErrors o p = [] ↔ ValidNumeric o p :=
  numericalErrors_nil o p

/-- Options of a column of text are accepted if and only if they are valid. -/
theorem C33_text (o : Opt) (p : List String) : textErrors o p = [] ↔ ValidText o p := textErrors_nil o p

theorem float_of {o : Opt} {p : List String} (hn : attr o (p ++ ["precision", "sample_ratio"]) ≠ .nan) :
    floatErrors o p = [] ↔ ValidFloat o p := by
  unfold floatErrors
  rw [List.append_eq_nil_iff, numericalErrors_nil, precisionErrors_nil]
  simp only [List.append_assoc, List.cons_append, List.nil_append, hn, or_false]
  exact ⟨fun ⟨a, b, c⟩ => ⟨a, b, c⟩, fun ⟨a, b, c⟩ => ⟨a, b, c⟩⟩

theorem category_of {o : Opt} {p : List String} (h1 : attr o (p ++ ["stop_condition_unique_value_ratio"]) ≠ .nan)
    (h2 : attr o (p ++ ["cms_confidence"]) ≠ .nan) (h3 : attr o (p ++ ["cms_relative_error"]) ≠ .nan) :
    categoricalErrors o p = [] ↔ ValidCategory o p := by
  rw [categoricalErrors_nil]
  simp only [h1, h2, h3, or_false]
  exact ⟨fun ⟨a, b, c, d, e, f, g, h⟩ => ⟨a, b, c, d, e, f, g, h⟩, fun ⟨a, b, c, d, e, f, g, h⟩ => ⟨a, b, c, d, e, f, g, h⟩⟩

/-- `ValidStructured` without the options nested in those of row statistics. -/
theorem structured_of {o : Opt} {p : List String} (hf : attr o (p ++ ["float", "precision", "sample_ratio"]) ≠ .nan)
    (h1 : attr o (p ++ ["category", "stop_condition_unique_value_ratio"]) ≠ .nan)
    (h2 : attr o (p ++ ["category", "cms_confidence"]) ≠ .nan)
    (h3 : attr o (p ++ ["category", "cms_relative_error"]) ≠ .nan) (hr : ValidRowNested o (p ++ ["row_statistics"])) :
    structuredErrors o p = [] ↔ ValidStructured o p := by
  have hfl : floatErrors o (p ++ ["float"]) = [] ↔ ValidFloat o (p ++ ["float"]) :=
    float_of (by simpa using hf)
  have hca : categoricalErrors o (p ++ ["category"]) = [] ↔ ValidCategory o (p ++ ["category"]) :=
    category_of (by simpa using h1) (by simpa using h2) (by simpa using h3)
  have hs := sampling_nil (attr o (p ++ ["sampling_ratio"])) (p ++ ["sampling_ratio"])
  unfold structuredErrors rowStatisticsErrors correlationErrors
  simp only [List.append_eq_nil_iff, booleanErrors_nil, numericalErrors_nil, hfl, textErrors_nil, hca, dataLabelerErrors_nil,
    and_assoc] at hs ⊢
  constructor
  · rintro ⟨a1, a2, a3, a4, a5, a6, a7, a8, a9, a10, a11, a12, a13, a14, a15, s1, s2, s3, d⟩
    rw [report_nil] at a10 a14 a15 d
    have hfl : ∀ n ∈ ["multiprocess", "datetime", "order", "chi2_homogeneity", "null_replication_metrics",
        "row_statistics"], FlagAt o (p ++ [n]) := by
      simp only [List.mem_cons, List.not_mem_nil, or_false, forall_eq_or_imp, forall_eq]
      exact ⟨a1, a4, a6, a11, a12, a13⟩
    refine ⟨hfl, a2, a3, a5, a7, a8, ⟨a9, (badColumns_iff _).1 a10⟩, hr, (badNulls_iff _).1 a14,
      (badColumnNulls_iff _).1 a15, hs.1 ⟨s1, s2, s3⟩, ?_⟩
    rw [Bool.and_eq_false_iff, Bool.not_eq_false', on_iff _ _ _ a7.own, on_false _ _ _ a11] at d
    exact fun h => d.elim id fun h' => absurd h h'
  · rintro ⟨hfl, b2, b3, b4, b5, b6, b7, -, b9, b10, b11, b12⟩
    simp only [List.mem_cons, List.not_mem_nil, or_false, forall_eq_or_imp, forall_eq] at hfl
    obtain ⟨a1, a4, a6, a11, a12, a13⟩ := hfl
    obtain ⟨s1, s2, s3⟩ := hs.2 b11
    refine ⟨a1, b2, b3, a4, b4, a6, b5, b6, b7.own, ?_, a11, a12, a13, ?_, ?_, s1, s2, s3, ?_⟩ <;> rw [report_nil]
    · exact (badColumns_iff _).2 b7.columns
    · exact (badNulls_iff _).2 b9
    · exact (badColumnNulls_iff _).2 b10
    · rw [Bool.and_eq_false_iff, Bool.not_eq_false', on_iff _ _ _ b5.own, on_false _ _ _ a11]
      exact (Classical.em (Enabled o p "category")).imp id fun h h' => h (b12 h')

theorem unstructured_of {o : Opt} {p : List String} (ht : ValidTextNested o (p ++ ["text"])) :
    unstructuredErrors o p = [] ↔ ValidUnstructured o p := by
  have hc : ∀ v, badCount v 1 = false ↔ Count 1 v := fun v => by
    have := badCount_iff v 1; rwa [Int.cast_one] at this
  unfold unstructuredErrors textProfilerErrors
  simp only [List.append_eq_nil_iff, booleanErrors_nil, report_nil, dataLabelerErrors_nil, hc, badStopWords_iff,
    Bool.not_eq_false', isBool_iff, List.append_assoc, List.cons_append, List.nil_append]
  exact ⟨fun ⟨a, b, c, d, e, f⟩ => ⟨a, b, c, d, e, ht, f⟩, fun ⟨a, b, c, d, e, _, f⟩ => ⟨a, b, c, d, e, f⟩⟩

theorem validate_iff (o : Opt) : validate o = .ok () ↔
    structuredErrors o ["structured_options"] = [] ∧ unstructuredErrors o ["unstructured_options"] = [] := by
  unfold validate profilerErrors
  rw [← List.append_eq_nil_iff]
  split_ifs with h
  · simp [h]
  · simp [h]

/-- C33, the whole tree of options: `validate` accepts if and only if the options are valid, provided the options nested
in those of row statistics and of unstructured text are valid and no ratio is NaN.

Missing from the full statement: without these assumptions invalid options are accepted (`C33_rows_fails`,
`C33_text_fails`, `C33_nan_fails`). -/
theorem C33_partial (o : Opt) (hr : ValidRowNested o ["structured_options", "row_statistics"])
    (ht : ValidTextNested o ["unstructured_options", "text"]) (hn : NoNan o) : validate o = .ok () ↔ Valid o := by
  rw [validate_iff, structured_of hn.precision hn.stop hn.confidence hn.error hr, unstructured_of ht]
  rfl

theorem unitFloat_nan {v : PV} (h : UnitFloat v) : v ≠ .nan := by
  rintro rfl
  rcases h with h | ⟨q, h, -⟩ <;> cases h

/-- C33, one direction without assumptions: valid options are never rejected. -/
theorem C33_accepted (o : Opt) (h : Valid o) : validate o = .ok () := by
  refine (C33_partial o h.1.rows h.2.nested ⟨?_, unitFloat_nan h.1.category.ratio, unitFloat_nan h.1.category.confidence,
    unitFloat_nan h.1.category.error⟩).2 h
  intro e
  have hp := h.1.float.ratio
  change attr o ["structured_options", "float", "precision", "sample_ratio"] = _ ∨ ∃ q,
    Number (attr o ["structured_options", "float", "precision", "sample_ratio"]) q ∧ _ at hp
  rw [e] at hp
  rcases hp with h | ⟨q, h, -⟩
  · cases h
  · have := number_eq h
    cases this

/-- Defaults are accepted. -/
theorem C33_default : validate (profilerOptions .none) = .ok () := by decide +kernel

/-- All presets can be applied and give accepted options; no other name of a preset is accepted. -/
theorem C33_presets (name : String) :
    (name ∈ ["", "complete", "data_types", "numeric_stats_disabled", "lower_memory_sketching"] →
      ∃ o, withPreset name = .ok o ∧ validate o = .ok ()) ∧
    (name ∉ ["", "complete", "data_types", "numeric_stats_disabled", "lower_memory_sketching"] →
      withPreset name = .error .valueError) := by
  have key : ∀ r : Except Err Opt, (match r with
      | .ok o => decide (profilerErrors o = [])
      | .error _ => false) = true → ∃ o, r = .ok o ∧ validate o = .ok () := by
    intro r h
    cases r with
    | error e => cases h
    | ok o => exact ⟨o, rfl, by unfold validate; rw [if_pos (of_decide_eq_true h)]⟩
  constructor
  · intro h
    apply key
    simp only [List.mem_cons, List.not_mem_nil, or_false] at h
    rcases h with h | h | h | h | h <;> subst h <;> decide +kernel
  · intro h
    simp only [List.mem_cons, List.not_mem_nil, or_false, not_or] at h
    obtain ⟨h1, h2, h3, h4, h5⟩ := h
    unfold withPreset presetCalls
    rw [if_neg h1, if_neg h2, if_neg h3, if_neg h4, if_neg h5]

/-- Options after setting one path. -/
def changed (path : List String) (v : PV) : Opt := (profilerSet [(path, v)] (profilerOptions .none)).1

theorem hll_of (o : Opt) (p : List String) : hllErrors o p = [] ↔
    (∃ n, Integer (attr o (p ++ ["register_count"])) n ∧ 0 < n) ∧ ∃ n, Integer (attr o (p ++ ["seed"])) n := by
  unfold hllErrors
  rw [List.append_eq_nil_iff, report_nil, Bool.not_eq_false', isInt_iff]
  refine and_congr ?_ Iff.rfl
  cases hi : isInt (attr o (p ++ ["register_count"])) with
  | false =>
    simp only [Bool.not_false, if_true, List.cons_ne_nil, false_iff]
    rintro ⟨n, h, _⟩
    rw [(isInt_iff _).2 ⟨n, h⟩] at hi
    cases hi
  | true =>
    obtain ⟨n, h⟩ := (isInt_iff _).1 hi
    simp only [Bool.not_true, Bool.false_eq_true, if_false]
    rw [report_nil, Bool.not_eq_false']
    have key : ∀ {v : PV} {i : ℤ}, Integer v i → (gt v 0 = true ↔ 0 < i) := by
      intro v i h
      cases h with
      | int i => simp [gt, number]
      | true => simp [gt, number]
      | false => simp [gt, number]
      | regexFlag n => simp [gt, number]
    rw [key h]
    refine ⟨fun hp => ⟨n, h, hp⟩, fun ⟨m, hm, hp⟩ => ?_⟩
    exact (key h).1 ((key hm).2 hp)

/-- The options nested in those of row statistics, asked for their own errors, report none exactly if they are valid. -/
theorem C33_rows (o : Opt) (p : List String) :
    uniqueCountErrors o (p ++ ["unique_count"]) = [] ∧ booleanErrors o (p ++ ["null_count"]) = [] ↔ ValidRowNested o p := by
  unfold uniqueCountErrors
  rw [List.append_eq_nil_iff, List.append_eq_nil_iff, hll_of, booleanErrors_nil, booleanErrors_nil, report_nil, badHashing_iff]
  simp only [List.append_assoc, List.cons_append, List.nil_append]
  exact ⟨fun ⟨⟨⟨a, b⟩, c, d⟩, e⟩ => ⟨a, b, c, d, e⟩, fun h => ⟨⟨⟨h.unique, h.hashing⟩, h.registers, h.seed⟩, h.nulls⟩⟩

/-- An invalid option nested in those of row statistics is not reported. -/
theorem C33_rows_fails : ∃ o, validate o = .ok () ∧ ¬ Valid o := by
  refine ⟨changed ["structured_options", "row_statistics", "unique_count", "hashing_method"] (.str "md5"),
    by decide +kernel, fun h => ?_⟩
  have e : badHashing (attr (changed ["structured_options", "row_statistics", "unique_count", "hashing_method"]
    (.str "md5")) ["structured_options", "row_statistics", "unique_count", "hashing_method"]) = true := by decide +kernel
  have := (badHashing_iff _).2 h.1.rows.hashing
  exact absurd (this.symm.trans e) (by decide)

/-- An invalid flag nested in the options of unstructured text is not reported. -/
theorem C33_text_fails : ∃ o, ValidRowNested o ["structured_options", "row_statistics"] ∧ NoNan o ∧
    validate o = .ok () ∧ ¬ Valid o := by
  refine ⟨changed ["unstructured_options", "text", "words", "is_enabled"] (.str "yes"), ?_, ?_, by decide +kernel,
    fun h => ?_⟩
  · refine ⟨?_, ?_, ?_, ?_, ?_⟩
    · exact (isBool_iff _).1 (by decide +kernel)
    · exact (badHashing_iff _).1 (by decide +kernel)
    · have h : badCount (attr (changed ["unstructured_options", "text", "words", "is_enabled"] (.str "yes"))
        ["structured_options", "row_statistics", "unique_count", "hll", "register_count"]) ((1 : ℤ) : ℚ) = false := by
        decide +kernel
      rcases (badCount_iff _ 1).1 h with h | ⟨n, h, hn⟩
      · exact absurd ((isNone_iff _).2 h) (by decide +kernel)
      · exact ⟨n, h, by omega⟩
    · exact (isInt_iff _).1 (by decide +kernel)
    · exact (isBool_iff _).1 (by decide +kernel)
  · have key : ∀ v : PV, (isNone v || (number v).isSome) = true → v ≠ .nan := by
      rintro _ h rfl; cases h
    exact ⟨key _ (by decide +kernel), key _ (by decide +kernel), key _ (by decide +kernel), key _ (by decide +kernel)⟩
  · have e : isBool (attr (changed ["unstructured_options", "text", "words", "is_enabled"] (.str "yes"))
      ["unstructured_options", "text", "words", "is_enabled"]) = false := by decide +kernel
    have := (isBool_iff _).2 h.2.nested.2
    exact absurd (this.symm.trans e) (by decide)

/-- NaN is accepted as a ratio between 0 and 1. -/
theorem C33_nan_fails : ∃ o, validate o = .ok () ∧ attr o ["structured_options", "category", "cms_confidence"] = .nan ∧
    ¬ Valid o := by
  have e : attr (changed ["structured_options", "category", "cms_confidence"] .nan)
      ["structured_options", "category", "cms_confidence"] = .nan := by
    have key : ∀ v : PV, (isFloat v && !lt v 0 && !gt v 1 && !(number v).isSome) = true → v = .nan := by
      intro v h
      cases v <;> simp [isFloat, lt, gt, number] at h ⊢
    exact key _ (by decide +kernel)
  refine ⟨changed ["structured_options", "category", "cms_confidence"] .nan, by decide +kernel, e, fun h => ?_⟩
  exact unitFloat_nan h.1.category.confidence e

/-- The prerequisites matter: kurtosis without variance is reported, at the path of the option. -/
example : ["structured_options", "int", "kurtosis"] ∈
    profilerErrors (changed ["structured_options", "int", "variance", "is_enabled"] (.bool false)) := by decide +kernel

/-- The hypotheses of `C33_partial` hold of the defaults, which are valid. -/
example : Valid (profilerOptions .none) := by
  refine (C33_partial _ ⟨?_, ?_, ?_, ?_, ?_⟩ ⟨?_, ?_⟩ ?_).1 C33_default
  · exact (isBool_iff _).1 (by decide +kernel)
  · exact (badHashing_iff _).1 (by decide +kernel)
  · exact ⟨15, Integer.int 15, by decide⟩
  · exact ⟨0, Integer.int 0⟩
  · exact (isBool_iff _).1 (by decide +kernel)
  · exact (isBool_iff _).1 (by decide +kernel)
  · exact (isBool_iff _).1 (by decide +kernel)
  · have key : ∀ v : PV, (isNone v || (number v).isSome) = true → v ≠ .nan := by
      rintro _ h rfl; cases h
    exact ⟨key _ (by decide +kernel), key _ (by decide +kernel), key _ (by decide +kernel), key _ (by decide +kernel)⟩

end Verif.Props.OptionsValid
