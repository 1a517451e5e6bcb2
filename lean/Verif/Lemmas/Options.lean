import Verif.Spec.Options
import Mathlib.Tactic.SplitIfs
import Mathlib.Tactic.Tauto
import Mathlib.Tactic.NormNum
import Mathlib.Data.Rat.Cast.Order

/-!
# Validation of options: lemmas
-/

namespace Verif.Lemmas.Options

open Verif Verif.Options Verif.Spec.Options

theorem report_nil (b : Bool) (p : List String) : report b p = [] ↔ b = false := by
  cases b <;> simp [report]

theorem isBool_iff (v : PV) : isBool v = true ↔ IsFlag v := by
  cases v <;> simp [isBool, IsFlag]

theorem isStr_iff (v : PV) : isStr v = true ↔ Str v := by
  cases v <;> simp [isStr, Str]

theorem isNone_iff (v : PV) : isNone v = true ↔ v = .none := by
  cases v <;> simp [isNone]

theorem integer_number {v : PV} {i : ℤ} (h : Integer v i) : number v = some (i : ℚ) ∧ isInt v = true := by
  cases h <;> simp [number, isInt]

theorem number_eq {v : PV} {q : ℚ} (h : Number v q) : number v = some q := by
  cases h with
  | float => rfl
  | integer h => exact (integer_number h).1

theorem isInt_iff (v : PV) : isInt v = true ↔ ∃ n, Integer v n := by
  constructor
  · intro h
    cases v <;> simp only [isInt, Bool.false_eq_true] at h
    · rename_i b; cases b
      · exact ⟨0, .false⟩
      · exact ⟨1, .true⟩
    · exact ⟨_, .int _⟩
    · exact ⟨_, .regexFlag _⟩
  · rintro ⟨n, h⟩
    exact (integer_number h).2

theorem lt_integer {v : PV} {i : ℤ} (h : Integer v i) (k : ℤ) : lt v k = true ↔ i < k := by
  cases h <;> simp [lt, number] <;> norm_cast

theorem gt_integer {v : PV} {i : ℤ} (h : Integer v i) (k : ℤ) : gt v k = true ↔ k < i := by
  cases h <;> simp [gt, number] <;> norm_cast

theorem badCount_iff (v : PV) (k : ℤ) : badCount v k = false ↔ Count k v := by
  unfold badCount Count
  by_cases hn : v = .none
  · subst hn; simp [isNone]
  · have h0 : isNone v = false := by
      rw [← Bool.not_eq_true, isNone_iff]; exact hn
    rw [h0]
    simp only [Bool.not_false, Bool.true_and, Bool.or_eq_false_iff, Bool.not_eq_false', hn, false_or]
    rw [isInt_iff]
    constructor
    · rintro ⟨⟨n, h⟩, hl⟩
      refine ⟨n, h, ?_⟩
      rw [← Bool.not_eq_true, lt_integer h] at hl
      omega
    · rintro ⟨n, h, hl⟩
      refine ⟨⟨n, h⟩, ?_⟩
      rw [← Bool.not_eq_true, lt_integer h]
      omega

theorem badRatio_iff (v : PV) : badRatio v = false ↔ UnitFloat v ∨ v = .nan := by
  cases v <;> simp [badRatio, UnitFloat, isNone, isFloat, lt, gt, number]

theorem isBinMethod_iff (v : PV) : isBinMethod v = true ↔ BinMethod v := by
  cases v <;> simp [isBinMethod, BinMethod, binMethods]

theorem binMethod_str {v : PV} (h : BinMethod v) : isStr v = true := by
  unfold BinMethod at h
  rcases h with h | h | h | h | h | h | h <;> subst h <;> rfl

theorem not_integer_of {v : PV} {n : ℤ} (h : Integer v n) (hv : isInt v = false) : False := by
  rw [(integer_number h).2] at hv; cases hv

theorem badBins_iff (v : PV) : badBins v = false ↔ Bins v := by
  unfold Bins
  have key : ∀ v : PV, v ≠ .none → (∀ s, v ≠ .str s) → (∀ l, v ≠ .list l) →
      ((!(isInt v && !lt v 1)) = false ↔ v = .none ∨ (∃ n, Integer v n ∧ 1 ≤ n) ∨ BinMethod v ∨
        ∃ l, v = .list l ∧ l ≠ [] ∧ ∀ x ∈ l, BinMethod x) := by
    intro v h0 h1 h2
    have hb : ¬ BinMethod v := by
      rintro (h | h | h | h | h | h | h) <;> exact h1 _ h
    have hl : ¬ ∃ l, v = .list l ∧ l ≠ [] ∧ ∀ x ∈ l, BinMethod x := fun ⟨l, h, _⟩ => h2 l h
    simp only [h0, hb, hl, false_or, or_false, Bool.not_eq_false', Bool.and_eq_true, Bool.not_eq_true']
    rw [isInt_iff]
    constructor
    · rintro ⟨⟨n, h⟩, hlt⟩
      refine ⟨n, h, ?_⟩
      have := lt_integer h 1
      rw [Int.cast_one] at this
      rw [← Bool.not_eq_true, this] at hlt
      omega
    · rintro ⟨n, h, hlt⟩
      refine ⟨⟨n, h⟩, ?_⟩
      have := lt_integer h 1
      rw [Int.cast_one] at this
      rw [← Bool.not_eq_true, this]
      omega
  cases v with
  | none => simp [badBins]
  | str s =>
    simp only [badBins, Bool.not_eq_false', isBinMethod_iff]
    constructor
    · intro h; exact Or.inr (Or.inr (Or.inl h))
    · rintro (h | ⟨n, h, -⟩ | h | ⟨l, h, -⟩)
      · cases h
      · cases h
      · exact h
      · cases h
  | list l =>
    simp only [badBins, Bool.or_eq_false_iff, decide_eq_false_iff_not, Bool.not_eq_false', List.all_eq_true]
    constructor
    · rintro ⟨⟨h1, -⟩, h3⟩
      refine Or.inr (Or.inr (Or.inr ⟨l, rfl, ?_, fun x hx => (isBinMethod_iff x).1 (h3 x hx)⟩))
      rintro rfl; simp at h1
    · rintro (h | ⟨n, h, -⟩ | h | ⟨l', h, hne, hm⟩)
      · cases h
      · cases h
      · rcases h with h | h | h | h | h | h | h <;> cases h
      · cases h
        refine ⟨⟨?_, fun x hx => binMethod_str (hm x hx)⟩, fun x hx => (isBinMethod_iff x).2 (hm x hx)⟩
        have := List.length_pos_iff.2 hne
        omega
  | bool b => exact key (.bool b) (by simp) (by simp) (by simp)
  | int b => exact key (.int b) (by simp) (by simp) (by simp)
  | float b => exact key (.float b) (by simp) (by simp) (by simp)
  | nan => exact key .nan (by simp) (by simp) (by simp)
  | inf b => exact key (.inf b) (by simp) (by simp) (by simp)
  | dict b => exact key (.dict b) (by simp) (by simp) (by simp)
  | regexFlag b => exact key (.regexFlag b) (by simp) (by simp) (by simp)
  | labeler => exact key .labeler (by simp) (by simp) (by simp)
  | other b => exact key (.other b) (by simp) (by simp) (by simp)

theorem booleanErrors_nil (o : Opt) (p : List String) : booleanErrors o p = [] ↔ FlagAt o p := by
  unfold booleanErrors FlagAt
  rw [report_nil, Bool.not_eq_false', isBool_iff]

theorem on_iff (o : Opt) (p : List String) (n : String) (h : FlagAt o (p ++ [n])) : on o p n = true ↔ Enabled o p n := by
  unfold FlagAt at h
  rw [List.append_assoc] at h
  obtain ⟨b, h⟩ := h
  unfold on Enabled
  change attr o (p ++ [n, "is_enabled"]) = .bool b at h
  rw [h]
  cases b <;> simp [truthy]

theorem on_false (o : Opt) (p : List String) (n : String) (h : FlagAt o (p ++ [n])) : on o p n = false ↔ ¬ Enabled o p n := by
  rw [← on_iff o p n h, Bool.not_eq_true]

theorem numericalErrors_nil (o : Opt) (p : List String) : numericalErrors o p = [] ↔ ValidNumeric o p := by
  unfold numericalErrors histogramErrors modeErrors
  simp only [List.append_eq_nil_iff, booleanErrors_nil, report_nil, badBins_iff, List.append_assoc, List.cons_append,
    List.nil_append]
  have hc : ∀ v, badCount v 1 = false ↔ Count 1 v := fun v => by
    have := badCount_iff v 1; rwa [Int.cast_one] at this
  simp only [hc, Bool.and_eq_false_iff, Bool.or_eq_false_iff, Bool.not_eq_false']
  constructor
  · rintro ⟨h0, hh, hb, hq, hmin, hmax, hsum, hmode, hk, hmed, hvar, hskew, hkurt, hmad, hbias, hz, hneg, d1, d2, d3, d4, d5, d6⟩
    rw [on_iff _ _ _ hsum, on_false _ _ _ hvar] at d1
    rw [on_iff _ _ _ hsum, on_iff _ _ _ hvar, on_false _ _ _ hskew] at d2
    rw [on_iff _ _ _ hsum, on_iff _ _ _ hvar, on_iff _ _ _ hskew, on_false _ _ _ hkurt] at d3
    rw [on_iff _ _ _ hh, on_false _ _ _ hmad] at d4
    rw [on_iff _ _ _ hh, on_false _ _ _ hmode] at d5
    rw [on_iff _ _ _ hh, on_false _ _ _ hmed] at d6
    refine ⟨h0, ?_, hb, hq, hk, by tauto, by tauto, by tauto, by tauto, by tauto, by tauto⟩
    simp only [List.mem_cons, List.not_mem_nil, or_false, forall_eq_or_imp, forall_eq]
    exact ⟨hmin, hmax, hmode, hmed, hsum, hvar, hskew, hkurt, hmad, hz, hneg, hh, hbias⟩
  · rintro ⟨h0, hf, hb, hq, hk, e1, e2, e3, e4, e5, e6⟩
    simp only [List.mem_cons, List.not_mem_nil, or_false, forall_eq_or_imp, forall_eq] at hf
    obtain ⟨hmin, hmax, hmode, hmed, hsum, hvar, hskew, hkurt, hmad, hz, hneg, hh, hbias⟩ := hf
    rw [on_iff _ _ _ hsum, on_false _ _ _ hvar, on_iff _ _ _ hvar, on_false _ _ _ hskew, on_iff _ _ _ hskew,
      on_false _ _ _ hkurt, on_iff _ _ _ hh, on_false _ _ _ hmad, on_false _ _ _ hmode, on_false _ _ _ hmed]
    refine ⟨h0, hh, hb, hq, hmin, hmax, hsum, hmode, hk, hmed, hvar, hskew, hkurt, hmad, hbias, hz, hneg, ?_, ?_, ?_, ?_, ?_, ?_⟩ <;>
      tauto

/-- `NaN` is accepted as a ratio. -/
theorem precisionErrors_nil (o : Opt) (p : List String) : precisionErrors o p = [] ↔
    FlagAt o p ∧ (attr o (p ++ ["sample_ratio"]) = .none ∨
      (∃ q, Number (attr o (p ++ ["sample_ratio"])) q ∧ 0 ≤ q ∧ q ≤ 1) ∨ attr o (p ++ ["sample_ratio"]) = .nan) := by
  unfold precisionErrors
  simp only [List.append_eq_nil_iff, booleanErrors_nil]
  refine and_congr_right fun _ => ?_
  generalize attr o (p ++ ["sample_ratio"]) = v
  generalize p ++ ["sample_ratio"] = path
  have no : ∀ v : PV, number v = none → ¬ ∃ q, Number v q ∧ 0 ≤ q ∧ q ≤ 1 := by
    rintro v hv ⟨q, h, -⟩
    cases h with
    | float => simp [number] at hv
    | integer h => rw [(integer_number h).1] at hv; cases hv
  have yes : ∀ (v : PV) (x : ℚ), Number v x → ((∃ q, Number v q ∧ 0 ≤ q ∧ q ≤ 1) ↔ 0 ≤ x ∧ x ≤ 1) := by
    intro v x hx
    constructor
    · rintro ⟨q, h, h0, h1⟩
      have : q = x := by
        have := (number_eq h).symm.trans (number_eq hx)
        exact Option.some.inj this
      exact this ▸ ⟨h0, h1⟩
    · exact fun h => ⟨x, hx, h⟩
  cases v with
  | none => simp [isNone]
  | str s => simp [isNone, isFloat, isInt, report, no (.str s) rfl]
  | list s => simp [isNone, isFloat, isInt, report, no (.list s) rfl]
  | dict s => simp [isNone, isFloat, isInt, report, no (.dict s) rfl]
  | labeler => simp [isNone, isFloat, isInt, report, no .labeler rfl]
  | other b => simp [isNone, isFloat, isInt, report, no (.other b) rfl]
  | nan => simp [isNone, isFloat, report, lt, gt, number]
  | inf b => cases b <;> simp [isNone, isFloat, isInt, report, lt, gt, no _ (show number (.inf _) = none from rfl)]
  | float q => simp [isNone, isFloat, isInt, report, lt, gt, number, yes _ _ (.float q)]
  | int i =>
    have := yes _ _ (.integer (.int i))
    simp [isNone, isFloat, isInt, report, lt, gt, number, this]
  | bool b =>
    cases b
    · have := yes _ _ (.integer .false)
      simp [isNone, isFloat, isInt, report, lt, gt, number, this]
    · have := yes _ _ (.integer .true)
      simp [isNone, isFloat, isInt, report, lt, gt, number, this]
  | regexFlag n =>
    have := yes _ _ (.integer (.regexFlag n))
    simp [isNone, isFloat, isInt, report, lt, gt, number, this]

theorem textErrors_nil (o : Opt) (p : List String) : textErrors o p = [] ↔ ValidText o p := by
  unfold textErrors
  simp only [List.append_eq_nil_iff, booleanErrors_nil, report_nil, numericalErrors_nil]
  constructor
  · rintro ⟨⟨⟨h, hv⟩, hz⟩, hn⟩
    have fz := h.flags "num_zeros" (by simp)
    have fn := h.flags "num_negatives" (by simp)
    exact ⟨h, hv, (on_false _ _ _ fz).1 hz, (on_false _ _ _ fn).1 hn⟩
  · rintro ⟨h, hv, hz, hn⟩
    have fz := h.flags "num_zeros" (by simp)
    have fn := h.flags "num_negatives" (by simp)
    exact ⟨⟨⟨h, hv⟩, (on_false _ _ _ fz).2 hz⟩, (on_false _ _ _ fn).2 hn⟩

theorem badColumns_iff (v : PV) : badColumns v = false ↔ v = .none ∨ ∃ l, v = .list l ∧ 2 ≤ l.length ∧ ∀ x ∈ l, Str x := by
  cases v <;> simp [badColumns, isStr_iff]
  omega

theorem badStopWords_iff (v : PV) : badStopWords v = false ↔ v = .none ∨ ∃ l, v = .list l ∧ ∀ x ∈ l, Str x := by
  cases v <;> simp [badStopWords, isStr_iff]

theorem badHashing_iff (v : PV) : badHashing v = false ↔ v = .str "full" ∨ v = .str "hll" := by
  cases v <;> simp [badHashing]
  tauto

theorem isLabeler_iff (v : PV) : isLabeler v = true ↔ v = .labeler := by
  cases v <;> simp [isLabeler]

theorem isZero_iff (v : PV) : isZero v = true ↔ Number v 0 := by
  constructor
  · intro h
    unfold isZero at h
    cases v <;> simp [number] at h
    · subst h; exact .integer .false
    · subst h
      have := Number.integer (.int 0)
      rwa [Int.cast_zero] at this
    · subst h; exact .float 0
    · subst h
      have := Number.integer (.regexFlag 0)
      simpa using this
  · intro h
    simp [isZero, number_eq h]

theorem isRegexFlag_iff (v : PV) : isRegexFlag v = true ↔ ∃ n, v = .regexFlag n := by
  cases v <;> simp [isRegexFlag]

theorem nullEntries_iff (l : List (PV × PV)) : nullEntries l = true ↔ NullEntries l := by
  simp [nullEntries, NullEntries, isStr_iff, isRegexFlag_iff, isZero_iff]

theorem badNulls_iff (v : PV) : badNulls v = false ↔ v = .none ∨ ∃ l, v = .dict l ∧ NullEntries l := by
  cases v <;> simp [badNulls, nullEntries_iff]

theorem columnEntries_iff (v : PV) : columnEntries v = true ↔ ∃ l, v = .dict l ∧ NullEntries l := by
  cases v <;> simp [columnEntries, nullEntries_iff]

theorem badColumnNulls_iff (v : PV) : badColumnNulls v = false ↔ v = .none ∨ ∃ l, v = .dict l ∧
    ∀ kv ∈ l, (∃ n, Integer kv.1 n) ∧ ∃ l', kv.2 = .dict l' ∧ NullEntries l' := by
  cases v <;> simp [badColumnNulls, columnEntries_iff, isInt_iff]

theorem dataLabelerErrors_nil (o : Opt) (p : List String) : dataLabelerErrors o p = [] ↔ ValidLabeler o p := by
  unfold dataLabelerErrors
  have hs : ∀ (v : PV) (q : List String),
      (if (!isNone v && !isInt v) = true then [q] else report (!isNone v && !gt v 0) q) = [] ↔ Count 1 v := by
    intro v q
    rw [← badCount_iff v 1]
    by_cases hn : v = .none
    · subst hn; simp [isNone, report, badCount]
    · have h0 : isNone v = false := by rw [← Bool.not_eq_true, isNone_iff]; exact hn
      rw [h0]
      by_cases hi : isInt v = true
      · obtain ⟨n, h⟩ := (isInt_iff v).1 hi
        have h1 := lt_integer h 1
        have h2 := gt_integer h 0
        rw [Int.cast_one] at h1
        rw [Int.cast_zero] at h2
        simp only [hi, report_nil, badCount, h0, Int.cast_one, Bool.not_false, Bool.true_and, Bool.not_true,
          Bool.false_eq_true, if_false, Bool.false_or, Bool.not_eq_false']
        rw [h2, ← Bool.not_eq_true, h1]
        omega
      · simp [hi, badCount, h0]
  simp only [List.append_eq_nil_iff, booleanErrors_nil, report_nil, hs]
  constructor
  · rintro ⟨⟨⟨h, h1⟩, h2⟩, h3⟩
    refine ⟨h, ?_, ?_, h3⟩
    · rw [Bool.and_eq_false_iff, Bool.not_eq_false', Bool.not_eq_false', isNone_iff, isStr_iff] at h1; exact h1
    · rw [Bool.and_eq_false_iff, Bool.not_eq_false', Bool.not_eq_false', isNone_iff, isLabeler_iff] at h2; exact h2
  · rintro ⟨h, h1, h2, h3⟩
    refine ⟨⟨⟨h, ?_⟩, ?_⟩, h3⟩
    · rw [Bool.and_eq_false_iff, Bool.not_eq_false', Bool.not_eq_false', isNone_iff, isStr_iff]; exact h1
    · rw [Bool.and_eq_false_iff, Bool.not_eq_false', Bool.not_eq_false', isNone_iff, isLabeler_iff]; exact h2

theorem truthy_iff (v : PV) : truthy v = true ↔ ¬ Falsy v := by
  unfold Falsy
  cases v <;> simp [truthy, List.isEmpty_iff]

theorem categoricalErrors_nil (o : Opt) (p : List String) : categoricalErrors o p = [] ↔
    FlagAt o p ∧ Count 1 (attr o (p ++ ["top_k_categories"])) ∧
    Count 0 (attr o (p ++ ["max_sample_size_to_check_stop_condition"])) ∧
    (UnitFloat (attr o (p ++ ["stop_condition_unique_value_ratio"])) ∨
      attr o (p ++ ["stop_condition_unique_value_ratio"]) = .nan) ∧
    (attr o (p ++ ["max_sample_size_to_check_stop_condition"]) = .none ↔
      attr o (p ++ ["stop_condition_unique_value_ratio"]) = .none) ∧
    (UnitFloat (attr o (p ++ ["cms_confidence"])) ∨ attr o (p ++ ["cms_confidence"]) = .nan) ∧
    (UnitFloat (attr o (p ++ ["cms_relative_error"])) ∨ attr o (p ++ ["cms_relative_error"]) = .nan) ∧
    (¬ Falsy (attr o (p ++ ["cms"])) → ∃ n, Integer (attr o (p ++ ["cms_max_num_heavy_hitters"])) n) := by
  unfold categoricalErrors
  have h1 : ∀ v, badCount v 1 = false ↔ Count 1 v := fun v => by
    have := badCount_iff v 1; rwa [Int.cast_one] at this
  have h0 : ∀ v, badCount v 0 = false ↔ Count 0 v := fun v => by
    have := badCount_iff v 0; rwa [Int.cast_zero] at this
  have hx : ∀ a b : PV, (isNone a != isNone b) = false ↔ (a = .none ↔ b = .none) := by
    intro a b
    rw [← isNone_iff a, ← isNone_iff b]
    cases isNone a <;> cases isNone b <;> simp
  have hc : ∀ a b : PV, (truthy a && !isInt b) = false ↔ (¬ Falsy a → ∃ n, Integer b n) := by
    intro a b
    rw [← isInt_iff b, ← truthy_iff]
    cases truthy a <;> cases isInt b <;> simp
  simp only [List.append_eq_nil_iff, booleanErrors_nil, report_nil, h0, h1, badRatio_iff, hx, hc, and_assoc]

theorem sampling_nil (v : PV) (q : List String) :
    (report (isNone v) q = [] ∧ report (!isNone v && !isFloat v && !isInt v) q = [] ∧
      report (!isNone v && (isFloat v || isInt v) && !(gt v 0 && le v 1)) q = []) ↔
    ∃ x, Number v x ∧ 0 < x ∧ x ≤ 1 := by
  have no : ∀ v : PV, number v = none → ¬ ∃ q, Number v q ∧ 0 < q ∧ q ≤ 1 := by
    rintro v hv ⟨q, h, -⟩
    rw [number_eq h] at hv; cases hv
  have yes : ∀ (v : PV) (x : ℚ), Number v x → ((∃ q, Number v q ∧ 0 < q ∧ q ≤ 1) ↔ 0 < x ∧ x ≤ 1) := by
    intro v x hx
    constructor
    · rintro ⟨q, h, h0, h1⟩
      have : q = x := Option.some.inj ((number_eq h).symm.trans (number_eq hx))
      exact this ▸ ⟨h0, h1⟩
    · exact fun h => ⟨x, hx, h⟩
  simp only [report_nil]
  cases v with
  | none => simp [isNone, no .none rfl]
  | str s => simp [isNone, isFloat, isInt, no (.str s) rfl]
  | list s => simp [isNone, isFloat, isInt, no (.list s) rfl]
  | dict s => simp [isNone, isFloat, isInt, no (.dict s) rfl]
  | labeler => simp [isNone, isFloat, isInt, no .labeler rfl]
  | other b => simp [isNone, isFloat, isInt, no (.other b) rfl]
  | nan => simp [isNone, isFloat, gt, number, no .nan rfl]
  | inf b => cases b <;> simp [isNone, isFloat, isInt, gt, le, no _ (show number (.inf _) = none from rfl)]
  | float q => simp [isNone, isFloat, isInt, gt, le, number, yes _ _ (.float q)]
  | int i =>
    have := yes _ _ (.integer (.int i))
    simp [isNone, isFloat, isInt, gt, le, number, this]
  | bool b =>
    cases b
    · have := yes _ _ (.integer .false)
      simp [isNone, isFloat, isInt, gt, number, this]
    · have := yes _ _ (.integer .true)
      simp [isNone, isFloat, isInt, gt, le, number, this]
  | regexFlag n =>
    have := yes _ _ (.integer (.regexFlag n))
    simp [isNone, isFloat, isInt, gt, le, number, this]

end Verif.Lemmas.Options
