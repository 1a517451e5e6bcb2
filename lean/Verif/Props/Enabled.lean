import Verif.Lemmas.Enabled
import Verif.Lemmas.Options
import Verif.Lemmas.OptionsSet
import Verif.Props.Calculations

/-!
# C93: options decide what is calculated
-/

namespace Verif.Props.Enabled

open Verif Verif.Options Verif.Enabled Verif.Spec.Enabled Verif.Lemmas.Enabled
open Verif.Spec.Options (ValidNumeric)

variable {F H : Type}

/-- The statistics of a kind of column besides the numeric ones. -/
def special : Kind → List String
  | .int => []
  | .float => ["precision"]
  | .text => ["vocab"]
  | .unstructured => ["vocab", "words"]

/-! ### Which statistics are calculated -/

/-- **C93** A column calculates exactly the statistics of its kind that its options switch on, in a fixed order. -/
theorem C93_calculated (k : Kind) (o : Opt) (hn : k ≠ .unstructured → Shaped o statistics) (hs : Shaped o (special k)) :
    ∃ numeric own, calculations k (some o) = .ok (numeric, own) ∧
      (∀ n, n ∈ numeric ↔ k ≠ .unstructured ∧ n ∈ statistics ∧ On o n) ∧ numeric.Sublist statistics ∧
      (∀ n, n ∈ own ↔ n ∈ special k ∧ On o n) ∧ own.Sublist (special k) := by
  have e2 : (ownNames k).2 = special k := by cases k <;> rfl
  by_cases hk : k = .unstructured
  · subst hk
    refine ⟨[], _, by rw [calculations, e2, filterNames_some _ hs]; rfl, by simp, by simp, fun n => by
      rw [List.mem_filter]; rfl, List.filter_sublist⟩
  · have e1 : (ownNames k).1 = statistics := by cases k <;> first | rfl | exact (hk rfl).elim
    refine ⟨_, _, by rw [calculations, e1, e2, filterNames_some _ hs, filterNames_some _ (hn hk)]; rfl, fun n => ?_,
      List.filter_sublist, fun n => by rw [List.mem_filter]; rfl, List.filter_sublist⟩
    rw [List.mem_filter]
    exact ⟨fun h => ⟨hk, h.1, h.2⟩, fun h => h.2⟩

/-- **C93** Without options every statistic of the kind is calculated. -/
theorem C93_default (k : Kind) :
    calculations k none = .ok (if k = .unstructured then [] else statistics, special k) := by
  rw [calculations, filterNames_none, filterNames_none]
  cases k <;> rfl

theorem filterNames_error {cls : Cls} {fields : Fields} (ns : List String) {n : String} (hn : n ∈ ns)
    (h0 : PyDict.get? fields n = none) (hc : ∀ m ∈ ns, m ≠ "is_numeric_stats_enabled") :
    filterNames (some (.obj cls fields)) ns = .error .attributeError := by
  induction ns with
  | nil => simp at hn
  | cons m rest ih =>
    have hm : computed cls m = false := by simp [computed, hc m (by simp)]
    rw [filterNames]
    cases g : PyDict.get? fields m with
    | none => simp [isPropEnabled, g, hm, Except.bind]
    | some v =>
      have hne : m ≠ n := fun e => by subst e; rw [h0] at g; cases g
      have hr := ih (by simpa [Ne.symm hne] using hn) (fun x hx => hc x (by simp [hx]))
      have hv : ∃ b, isPropEnabled (.obj cls fields) m = .ok b := by
        rw [isPropEnabled, g]
        cases v with
        | val x => cases x <;> exact ⟨_, rfl⟩
        | obj c fs => dsimp only; split <;> exact ⟨_, rfl⟩
      obtain ⟨b, hb⟩ := hv
      rw [hb, hr]
      rfl

/-- **C93** Whether options say that a property is enabled: a truth value says it itself, an object with a flag by its flag, and everything else
is enabled, among it the options of HyperLogLog, which have no flag. -/
theorem C93_property (cls : Cls) (fields : Fields) (n : String) :
    (∀ b, PyDict.get? fields n = some (.val (.bool b)) → isPropEnabled (.obj cls fields) n = .ok b) ∧
      (∀ v, (∀ b, v ≠ .bool b) → PyDict.get? fields n = some (.val v) → isPropEnabled (.obj cls fields) n = .ok true) ∧
      (∀ c fs, PyDict.get? fields n = some (.obj c fs) → Flagged c →
        ∃ b, isPropEnabled (.obj cls fields) n = .ok b ∧ (b = true ↔ On (.obj cls fields) n)) ∧
      ∀ c fs, PyDict.get? fields n = some (.obj c fs) → ¬ Flagged c → isPropEnabled (.obj cls fields) n = .ok true := by
  refine ⟨fun b h => by rw [isPropEnabled, h], fun v hv h => ?_, fun c fs h hc => ?_, fun c fs h hc => ?_⟩
  · rw [isPropEnabled, h]
    cases v with
    | bool b => exact (hv b rfl).elim
    | _ => rfl
  · rw [flagged_iff] at hc
    refine ⟨_, by rw [isPropEnabled, h]; dsimp only; rw [if_pos hc], ?_⟩
    have e : attr (.obj cls fields) [n, "is_enabled"] = attr (.obj c fs) ["is_enabled"] := by rw [attr, h]
    rw [On, e]
  · rw [flagged_iff] at hc
    rw [isPropEnabled, h]
    dsimp only
    rw [if_neg hc]

example : isPropEnabled (.obj .uniqueCount [("hll", .obj .hll [])]) "hll" = .ok true :=
  (C93_property _ _ _).2.2.2 .hll [] rfl (by simp [Flagged])

/-- **C93** Options that lack a statistic of the kind cannot be used: making the column raises `AttributeError`. -/
theorem C93_lacking (k : Kind) (cls : Cls) (fields : Fields) (n : String) (hk : k ≠ .unstructured)
    (hn : n ∈ statistics) (h0 : PyDict.get? fields n = none) :
    calculations k (some (.obj cls fields)) = .error .attributeError := by
  have e1 : (ownNames k).1 = statistics := by cases k <;> first | rfl | exact (hk rfl).elim
  rw [calculations, e1, filterNames_error statistics hn h0 (by decide)]
  rfl

theorem shaped_default : Shaped intOptions statistics ∧ Shaped floatOptions statistics ∧ Shaped textOptions statistics := by
  refine ⟨⟨_, _, rfl, ?_⟩, ⟨_, _, rfl, ?_⟩, ⟨_, _, rfl, ?_⟩⟩ <;>
  · intro n hn
    simp only [statistics, List.mem_cons, List.not_mem_nil, or_false] at hn
    rcases hn with h | h | h | h | h | h | h | h | h <;> subst h <;> exact ⟨_, _, rfl, (flagged_iff _).2 rfl⟩

example : calculations .text (some textOptions) =
    .ok (["min", "max", "sum", "variance", "skewness", "kurtosis", "histogram_and_quantiles"], ["vocab"]) := by decide +kernel

/-! ### What statistics need -/

theorem valid_closed {o : Opt} (hv : ValidNumeric o []) :
    Needs (fun n => truthy (attr o [n, "is_enabled"])) ∧
      ∀ n ∈ statistics, On o n ↔ Verif.Spec.Options.Enabled o [] n := by
  have hon : ∀ n ∈ ["min", "max", "mode", "median", "sum", "variance", "skewness", "kurtosis", "median_abs_deviation",
      "num_zeros", "num_negatives", "histogram_and_quantiles", "bias_correction"],
      On o n ↔ Verif.Spec.Options.Enabled o [] n := by
    intro n hn
    exact Verif.Lemmas.Options.on_iff o [] n (hv.flags n hn)
  refine ⟨⟨fun h => ?_, fun h => ?_, fun h => ?_⟩, fun n hn => hon n ?_⟩
  · exact (hon "sum" (by simp)).2 (hv.variance ((hon "variance" (by simp)).1 h))
  · exact (hon "variance" (by simp)).2 (hv.skewness ((hon "skewness" (by simp)).1 h)).2
  · exact (hon "skewness" (by simp)).2 (hv.kurtosis ((hon "kurtosis" (by simp)).1 h)).2.2
  · simp only [statistics, List.mem_cons, List.not_mem_nil, or_false] at hn
    rcases hn with h | h | h | h | h | h | h | h | h <;> subst h <;> decide

theorem needs_closed (en : String → Bool) : Needs en ↔ Closed (numericNames.filter en) := by
  have m : ∀ n ∈ numericNames, (n ∈ numericNames.filter en ↔ en n = true) := fun n hn => mem_numeric en hn
  have m1 := m "sum" (by decide)
  have m2 := m "variance" (by decide)
  have m3 := m "skewness" (by decide)
  have m4 := m "kurtosis" (by decide)
  constructor
  · intro h
    refine ⟨fun g => ?_, fun g => ?_, fun g => ?_⟩
    · exact m1.2 (h.variance (m2.1 g))
    · have := h.skewness (m3.1 g)
      exact ⟨m1.2 (h.variance this), m2.2 this⟩
    · have h3 := h.kurtosis (m4.1 g)
      have h2 := h.skewness h3
      exact ⟨m1.2 (h.variance h2), m2.2 h2, m3.2 h3⟩
  · intro h
    exact ⟨fun g => m1.1 (h.variance (m2.2 g)), fun g => m2.1 (h.skewness (m3.2 g)).2,
      fun g => m3.1 (h.kurtosis (m4.2 g)).2.2⟩

theorem numeric_of {k : Kind} {o : Opt} {numeric own : List String} (hk : k ≠ .unstructured) (ho : Shaped o statistics)
    (h : calculations k (some o) = .ok (numeric, own)) :
    numeric = numericNames.filter fun n => truthy (attr o [n, "is_enabled"]) := by
  have e1 : (ownNames k).1 = statistics := by cases k <;> first | rfl | exact (hk rfl).elim
  rw [calculations, e1, filterNames_some _ ho] at h
  obtain ⟨a, h1, h2⟩ := bind_ok h
  obtain ⟨b, -, h3⟩ := map_ok h2
  injection h1 with h1
  injection h3 with h3 _
  rw [← h3, ← h1]
  rfl

/-- **C93** Options that validation accepts make a column calculate all that its statistics need. -/
theorem C93_closed (k : Kind) (o : Opt) (numeric own : List String) (hk : k ≠ .unstructured) (ho : Shaped o statistics)
    (hv : numericalErrors o [] = []) (h : calculations k (some o) = .ok (numeric, own)) : Closed numeric := by
  rw [numeric_of hk ho h]
  exact (needs_closed _).1 (valid_closed ((Verif.Lemmas.Options.numericalErrors_nil o []).1 hv)).1

/-- **C93** A merged column calculates all that its statistics need, if both columns do. -/
theorem C93_merged (merged c1 c2 : PyDict String F) (hm : PyDict.WF merged) (hk : PyDict.keys merged = statistics)
    (h1 : Closed (PyDict.keys c1)) (h2 : Closed (PyDict.keys c2)) :
    Closed (PyDict.keys (Calculations.mergeCalcs merged c1 c2).1) := by
  have key : ∀ n ∈ statistics, (n ∈ PyDict.keys (Calculations.mergeCalcs merged c1 c2).1 ↔
      n ∈ PyDict.keys c1 ∧ n ∈ PyDict.keys c2) := by
    intro n hn
    obtain ⟨v, hv⟩ := (PyDict.mem_keys_iff merged n).1 (hk ▸ hn)
    rw [PyDict.mem_keys_iff, Calculations.C49_merge_is_intersection merged c1 c2 hm n, ← PyDict.has_iff, ← PyDict.has_iff]
    constructor
    · rintro ⟨w, hw⟩
      split at hw
      · assumption
      · cases hw
    · intro h
      exact ⟨v, by rw [if_pos h, hv]⟩
  have k1 := key "sum" (by decide)
  have k2 := key "variance" (by decide)
  have k3 := key "skewness" (by decide)
  have k4 := key "kurtosis" (by decide)
  refine ⟨fun g => ?_, fun g => ?_, fun g => ?_⟩
  · rw [k2] at g; rw [k1]; exact ⟨h1.variance g.1, h2.variance g.2⟩
  · rw [k3] at g; rw [k1, k2]
    exact ⟨⟨(h1.skewness g.1).1, (h2.skewness g.2).1⟩, (h1.skewness g.1).2, (h2.skewness g.2).2⟩
  · rw [k4] at g; rw [k1, k2, k3]
    have a := h1.kurtosis g.1
    have b := h2.kurtosis g.2
    exact ⟨⟨a.1, b.1⟩, ⟨a.2.1, b.2.1⟩, a.2.2, b.2.2⟩

/-! ### Updates -/

theorem calculated_filter {l : List String} (hl : l.Sublist statistics) : ∃ en : String → Bool, l = numericNames.filter en := by
  have nd : statistics.Nodup := by decide
  refine ⟨fun n => decide (n ∈ l), ?_⟩
  have : statistics.filter (fun n => decide (n ∈ l)) = l := by
    clear * - hl nd
    generalize statistics = t at hl nd
    induction hl with
    | slnil => rfl
    | @cons l' t' a h ih =>
      have hn := List.nodup_cons.1 nd
      rw [List.filter_cons_of_neg (by simpa using fun g => hn.1 (h.subset g))]
      exact ih hn.2
    | @cons_cons l' t' a h ih =>
      have hn := List.nodup_cons.1 nd
      rw [List.filter_cons_of_pos (by simp)]
      congr 1
      rw [← ih hn.2]
      conv_rhs => rw [← ih hn.2]
      apply List.filter_congr
      intro x hx
      have : x ≠ a := fun e => hn.1 (e ▸ hx)
      have e := ih hn.2
      simp [this, e]
  exact this.symm

theorem agree_of {en : String → Bool} {s t : Col F H} (h : ColAgree en s t) : Agree (numericNames.filter en) s t := by
  have m : ∀ n, n ∈ numericNames.filter en → en n = true := fun n hn => (List.mem_filter.1 hn).2
  exact ⟨h.count, fun g => h.min (m _ g), fun g => h.max (m _ g), fun g => h.sum (m _ g), fun g => h.var (m _ g),
    fun g => h.skew (m _ g), fun g => h.kurt (m _ g), fun g => h.hist (m _ g), fun g => h.zeros (m _ g),
    fun g => h.negatives (m _ g)⟩

theorem colAgree_refl (en : String → Bool) (s : Col F H) : ColAgree en s s := by
  constructor <;> first | rfl | intro _; rfl

theorem all_filter : statistics = numericNames.filter fun _ => true := rfl

/-- **C93** Switching statistics off does not change the others: whatever the floats are, if the batches can be profiled with
all statistics, then with fewer, and those that remain have the same values. -/
theorem C93_independent (A : Arith F) (step : H → List F → H) (l : List String) (hl : l.Sublist statistics) (hc : Closed l)
    (batches : List (List F)) (s t : Col F H) (hs : Agree l s t) (s' : Col F H)
    (h : updates A step statistics batches s = .ok s') :
    ∃ t', updates A step l batches t = .ok t' ∧ Agree l s' t' := by
  obtain ⟨en, rfl⟩ := calculated_filter hl
  have m : ∀ n ∈ numericNames, en n = true → n ∈ numericNames.filter en := fun n hn g => List.mem_filter.2 ⟨hn, g⟩
  have hs' : ColAgree en s t :=
    ⟨hs.count, fun g => hs.min (m _ (by decide) g), fun g => hs.max (m _ (by decide) g), fun g => hs.sum (m _ (by decide) g),
      fun g => hs.var (m _ (by decide) g), fun g => hs.skew (m _ (by decide) g), fun g => hs.kurt (m _ (by decide) g),
      fun g => hs.hist (m _ (by decide) g), fun g => hs.zeros (m _ (by decide) g), fun g => hs.negatives (m _ (by decide) g)⟩
  rw [all_filter] at h
  obtain ⟨t', h1, h2⟩ := updates_agree ((needs_closed en).2 hc) (fun _ _ => rfl) batches hs' h
  exact ⟨t', h1, agree_of h2⟩

/-- **C93** Statistics that are switched off are never touched, and every value is counted. -/
theorem C93_untouched (A : Arith F) (step : H → List F → H) (l : List String) (hl : l.Sublist statistics)
    (batches : List (List F)) (s s' : Col F H) (h : updates A step l batches s = .ok s') :
    Untouched l s' s ∧ s'.count = s.count + (batches.map List.length).sum := by
  obtain ⟨en, rfl⟩ := calculated_filter hl
  induction batches generalizing s with
  | nil =>
    injection h with h; subst h
    exact ⟨by constructor <;> intro _ <;> rfl, by simp⟩
  | cons v rest ih =>
    obtain ⟨s1, h1, h2⟩ := bind_ok h
    obtain ⟨a, b⟩ := update_stays h1
    obtain ⟨c, d⟩ := ih s1 h2
    have m : ∀ n ∈ numericNames, n ∉ numericNames.filter en → en n = false := fun n hn g => by
      cases e : en n with
      | false => rfl
      | true => exact (g (List.mem_filter.2 ⟨hn, e⟩)).elim
    refine ⟨⟨fun g => ?_, fun g => ?_, fun g => ?_, fun g => ?_, fun g => ?_, fun g => ?_, fun g => ?_, fun g => ?_,
      fun g => ?_⟩, ?_⟩
    · exact (c.min g).trans (a.min (m _ (by decide) g))
    · exact (c.max g).trans (a.max (m _ (by decide) g))
    · exact (c.sum g).trans (a.sum (m _ (by decide) g))
    · exact (c.var g).trans (a.var (m _ (by decide) g))
    · exact (c.skew g).trans (a.skew (m _ (by decide) g))
    · exact (c.kurt g).trans (a.kurt (m _ (by decide) g))
    · exact (c.hist g).trans (a.hist (m _ (by decide) g))
    · exact (c.zeros g).trans (a.zeros (m _ (by decide) g))
    · exact (c.negatives g).trans (a.negatives (m _ (by decide) g))
    · rw [d, b, List.map_cons, List.sum_cons, Nat.add_assoc]

/-- **C93** With all that is needed, an update never misses anything, whatever the floats are, as long as a statistic does
not become infinite or undefined before one that needs it. -/
theorem C93_ordered (A : Arith F) (step : H → List F → H) (l : List String) (hl : l.Sublist statistics) (hc : Closed l)
    (values : List F) (s : Col F H) (ho : Ordered A l s) : ∃ s', update A step l values s = .ok s' := by
  obtain ⟨en, rfl⟩ := calculated_filter hl
  have m : ∀ n ∈ numericNames, en n = true → n ∈ numericNames.filter en := fun n hn g => List.mem_filter.2 ⟨hn, g⟩
  refine update_ok ((needs_closed en).2 hc) (fun g h => ?_) (fun g h => ?_) (fun g h => ?_)
  · exact spoiled_iff.2 (ho.var (m _ (by decide) g) (spoiled_iff.1 h))
  · exact spoiled_iff.2 (ho.skew (m _ (by decide) g) (spoiled_iff.1 h))
  · exact spoiled_iff.2 (ho.kurt (m _ (by decide) g) (spoiled_iff.1 h))

/-- **C93** In particular the first update of a column with valid options. -/
theorem C93_first (A : Arith F) (step : H → List F → H) (h : H) (h0 : Finite A A.zero) (k : Kind) (o : Opt)
    (numeric own : List String) (hk : k ≠ .unstructured) (ho : Shaped o statistics) (hv : numericalErrors o [] = [])
    (hc : calculations k (some o) = .ok (numeric, own)) (values : List F) (hn : A.isInf A.nan = false) :
    ∃ s', update A step numeric values (fresh A h) = .ok s' := by
  refine C93_ordered A step numeric ?_ (C93_closed k o numeric own hk ho hv hc) values _ ⟨fun _ g => ?_, fun _ g => ?_, fun _ g => ?_⟩
  · rw [numeric_of hk ho hc]; exact List.filter_sublist
  · rcases g with g | g
    · rw [show A.isInf (fresh A h).sum = A.isInf A.zero from rfl, h0.1] at g; cases g
    · exact absurd g.2 (by simp [fresh])
  · rcases g with g | g
    · rw [show A.isInf (fresh A h).var = A.isInf A.nan from rfl, hn] at g; cases g
    · exact absurd g.2 (by simp [fresh])
  · rcases g with g | g
    · rw [show A.isInf (fresh A h).skew = A.isInf A.nan from rfl, hn] at g; cases g
    · exact absurd g.2 (by simp [fresh])

/-- **C93 (partial)** With valid options no update fails and every statistic that is switched on is what it would be with all
of them on, for arithmetic without overflow and finite values. -/
theorem C93_partial (A : Arith F) (hA : NoOverflow A) (step : H → List F → H) (h : H) (k : Kind) (o : Opt)
    (numeric own : List String) (hk : k ≠ .unstructured) (ho : Shaped o statistics) (hv : numericalErrors o [] = [])
    (hc : calculations k (some o) = .ok (numeric, own)) (batches : List (List F)) (hf : ∀ v ∈ batches, ∀ x ∈ v, Finite A x) :
    ∃ s t, updates A step statistics batches (fresh A h) = .ok s ∧ updates A step numeric batches (fresh A h) = .ok t ∧
      Agree numeric s t ∧ Untouched numeric t (fresh A h) := by
  have hg : Good A (fresh A h) := ⟨hA.zero, ⟨hA.nan, fun g => absurd g (by simp [fresh])⟩,
    ⟨hA.nan, fun g => absurd g (by simp [fresh])⟩, ⟨hA.nan, fun g => absurd g (by simp [fresh])⟩⟩
  obtain ⟨s, h1, -⟩ := updates_good (step := step) hA batches hf hg
  have hl : numeric.Sublist statistics := by rw [numeric_of hk ho hc]; exact List.filter_sublist
  have hcl := C93_closed k o numeric own hk ho hv hc
  obtain ⟨t, h2, h3⟩ := C93_independent A step numeric hl hcl batches (fresh A h) (fresh A h)
    (by constructor <;> first | rfl | intro _; rfl) s h1
  exact ⟨s, t, h1, h2, h3, (C93_untouched A step numeric hl batches _ _ h2).1⟩

/-! ### Options that lack what is needed -/

/-- What a successful chain of calculations has read. -/
theorem performed {A : Arith F} {step : H → List F → H} {en : String → Bool} {p : Prev F} {values : List F} {n : String}
    {rest : List String} {s : Col F H} {b : Batch F} {r : Col F H × Batch F}
    (h : performIf A step en p values (n :: rest) s b = .ok r) :
    (en n = true ∧ ∃ q, calculate A step p values n s b = .ok q ∧ performIf A step en p values rest q.1 q.2 = .ok r) ∨
      en n = false ∧ performIf A step en p values rest s b = .ok r := by
  rw [performIf] at h
  split at h
  · rename_i g
    obtain ⟨q, h1, h2⟩ := bind_ok h
    exact Or.inl ⟨g, q, h1, h2⟩
  · rename_i g
    exact Or.inr ⟨by simpa using g, h⟩

/-- **C93** The rules of validation are needed: statistics that lack one they need make the first update with values raise
`KeyError`. -/
theorem C93_needed (A : Arith F) (step : H → List F → H) (h : H) (h0 : Finite A A.zero) (hn : A.isInf A.nan = false)
    (l : List String) (hl : l.Sublist statistics) (hc : ¬ Closed l) (values : List F) (hv : values ≠ []) :
    update A step l values (fresh A h) = .error .keyError := by
  obtain ⟨en, rfl⟩ := calculated_filter hl
  rw [← needs_closed] at hc
  have ns : ∀ x : F, A.isInf x = false → spoiled A x 0 = false := fun x hx => by simp [spoiled, hx]
  have hsum : spoiled A A.zero 0 = false := ns _ h0.1
  have hnan : spoiled A A.nan 0 = false := ns _ hn
  rw [update_filter, if_neg hv]
  cases a1 : en "sum" <;> cases a2 : en "variance" <;> cases a3 : en "skewness" <;> cases a4 : en "kurtosis" <;>
    first
    | (exfalso; apply hc; constructor <;> simp [a1, a2, a3, a4]; done)
    | cases b1 : en "min" <;> cases b2 : en "max" <;>
        simp [numericNames, performIf, calculate, getMin, getMax, getSum, getVariance, getSkewness, getKurtosis, fresh,
          hsum, hnan, need, Except.bind, Except.map, a1, a2, a3, a4, b1, b2]

example : ¬ Closed ["min", "variance"] := fun h => by simpa using h.variance (by simp)

/-! ### Switching all numeric statistics -/

/-- The statistics that `is_numeric_stats_enabled` switches. -/
def Switches (cls : Cls) (n : String) : Prop :=
  n ∈ ["min", "max", "sum", "variance", "skewness", "kurtosis", "histogram_and_quantiles", "mode", "median",
    "median_abs_deviation"] ∨ cls ≠ .text ∧ n ∈ ["num_zeros", "num_negatives"]

/-- **C93** Setting `is_numeric_stats_enabled` switches all numeric statistics (for text all but the counts of zeros and
negative numbers), leaves everything else as it is, and is what is read afterwards. -/
theorem C93_switch (cls : Cls) (hcls : cls = .int ∨ cls = .float ∨ cls = .text) (fields : Fields) (b : Bool)
    (hf : ∀ n, Switches cls n → ∃ c fs, PyDict.get? fields n = some (.obj c fs)) (n : String) :
    (Switches cls n → attr (.obj cls (assign cls fields "is_numeric_stats_enabled" (.bool b))) [n, "is_enabled"] = .bool b) ∧
    (¬ Switches cls n → PyDict.get? (assign cls fields "is_numeric_stats_enabled" (.bool b)) n = PyDict.get? fields n) ∧
    numericStats cls (assign cls fields "is_numeric_stats_enabled" (.bool b)) = b := by
  have hcomp : computed cls "is_numeric_stats_enabled" = true := by rcases hcls with h | h | h <;> subst h <;> rfl
  have hsw : ∀ m, m ∈ switched cls ↔ Switches cls m := by
    intro m
    rcases hcls with h | h | h <;> subst h <;> simp [switched, Switches] <;> tauto
  have hset : ∀ m, Switches cls m →
      attr (.obj cls (assign cls fields "is_numeric_stats_enabled" (.bool b))) [m, "is_enabled"] = .bool b := by
    intro m hm
    obtain ⟨c, fs, hfs⟩ := hf m hm
    rw [assign, if_pos hcomp, attr, Verif.Lemmas.OptionsSet.get?_switch, if_pos ((hsw m).2 hm), hfs]
    simp only [Option.map_some, enable, attr, PyDict.get?_set, if_pos]
  refine ⟨hset n, fun hn => ?_, ?_⟩
  · rw [assign, if_pos hcomp, Verif.Lemmas.OptionsSet.get?_switch, if_neg (fun g => hn ((hsw n).1 g))]
  · rw [numericStats]
    cases b with
    | true =>
      rw [List.any_eq_true]
      exact ⟨"min", (hsw "min").2 (Or.inl (by simp)), by rw [hset "min" (Or.inl (by simp))]; rfl⟩
    | false =>
      rw [List.any_eq_false]
      intro m hm
      rw [hset m ((hsw m).1 hm)]
      simp [truthy]

/-- **C93** A column whose numeric statistics are all switched off calculates none of them. -/
theorem C93_none (cls : Cls) (fields : Fields) (k : Kind) (numeric own : List String) (hk : k ≠ .unstructured)
    (ho : Shaped (.obj cls fields) statistics) (hcls : cls = .int ∨ cls = .float ∨ cls = .text)
    (ht : cls = .text → textErrors (.obj cls fields) [] = [])
    (h : calculations k (some (.obj cls fields)) = .ok (numeric, own)) (hs : numericStats cls fields = false) :
    numeric = [] := by
  rw [numeric_of hk ho h, List.filter_eq_nil_iff]
  intro n hn
  rw [numericStats, List.any_eq_false] at hs
  by_cases hz : cls = .text ∧ (n = "num_zeros" ∨ n = "num_negatives")
  · have hv := (Verif.Lemmas.Options.textErrors_nil _ _).1 (ht hz.1)
    have hon := (valid_closed hv.numeric).2
    rcases hz.2 with e | e <;> subst e
    · exact fun g => hv.zeros ((hon _ (by decide)).1 g)
    · exact fun g => hv.negatives ((hon _ (by decide)).1 g)
  · refine hs n ?_
    rcases hcls with e | e | e <;> subst e <;>
      (simp only [numericNames, List.mem_cons, List.not_mem_nil, or_false] at hn
       rcases hn with e | e | e | e | e | e | e | e | e <;> subst e <;>
        first | decide | exact (hz ⟨rfl, by simp⟩).elim)

/-! ### Which columns are made -/

/-- The profiles there are for a column of a table, in three groups, and for a text. -/
def kinds : Compiler → List String
  | .primitive => ["datetime", "int", "float", "text"]
  | .stats => ["order", "category"]
  | .labeler => ["data_labeler"]
  | .unstructured => ["text", "data_labeler"]

/-- What the options ask for. -/
def Wanted (c : Compiler) (o : Option Opt) (n : String) : Prop := n ∈ kinds c ∧ ∀ p, o = some p → n ∈ enabledOf c p

theorem make_ok (raises : String → Option String) (l : List String) (h : ∀ n ∈ l, raises n ≠ some "ValueError") :
    make raises l = .ok (l.filter fun n => (raises n).isNone, l.filter fun n => (raises n).isSome) := by
  induction l with
  | nil => rfl
  | cons n l ih =>
    have ih := ih fun m hm => h m (by simp [hm])
    have hn := h n (by simp)
    unfold make
    cases hr : raises n with
    | none => simp [ih, hr, Except.map]
    | some cls =>
      rw [hr] at hn
      have : cls ≠ "ValueError" := fun e => hn (by rw [e])
      simp [ih, hr, Except.map, warnOnProfile, this, Except.bind]

theorem make_error (raises : String → Option String) (l : List String) (h : ∃ n ∈ l, raises n = some "ValueError") :
    make raises l = .error .valueError := by
  induction l with
  | nil => simp at h
  | cons n l ih =>
    unfold make
    by_cases hn : raises n = some "ValueError"
    · simp [hn, warnOnProfile, Except.bind]
    · have ih := ih (by
        obtain ⟨m, hm, hv⟩ := h
        rcases List.mem_cons.mp hm with rfl | hm
        · exact absurd hv hn
        · exact ⟨m, hm, hv⟩)
      cases hr : raises n with
      | none => simp [ih, Except.map]
      | some cls =>
        rw [hr] at hn
        have : cls ≠ "ValueError" := fun e => hn (by rw [e])
        simp [ih, Except.map, warnOnProfile, this, Except.bind]

/-- **C93** Unless making a profile asked for raises a `ValueError`, which is raised again, exactly the profiles are made that the options enable
and that can be made, and a warning is given for exactly those enabled that cannot. -/
theorem C93_created (c : Compiler) (o : Option Opt) (raises : String → Option String) :
    ((∃ n, Wanted c o n ∧ raises n = some "ValueError") → created c o raises = .error .valueError) ∧
    ((∀ n, Wanted c o n → raises n ≠ some "ValueError") → ∃ made warned, created c o raises = .ok (made, warned) ∧
      made.Sublist (kinds c) ∧ warned.Sublist (kinds c) ∧
      ∀ n, (n ∈ made ↔ Wanted c o n ∧ raises n = none) ∧ (n ∈ warned ↔ Wanted c o n ∧ raises n ≠ none)) := by
  obtain ⟨l, hl, hw, hs⟩ : ∃ l, created c o raises = make raises l ∧ (∀ n, n ∈ l ↔ Wanted c o n) ∧ l.Sublist (kinds c) := by
    have hk : profilers c = kinds c := by cases c <;> rfl
    cases o with
    | none => exact ⟨profilers c, rfl, fun n => by simp [Wanted, hk], by rw [hk]; exact List.Sublist.refl _⟩
    | some p =>
      refine ⟨_, rfl, fun n => ?_, by rw [hk]; exact List.filter_sublist⟩
      simp [Wanted, hk]
  rw [hl]
  refine ⟨fun ⟨n, h1, h2⟩ => make_error _ _ ⟨n, (hw n).mpr h1, h2⟩, fun h => ?_⟩
  refine ⟨_, _, make_ok _ _ fun n hn => h n ((hw n).mp hn), List.filter_sublist.trans hs, List.filter_sublist.trans hs, fun n => ?_⟩
  constructor
  · rw [List.mem_filter, hw]
    simp
  · rw [List.mem_filter, hw, Option.isSome_iff_ne_none]

example : created .stats none (fun n => if n = "order" then some "KeyError" else none) = .ok (["category"], ["order"]) ∧
    created .stats none (fun n => if n = "order" then some "ValueError" else none) = .error .valueError := by decide +kernel

/-- **C93** A profile is enabled exactly if its option is switched on. -/
theorem C93_enabled (c : Compiler) (cls : Cls) (fields : Fields) (n : String) (hn : n ∈ kinds c) :
    n ∈ enabledOf c (.obj cls fields) ↔ n ∈ fields.map Prod.fst ∧ On (.obj cls fields) n := by
  have e : n ∉ ["null_values", "column_null_values", "sampling_ratio"] := by
    have : ∀ m ∈ kinds c, m ∉ ["null_values", "column_null_values", "sampling_ratio"] := by cases c <;> decide
    exact this n hn
  rw [enabledOf]
  split
  · rw [enabledUnstructured, List.mem_filter]; rfl
  · rw [enabledProfiles, List.mem_filter, List.mem_filter, decide_eq_true_eq]
    exact ⟨fun h => ⟨h.1.1, h.2⟩, fun h => ⟨⟨h.1, e⟩, h.2⟩⟩

/-! ### Presets -/

/-- What a table's columns are made of, with given options: the columns, and the calculations of numbers and texts. -/
structure Made where
  columns : List String
  int : List String × List String
  float : List String × List String
  text : List String × List String
deriving DecidableEq

/-- An attribute. -/
def child (n : String) : Opt → Option Opt
  | .obj _ fields => PyDict.get? fields n
  | .val _ => none

/-- What is made, with options of a profiler. -/
def made (o : Opt) : Option Made := do
  let st ← child "structured_options" o
  let calcs := fun k n => (child n st).bind fun p => (calculations k (some p)).toOption
  return { columns := [Compiler.primitive, .stats, .labeler].flatMap fun c => ((created c (some st) fun _ => none).toOption.map Prod.fst).getD []
           int := ← calcs .int "int"
           float := ← calcs .float "float"
           text := ← calcs .text "text" }

/-- What is made, with a preset. -/
def madeBy (preset : String) : Option Made := (withPreset preset).toOption.bind made

/-- **C93** The presets: `complete` and `lower_memory_sketching` calculate everything, `numeric_stats_disabled` everything but
the numeric statistics, and `data_types` makes only the labeler's column. -/
theorem C93_presets :
    madeBy "complete" = some ⟨["datetime", "int", "float", "text", "order", "category", "data_labeler"], (statistics, []),
      (statistics, ["precision"]), (statistics.take 7, ["vocab"])⟩ ∧
    madeBy "lower_memory_sketching" = madeBy "complete" ∧
    madeBy "numeric_stats_disabled" = some ⟨["datetime", "int", "float", "text", "order", "category", "data_labeler"],
      ([], []), ([], ["precision"]), ([], ["vocab"])⟩ ∧
    (madeBy "data_types").map Made.columns = some ["data_labeler"] := by decide +kernel

/-! ### What does not hold -/

/-- Numbers with infinities and NaN. -/
inductive Num where
  | fin (q : ℚ)
  | inf
  | nan
deriving DecidableEq

/-- Rounding that only overflows. -/
def clip (top : ℚ) (q : ℚ) : Num := if q < top ∧ -top < q then .fin q else .inf

/-- The number meant, if any. -/
def Num.rat : Num → ℚ
  | .fin q => q
  | _ => 0

/-- All finite. -/
def allFin (l : List Num) : Bool := l.all fun x => match x with | .fin _ => true | _ => false

/-- Sums, means and variances as in the library (numerical_column_stats.py:843-880), with overflow at `top` (none if `top` is
not given); higher moments are not normalised. -/
def numbers (top : Option ℚ) : Arith Num :=
  let cut : ℚ → Num := fun q => match top with | some t => clip t q | none => .fin q
  let sum : List Num → ℚ := fun l => (l.map Num.rat).sum
  let mom : ℕ → List Num → ℚ := fun k l => (l.map fun x => (x.rat - sum l / l.length) ^ k).sum / l.length
  let guard : List Num → ℚ → Num := fun l q => if allFin l then cut q else .nan
  { isInf := fun x => x == .inf
    isNan := fun x => x == .nan
    falsy := fun x => x == .fin 0
    least := fun l => .fin ((l.map Num.rat).foldl min ((l.map Num.rat).headD 0))
    greatest := fun l => .fin ((l.map Num.rat).foldl max ((l.map Num.rat).headD 0))
    smaller := fun x y => .fin (min x.rat y.rat)
    larger := fun x y => .fin (max x.rat y.rat)
    total := fun l => if allFin l then cut (sum l) else .inf
    add := fun x y => if allFin [x, y] then cut (x.rat + y.rat) else if x = .nan ∨ y = .nan then .nan else .inf
    zero := .fin 0
    nan := .nan
    over := fun x n => match x with | .fin q => .fin (q / n) | x => x
    var := fun l => guard l (mom 2 l)
    skew := fun l => guard l (mom 3 l)
    kurt := fun l => guard l (mom 4 l)
    mergeVar := fun c v m c' v' m' =>
      if c = 0 then v' else if c' = 0 then v
      else if allFin [v, m, v', m'] then
        cut ((v.rat * c + v'.rat * c' + (m'.rat - m.rat) ^ 2 * c * c' / (c + c')) / (c + c'))
      else .nan
    mergeSkew := fun c k _ _ c' k' _ _ => if c = 0 then k' else guard [k, k'] ((k.rat * c + k'.rat * c') / (c + c'))
    mergeKurt := fun c u _ _ _ c' u' _ _ _ => if c = 0 then u' else guard [u, u'] ((u.rat * c + u'.rat * c') / (c + c'))
    zeros := fun l => l.countP fun x => x == .fin 0
    negatives := fun l => l.countP fun x => decide (x.rat < 0) }

theorem fin_iff (top : Option ℚ) (x : Num) : Finite (numbers top) x ↔ ∃ q, x = .fin q := by
  cases x <;> simp [Finite, numbers]

theorem allFin_of {l : List Num} (h : ∀ x ∈ l, Finite (numbers none) x) : allFin l = true := by
  rw [allFin, List.all_eq_true]
  intro x hx
  obtain ⟨q, rfl⟩ := (fin_iff none x).1 (h x hx)
  rfl

/-- Exact numbers do not overflow. -/
theorem exact_noOverflow : NoOverflow (numbers none) := by
  have two : ∀ x y : Num, Finite (numbers none) x → Finite (numbers none) y → allFin [x, y] = true := fun x y hx hy =>
    allFin_of (by simpa using ⟨hx, hy⟩)
  constructor
  · exact (fin_iff _ _).2 ⟨0, rfl⟩
  · rfl
  · intro l _ h; exact (fin_iff _ _).2 ⟨_, by simp only [numbers, allFin_of h, if_true]; rfl⟩
  · intro x y hx hy; exact (fin_iff _ _).2 ⟨_, by simp only [numbers, two x y hx hy, if_true]; rfl⟩
  · intro x n _ hx
    obtain ⟨q, rfl⟩ := (fin_iff _ _).1 hx
    exact (fin_iff _ _).2 ⟨_, rfl⟩
  · intro l _ h; exact (fin_iff _ _).2 ⟨_, by simp only [numbers, allFin_of h, if_true]; rfl⟩
  · intro l _ h; exact (fin_iff _ _).2 ⟨_, by simp only [numbers, allFin_of h, if_true]; rfl⟩
  · intro l _ h; exact (fin_iff _ _).2 ⟨_, by simp only [numbers, allFin_of h, if_true]; rfl⟩
  · intro c v m c' v' m' hc' hv hm hv' hm'
    by_cases hc : c = 0
    · simpa only [numbers, hc, if_true] using hv'
    · have : allFin [v, m, v', m'] = true :=
        allFin_of (by simpa using ⟨hv (Nat.pos_of_ne_zero hc), hm, hv', hm'⟩)
      simp only [numbers, hc, Nat.pos_iff_ne_zero.1 hc', this, if_true, if_false]
      exact (fin_iff none _).2 ⟨_, rfl⟩
  · intro c k v m c' k' v' m' hc' hv hm hk' hv' hm'
    by_cases hc : c = 0
    · simpa only [numbers, hc, if_true] using hk'
    · simp only [numbers, hc, two k k' (hv (Nat.pos_of_ne_zero hc)).1 hk', if_true, if_false]
      exact (fin_iff none _).2 ⟨_, rfl⟩
  · intro c u k v m c' u' k' v' m' hc' hv hm hu' hk' hv' hm'
    by_cases hc : c = 0
    · simpa only [numbers, hc, if_true] using hu'
    · simp only [numbers, hc, two u u' (hv (Nat.pos_of_ne_zero hc)).1 hu', if_true, if_false]
      exact (fin_iff none _).2 ⟨_, rfl⟩

/-- Beyond the greatest double. -/
def beyond : ℚ := 2 ^ 1024

/-- A histogram that is not looked at. -/
def still : Unit → List Num → Unit := fun h _ => h

/-- **C93 fails** for sums that overflow: three batches with the value 2 ^ 1023 each, of finite sum and of variance 0, with all
statistics: the sum of the first two is infinite, the third batch raises `KeyError`. -/
theorem C93_overflow_fails : ∃ batches : List (List Num), (∀ v ∈ batches, ∀ x ∈ v, ∃ q, x = .fin q ∧ q < beyond) ∧
    (∃ s, updates (numbers (some beyond)) still statistics (batches.take 2) (fresh (numbers (some beyond)) ()) = .ok s ∧
      s.var = .fin 0) ∧
    updates (numbers (some beyond)) still statistics batches (fresh (numbers (some beyond)) ()) = .error .keyError := by
  refine ⟨[[.fin (2 ^ 1023)], [.fin (2 ^ 1023)], [.fin (2 ^ 1023)]], ?_, ?_, by decide +kernel⟩
  · intro v hv x hx
    have : x = .fin (2 ^ 1023) := by
      simp only [List.mem_cons, List.not_mem_nil, or_false] at hv
      rcases hv with h | h | h <;> subst h <;> simpa using hx
    exact ⟨_, this, by decide +kernel⟩
  · exact ⟨⟨2, some (.fin (2 ^ 1023)), some (.fin (2 ^ 1023)), .inf, .fin 0, .fin 0, .fin 0, (), 0, 0⟩, by decide +kernel⟩

instance (o : Opt) (n : String) : Decidable (On o n) := inferInstanceAs (Decidable (_ = true))

/-- Options with some values replaced. -/
def withValue (cls : Cls) (fields : Fields) (n m : String) (v : PV) : Opt :=
  match PyDict.get? fields n with
  | some (.obj c fs) => .obj cls (PyDict.set fields n (.obj c (PyDict.set fs m (.val v))))
  | _ => .obj cls fields

/-- **C93 fails** for the number of quantiles: `None` is valid, but no quantiles can be calculated with it. -/
theorem C93_quantiles_fails : ∃ o, numericalErrors o [] = [] ∧ On o "histogram_and_quantiles" ∧
    quantileCount (attr o ["histogram_and_quantiles", "num_quantiles"]) = .error .typeError :=
  ⟨withValue .int (numericalFields true) "histogram_and_quantiles" "num_quantiles" .none, by decide +kernel⟩

/-- The number an integer, flag or truth value stands for. -/
def Counts (num : PV) (n : ℕ) : Prop := num = .int n ∨ num = .regexFlag n ∨ (num = .bool true ∧ n = 1)

/-- **C93** With any positive number of quantiles there is one quantile fewer, which cut the values into as many parts as asked for. -/
theorem C93_quantiles (num : PV) (n : ℕ) (hn : 0 < n) (h : Counts num n) : ∃ m, quantileCount num = .ok m ∧ m + 1 = n := by
  rcases h with rfl | rfl | ⟨rfl, rfl⟩
  · exact ⟨n - 1, by simp only [quantileCount, Except.ok.injEq]; omega, by omega⟩
  · exact ⟨n - 1, rfl, by omega⟩
  · exact ⟨0, rfl, rfl⟩

example : Counts (.int 1000) 1000 ∧ quantileCount (.int 1000) = .ok 999 := ⟨Or.inl rfl, by decide +kernel⟩

/-- The positions, from `i` on, at which a list has a number. -/
def places (top : ℕ) : ℕ → List ℕ → List ℕ
  | _, [] => []
  | i, c :: rest => if c = top then i :: places top (i + 1) rest else places top (i + 1) rest

theorem modeLoop_int {k : ℕ} (hk : 0 < k) : ∀ (l : List ℕ) (i : ℕ) (top : ℤ) (found : List ℕ), found.length ≤ k →
    (∀ t : ℕ, top = t → (∀ c ∈ l, c ≤ t) → modeLoop (.int k) l i top found = .ok ((found ++ places t i l).take k)) ∧
    (∀ t : ℕ, top < t → t ∈ l → (∀ c ∈ l, c ≤ t) → modeLoop (.int k) l i top found = .ok ((places t i l).take k)) := by
  intro l
  induction l with
  | nil =>
    intro i top found hf
    refine ⟨fun t ht hm => ?_, fun t ht hm => by simp at hm⟩
    simp [modeLoop, places, List.take_of_length_le hf]
  | cons c l ih =>
    intro i top found hf
    constructor
    · rintro t rfl hm
      have hc : c ≤ t := hm c (by simp)
      have hl : ∀ x ∈ l, x ≤ t := fun x hx => hm x (by simp [hx])
      by_cases e : c = t
      · subst e
        unfold modeLoop
        simp only [gt_iff_lt, lt_self_iff_false, if_false, if_true, places]
        by_cases hlt : found.length < k
        · rw [if_pos (by exact_mod_cast hlt), (ih (i + 1) c (found ++ [i]) (by simp; omega)).1 c rfl hl]
          simp
        · have : found.length = k := by omega
          rw [if_neg (by exact_mod_cast hlt), (ih (i + 1) c found hf).1 c rfl hl]
          rw [List.take_append_of_le_length (by omega), List.take_append_of_le_length (by omega)]
      · unfold modeLoop
        rw [if_neg (by omega), if_neg (by omega), (ih (i + 1) t found hf).1 t rfl hl]
        simp [places, e]
    · intro t ht hmem hm
      have hc : c ≤ t := hm c (by simp)
      have hl : ∀ x ∈ l, x ≤ t := fun x hx => hm x (by simp [hx])
      by_cases e : c = t
      · subst e
        unfold modeLoop
        rw [if_pos (by omega), (ih (i + 1) c [i] (by simp; omega)).1 c rfl hl]
        simp [places]
      · have hmem' : t ∈ l := by
          rcases List.mem_cons.1 hmem with h | h
          · exact absurd h.symm e
          · exact h
        have hp : places t i (c :: l) = places t (i + 1) l := by simp [places, e]
        rw [hp]
        unfold modeLoop
        by_cases h1 : (c : ℤ) > top
        · rw [if_pos h1]
          exact (ih (i + 1) c [i] (by simp; omega)).2 t (by omega) hmem' hl
        · rw [if_neg h1]
          by_cases h2 : (c : ℤ) = top
          · rw [if_pos h2]
            refine (ih (i + 1) top _ ?_).2 t ht hmem' hl
            split
            next hlt => rw [List.length_append, List.length_singleton]; omega
            next => exact hf
          · rw [if_neg h2]
            exact (ih (i + 1) top found hf).2 t ht hmem' hl

theorem places_eq (t : ℕ) : ∀ (l : List ℕ) (i : ℕ), places t i l = ((List.range l.length).filter fun j => l[j]? == some t).map (· + i) := by
  intro l
  induction l with
  | nil => intro i; simp [places]
  | cons c l ih =>
    intro i
    rw [List.length_cons, List.range_succ_eq_map, List.filter_cons, List.filter_map, places, ih]
    simp only [List.getElem?_cons_zero, Option.some_beq_some, beq_iff_eq, Function.comp_def, List.getElem?_cons_succ]
    have : (fun j => j + (i + 1)) = fun j => Nat.succ j + i := by funext j; omega
    split <;> simp [Function.comp_def, this]

/-- **C93** The bins reported as modes are the first ones, up to the number asked for, that have the greatest count. Truth values and flags
count as numbers. -/
theorem C93_modes {k : ℕ} (hk : 0 < k) {counts : List ℕ} {top : ℕ} (ht : top ∈ counts) (hm : ∀ c ∈ counts, c ≤ top) :
    modeBins (.int k) counts = .ok (((List.range counts.length).filter fun j => counts[j]? == some top).take k) ∧
    modeBins (.regexFlag k) counts = modeBins (.int k) counts ∧ modeBins (.bool true) counts = modeBins (.int 1) counts ∧
    modeBins (.bool false) counts = modeBins (.int 0) counts := by
  refine ⟨?_, ?_, ?_, ?_⟩
  · unfold modeBins
    rw [(modeLoop_int hk counts 0 (-1) [] (by simp)).2 top (by omega) ht hm, places_eq]
    simp
  · unfold modeBins
    generalize 0 = i, (-1 : ℤ) = t, ([] : List ℕ) = f
    clear ht hm
    induction counts generalizing i t f with
    | nil => rfl
    | cons c l ih => simp only [modeLoop, ih, Nat.cast_lt]
  · unfold modeBins
    generalize 0 = i, (-1 : ℤ) = t, ([] : List ℕ) = f
    clear ht hm
    induction counts generalizing i t f with
    | nil => rfl
    | cons c l ih =>
      simp only [modeLoop, ih, if_true]
      have : ((f.length : ℤ) < 1) = (f.length < 1) := by simp
      simp only [this]
  · unfold modeBins
    generalize 0 = i, (-1 : ℤ) = t, ([] : List ℕ) = f
    clear ht hm
    induction counts generalizing i t f with
    | nil => rfl
    | cons c l ih =>
      simp only [modeLoop, ih]
      have : ((f.length : ℤ) < 0) = (f.length < 0) := by simp
      simp [this]

/-- Three bins with the greatest count, of which two are asked for. -/
example : modeBins (.int 2) [1, 4, 0, 4, 4] = .ok [1, 3] := (C93_modes (k := 2) (top := 4) (by decide) (by decide) (by decide)).1

/-- **C93 fails** for the number of modes: `None` is valid, but two bins with the same count then raise `TypeError`. -/
theorem C93_modes_fails : ∃ o, numericalErrors o [] = [] ∧ On o "mode" ∧
    modeBins (attr o ["mode", "top_k_modes"]) [1, 1] = .error .typeError ∧ modeBins (.int 5) [1, 1] = .ok [0, 1] :=
  ⟨withValue .int (numericalFields true) "mode" "top_k_modes" .none, by decide +kernel⟩

/-- Lengths of short texts. -/
def short (x : Num) : Bool := decide (x.rat ≤ 255)

/-- **C93 fails** for the type of a column of text: it depends on the maximum being calculated. -/
theorem C93_type_fails : ∃ o numeric own, textErrors o [] = [] ∧ calculations .text (some o) = .ok (numeric, own) ∧
    ∃ s t : Col Num Unit, updates (numbers none) still (statistics.take 7) [[.fin 3]] (fresh (numbers none) ()) = .ok s ∧
      updates (numbers none) still numeric [[.fin 3]] (fresh (numbers none) ()) = .ok t ∧
      textType (numbers none) short s = "string" ∧ textType (numbers none) short t = "text" :=
  ⟨withValue .text (numericalFields false ++ [("vocab", booleanOption true)]) "max" "is_enabled" (.bool false),
    ["min", "sum", "variance", "skewness", "kurtosis", "histogram_and_quantiles"], ["vocab"], by decide +kernel,
    by decide +kernel, ⟨1, some (.fin 3), some (.fin 3), .fin 3, .fin 0, .fin 0, .fin 0, (), 0, 0⟩,
    ⟨1, some (.fin 3), none, .fin 3, .fin 0, .fin 0, .fin 0, (), 0, 0⟩, by decide +kernel⟩

/-- A case of `C93_partial`: two batches, without minimum and kurtosis. -/
example : ∃ numeric own, numericalErrors (withValue .int (numericalFields true) "kurtosis" "is_enabled" (.bool false)) [] = [] ∧
    calculations .int (some (withValue .int (numericalFields true) "kurtosis" "is_enabled" (.bool false))) = .ok (numeric, own) ∧
    updates (numbers none) still numeric [[.fin 1, .fin 3], [.fin 5]] (fresh (numbers none) ()) =
      .ok ⟨3, some (.fin 1), some (.fin 5), .fin 9, .fin (8 / 3), .fin 0, .nan, (), 0, 0⟩ :=
  ⟨["min", "max", "sum", "variance", "skewness", "histogram_and_quantiles", "num_zeros", "num_negatives"], [],
    by decide +kernel⟩

end Verif.Props.Enabled
