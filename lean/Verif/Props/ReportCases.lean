import Verif.Props.Report
import Mathlib.Data.List.Range

/-! # C82: reports of whole tables, removing disabled statistics, examples -/

namespace Verif.Props.Report

open Verif Nested Verif.Report Verif.Report.Spec

variable {ν V : Type}

/-- What a table's report makes of a column's report: quantiles in groups and the metrics of null replication. -/
structure Finished (truthy : Val ν V → Bool) (groups : Val ν V → Val ν V) (metrics : Option (Val ν V)) (d e : Dict ν V) :
    Prop where
  others : ∀ k, k ≠ "statistics" → k ≠ "null_replication_metrics" → PyDict.get? e k = PyDict.get? d k
  metric : PyDict.get? e "null_replication_metrics" = metrics
  stats : ∃ st st', PyDict.get? d "statistics" = some (.dict st) ∧ PyDict.get? e "statistics" = some (.dict st') ∧
    (∀ k, k ≠ "quantiles" → PyDict.get? st' k = PyDict.get? st k) ∧
    PyDict.get? st' "quantiles" = (PyDict.get? st "quantiles").map fun q => if truthy q then groups q else q

theorem finished (truthy : Val ν V → Bool) (groups : Val ν V → Val ν V) (m : Option (PyDict ℕ (Val ν V))) (i : ℕ)
    {flag : Bool} {c : Col ν V} {d : Dict ν V} (h : colReport flag c = .ok d) :
    Finished truthy groups (m.bind fun ms => PyDict.get? ms i) d (addMetrics m i (regroup truthy groups d)) := by
  obtain ⟨K, hK⟩ := (C82_reported flag c).1 ⟨d, h⟩
  have hst := colReport_stats hK h
  have hnm : PyDict.get? d "null_replication_metrics" = none := by
    rw [colReport_fed flag c K hK] at h
    cases h
    rw [pick_get, if_neg]
    unfold colKeys; split <;> simp
  have hm : ∀ d' : Dict ν V, (∀ k, k ≠ "null_replication_metrics" → PyDict.get? (addMetrics m i d') k = PyDict.get? d' k) ∧
      (PyDict.get? d' "null_replication_metrics" = none →
        PyDict.get? (addMetrics m i d') "null_replication_metrics" = m.bind fun ms => PyDict.get? ms i) := by
    intro d'
    cases m with
    | none => exact ⟨fun k _ => rfl, fun h => h⟩
    | some ms =>
      simp only [addMetrics, Option.bind_some]
      cases PyDict.get? ms i with
      | none => exact ⟨fun k _ => rfl, fun h => h⟩
      | some v => exact ⟨fun k hk => by simp [PyDict.get?_set, Ne.symm hk], fun _ => by simp [PyDict.get?_set]⟩
  have hr : (∀ k, k ≠ "statistics" → PyDict.get? (regroup truthy groups d) k = PyDict.get? d k) ∧
      ∃ st', PyDict.get? (regroup truthy groups d) "statistics" = some (.dict st') ∧
        (∀ k, k ≠ "quantiles" → PyDict.get? st' k = PyDict.get? (finalStats flag c K) k) ∧
        PyDict.get? st' "quantiles" = (PyDict.get? (finalStats flag c K) "quantiles").map fun q =>
          if truthy q then groups q else q := by
    unfold regroup
    rw [hst]
    simp only
    cases hq : PyDict.get? (finalStats flag c K) "quantiles" with
    | none => exact ⟨fun k _ => rfl, _, hst, fun k _ => rfl, by rw [hq]; rfl⟩
    | some q =>
      simp only
      by_cases ht : truthy q = true
      · rw [if_pos ht]
        refine ⟨fun k hk => by simp [PyDict.get?_set, Ne.symm hk],
          PyDict.set (finalStats flag c K) "quantiles" (groups q), by simp [PyDict.get?_set],
          fun k hk => by simp [PyDict.get?_set, Ne.symm hk], by simp [PyDict.get?_set, ht]⟩
      · rw [if_neg ht]
        exact ⟨fun k _ => rfl, _, hst, fun k _ => rfl, by rw [hq]; simp [ht]⟩
  obtain ⟨h1, st', h2, h3, h4⟩ := hr
  obtain ⟨m1, m2⟩ := hm (regroup truthy groups d)
  refine ⟨fun k a b => by rw [m1 k b, h1 k a], m2 (by rw [h1 _ (by decide), hnm]), _, st', hst, ?_, h3, h4⟩
  rw [m1 _ (by decide), h2]

theorem dataStats_spec (truthy : Val ν V → Bool) (groups : Val ν V → Val ν V) (flag : Bool) (m : Option (PyDict ℕ (Val ν V)))
    (cs : List (Col ν V)) : ∀ (n : ℕ) (es : List (Dict ν V)), dataStats truthy groups flag m n cs = .ok es →
      es.length = cs.length ∧ ∀ i c, cs[i]? = some c → ∃ d e, colReport flag c = .ok d ∧ es[i]? = some e ∧
        Finished truthy groups (m.bind fun ms => PyDict.get? ms (n + i)) d e := by
  induction cs with
  | nil =>
    intro n es h
    simp only [dataStats] at h
    cases h
    simp
  | cons c cs ih =>
    intro n es h
    simp only [dataStats] at h
    cases hc : colReport flag c with
    | error x => rw [hc] at h; simp [bind, Except.bind] at h
    | ok d =>
      rw [hc] at h
      simp only [bind, Except.bind] at h
      cases hd : dataStats truthy groups flag m (n + 1) cs with
      | error x => rw [hd] at h; simp at h
      | ok ds =>
        rw [hd] at h
        simp only [Except.ok.injEq] at h
        subst h
        obtain ⟨h1, h2⟩ := ih _ _ hd
        refine ⟨by simp [h1], fun i c' hi => ?_⟩
        cases i with
        | zero =>
          simp only [List.getElem?_cons_zero, Option.some.injEq] at hi
          subst hi
          exact ⟨d, _, hc, by simp, finished truthy groups m n hc⟩
        | succ i =>
          rw [List.getElem?_cons_succ] at hi
          obtain ⟨d', e, a, b, f⟩ := h2 i c' hi
          refine ⟨d', e, a, by simpa using b, ?_⟩
          rw [show n + (i + 1) = n + 1 + i by omega]
          exact f

variable [DecidableEq ν]

/-- The report of a table has one entry per column, in the order of the columns: the report of that column with its
quantiles in groups and its own metrics of null replication. -/
theorem C82_columns {truthy : Val ν V → Bool} {groups : Val ν V → Val ν V} {flag : Bool} {t : Table ν V}
    {r : TableReport ν V} (h : report truthy groups flag t = .ok r) :
    r.columns.length = t.cols.length ∧ PyDict.get? r.globals "column_count" = some (.leaf (.nat t.cols.length)) ∧
      ∀ i c, t.cols[i]? = some c → ∃ d e, colReport flag c = .ok d ∧ r.columns[i]? = some e ∧
        Finished truthy groups (t.nullReplication.bind fun ms => PyDict.get? ms i) d e := by
  unfold report at h
  cases hd : dataStats truthy groups flag t.nullReplication 0 t.cols with
  | error x => rw [hd] at h; simp [bind, Except.bind] at h
  | ok ds =>
    rw [hd] at h
    simp only [bind, Except.bind, Except.ok.injEq] at h
    subst h
    obtain ⟨h1, h2⟩ := dataStats_spec _ _ _ _ _ _ _ hd
    refine ⟨h1, by simp [globalStats, PyDict.get?_cons], fun i c hi => ?_⟩
    simpa using h2 i c hi

/-- The global entries of a report: the size of the largest sample, the numbers of columns and rows, and nine figures as they
are, besides the schema. -/
theorem C82_globals {truthy : Val ν V → Bool} {groups : Val ν V → Val ν V} {flag : Bool} {t : Table ν V}
    {r : TableReport ν V} (h : report truthy groups flag t = .ok r) (k : String) (v : Val ν V) :
    PyDict.get? r.globals k = some v ↔
      (k = "samples_used" ∧ v = .leaf (.nat t.maxSamples)) ∨ (k = "column_count" ∧ v = .leaf (.nat t.cols.length)) ∨
      (k = "row_count" ∧ v = .leaf (.nat t.rows)) ∨
      (k ∈ ["row_has_null_ratio", "row_is_null_ratio", "unique_row_ratio", "duplicate_row_count", "file_type", "encoding",
        "correlation_matrix", "chi2_matrix", "times"] ∧ v = t.stats k) := by
  unfold report at h
  cases hd : dataStats truthy groups flag t.nullReplication 0 t.cols with
  | error x => rw [hd] at h; simp [bind, Except.bind] at h
  | ok ds =>
    rw [hd] at h
    simp only [bind, Except.bind, Except.ok.injEq] at h
    subst h
    constructor
    · intro hg
      have hm := PyDict.mem_of_get? hg
      simp only [globalStats, List.mem_cons, Prod.mk.injEq, List.not_mem_nil, or_false] at hm
      rcases hm with h | h | h | h | h | h | h | h | h | h | h | h
      · exact Or.inl h
      · exact Or.inr (Or.inl h)
      · exact Or.inr (Or.inr (Or.inl h))
      all_goals
        refine Or.inr (Or.inr (Or.inr ?_))
        obtain ⟨rfl, rfl⟩ := h
        exact ⟨by decide, rfl⟩
    · rintro (⟨rfl, rfl⟩ | ⟨rfl, rfl⟩ | ⟨rfl, rfl⟩ | ⟨hm, rfl⟩)
      · rfl
      · rfl
      · rfl
      · simp only [List.mem_cons, List.not_mem_nil, or_false] at hm
        rcases hm with rfl | rfl | rfl | rfl | rfl | rfl | rfl | rfl | rfl <;> rfl

/-- The schema of a report gives for every name of a column the positions of the columns with that name, in order. -/
theorem C82_schema {truthy : Val ν V → Bool} {groups : Val ν V → Val ν V} {flag : Bool} {t : Table ν V}
    {r : TableReport ν V} (h : report truthy groups flag t = .ok r) (n : ν) :
    (n ∉ t.cols.map Col.name → PyDict.get? r.schema n = none) ∧
    (n ∈ t.cols.map Col.name → ∃ l, PyDict.get? r.schema n = some l ∧ Positions (t.cols.map Col.name) n l) := by
  unfold report at h
  cases hd : dataStats truthy groups flag t.nullReplication 0 t.cols with
  | error x => rw [hd] at h; simp [bind, Except.bind] at h
  | ok ds =>
    rw [hd] at h
    simp only [bind, Except.bind, Except.ok.injEq] at h
    subst h
    simp only
    rw [Props.ProfileDiff.schemaFrom_get, Props.ProfileDiff.posFrom_eq]
    constructor
    · intro hn
      have : ProfileDiff.positions n (t.cols.map Col.name) = [] := by
        by_contra hne
        exact hn ((Props.ProfileDiff.positions_ne_nil _ _).1 hne)
      rw [this]; rfl
    · intro hn
      have hne := (Props.ProfileDiff.positions_ne_nil n (t.cols.map Col.name)).2 hn
      rw [if_neg (by simpa using hne)]
      refine ⟨ProfileDiff.positions n (t.cols.map Col.name), by simp, ?_, ?_⟩
      · exact List.Pairwise.filter _ List.pairwise_lt_range
      · intro i
        rw [ProfileDiff.positions, List.mem_filter, List.mem_range]
        constructor
        · rintro ⟨-, h⟩; simpa using h
        · intro h
          exact ⟨(List.getElem?_eq_some_iff.1 h).1, by simpa using h⟩

omit [DecidableEq ν] in
/-- With the flag, a statistic of a decimal or text column that is shown was calculated, and every calculated statistic of an
integer or date column is shown. Missing: the converse of each (`C82_removed_fails`, `C82_kept_fails`). -/
theorem C82_disabled_partial {c : Col ν V} {K : Comps ν V} {d : Dict ν V} (h : c.comps = some K)
    (hr : colReport true c = .ok d) {p : Prim ν V} (hp : Selected K.types p) : ∃ st, PyDict.get? d "statistics" = some (.dict st) ∧
      ∀ k, Offers p.ty k →
        ((p.ty = .float ∨ p.ty = .text) → (PyDict.get? st k ≠ none → Calculated p k)) ∧
        ((p.ty = .int ∨ p.ty = .datetime) → ∃ v, Value p k v ∧ PyDict.get? st k = some v) := by
  obtain ⟨st, hst, hs⟩ := C82_statistics h hr
  refine ⟨st, hst, fun k hk => ?_⟩
  have hne := offers_ne hk
  have ht : k ≠ "times" := by rintro rfl; simp at hne
  have hd : k ≠ "data_type_representation" := by rintro rfl; simp at hne
  constructor
  · intro hty hg
    cases hv : PyDict.get? st k with
    | none => exact absurd hv hg
    | some v =>
      have := (shows_iff true c k v).1 ((hs k v ht hd).1 hv)
      simp only [List.mem_cons, List.not_mem_nil, or_false, not_or] at hne
      rcases this with ⟨e, -⟩ | ⟨e, -⟩ | ⟨e, -⟩ | ⟨e, -⟩ | ⟨K', hK', ⟨q, hq, -, hl, -⟩ | ⟨x, -, hx, -⟩ | ⟨l, -, e, -⟩ | ⟨l, -, e, -⟩⟩
      · exact absurd e hne.1
      · exact absurd e hne.2.1
      · exact absurd e hne.2.2.1
      · exact absurd e hne.2.2.2.1
      · rw [h] at hK'; cases hK'
        have : q = p := by
          have a := (first_selected _ _).2 hq
          have b := (first_selected _ _).2 hp
          rw [a] at b; exact Option.some.inj b
        subst this
        have hl := hl rfl
        unfold Calculated
        rcases hty with e | e
        · rw [e]
          obtain ⟨rfl, ho⟩ := hl.1 e
          simpa using ho
        · rw [e]
          obtain ⟨rfl, ho⟩ := hl.2 e
          simpa using ho
      · have := catOffers_mem hx
        simp only [List.mem_cons, List.not_mem_nil, or_false] at this
        tauto
      · tauto
      · tauto
  · intro hty
    refine ⟨shownVal p k, (value_iff p k _).2 rfl, (hs k _ ht hd).2 (.stat h hp hk ?_ ((value_iff p k _).2 rfl))⟩
    intro _
    rcases hty with e | e <;> rw [e] <;> simp

omit [DecidableEq ν] in
/-- The report of the numeric statistics alone keeps with the flag exactly what was calculated, except that the mean, the
median and the median deviation are never kept (`C82_mixin_fails`). The names of calculations are those of statistics. -/
theorem C82_mixin_partial (p : Prim ν V) (hc : ∀ k ∈ p.calcs, k ∈ ["min", "max", "sum", "variance", "skewness", "kurtosis",
      "histogram_and_quantiles", "num_zeros", "num_negatives"]) (k : String) (hk : k ∈ numeric ∨ k = "num_zeros" ∨ k = "num_negatives")
    (hm : k ∉ ["mean", "median", "median_abs_deviation"]) :
    (PyDict.get? (numReport true p) k = some (p.stats k) ∧ source k ∈ p.calcs) ∨
    (PyDict.get? (numReport true p) k = none ∧ source k ∉ p.calcs) := by
  have hw : PyDict.WF (numProfile p) := by rw [numProfile_eq]; exact wf_map _ _ (by decide)
  have hin : k ∈ numKeys := by
    simp only [numeric, numKeys, List.mem_cons, List.not_mem_nil, or_false] at hk ⊢
    tauto
  have hg : PyDict.get? (numReport true p) k = if numKeep p.calcs k = false then none else some (p.stats k) := by
    unfold numReport
    rw [if_pos rfl, (popLoop_get _ _ _ hw).2, numProfile_eq, keys_map, get?_map, if_pos hin]
    simp [hin]
  have hkeep : numKeep p.calcs k = true ↔ source k ∈ p.calcs := by
    simp only [numeric, List.mem_cons, List.not_mem_nil, or_false, not_or] at hk hm
    have hst : "stddev" ∉ p.calcs := fun h => by simpa using hc _ h
    rcases hk with (rfl | rfl | rfl | rfl | rfl | rfl | rfl | rfl | rfl | rfl | rfl | rfl | rfl) | rfl | rfl <;>
      simp_all [numKeep, source]
  rw [hg]
  by_cases h : source k ∈ p.calcs
  · left; exact ⟨by rw [if_neg (by rw [hkeep.2 h]; simp)], h⟩
  · right
    refine ⟨if_pos ?_, h⟩
    cases hn : numKeep p.calcs k with
    | false => rfl
    | true => exact absurd (hkeep.1 hn) h

/-! ## Examples and failing cases -/

/-- A profile of a data type with all calculations. -/
def full (ty : Ty) (ratio : ℚ) : Prim ℕ String :=
  { ty := ty, ratio := some ratio, stats := fun k => if k = "times" then .dict [("x", .leaf (.other "1"))] else .leaf (.other k),
    calcs := ["min", "max", "sum", "variance", "skewness", "kurtosis", "histogram_and_quantiles", "num_zeros", "num_negatives"],
    own := ["precision", "vocab"] }

/-- A column of decimals. -/
def decimals : Col ℕ String :=
  { name := 7, samples := .leaf (.other "samples"), sampleSize := .leaf (.nat 3), nullCount := .leaf (.nat 0),
    nullTypes := .leaf (.other "[]"), nullRows := .dict [],
    comps := some { types := [full .int 0, full .float 1, full .text 1], order := some ⟨.leaf (.other "random"), .dict []⟩,
                    cat := some ⟨false, fun k => .leaf (.other k), .dict []⟩, label := none } }

/-- A column of integers whose variance is disabled. -/
def integers : Col ℕ String :=
  { decimals with comps := some { types := [{ full .int 1 with calcs := ["min", "max", "sum"] }], order := none, cat := none,
                                  label := some (some ⟨.leaf (.other "UNKNOWN"), .dict [], .dict [], .dict []⟩) } }

/-- The statistics of a column. -/
def statsOf (r : Except Err (Dict ℕ String)) : List String :=
  match r with
  | .ok d => match PyDict.get? d "statistics" with
    | some (.dict st) => PyDict.keys st
    | _ => []
  | .error _ => []

example : statsOf (colReport false decimals) =
    ["min", "max", "mode", "median", "sum", "mean", "variance", "stddev", "skewness", "kurtosis", "histogram", "quantiles",
      "median_abs_deviation", "num_zeros", "num_negatives", "times", "precision", "unique_count", "unique_ratio", "sample_size",
      "null_count", "null_types", "null_types_index", "data_type_representation"] := by decide +kernel

example : ∃ K p, decimals.comps = some K ∧ Selected K.types p ∧ p.ty = .float ∧ (K.types.map Prim.ty).Nodup :=
  ⟨_, full .float 1, rfl, ⟨[full .int 0], [full .text 1], rfl, rfl, by simp [full]⟩, rfl, by decide⟩

/-- Removing disabled statistics removes enabled ones: of a column of decimals with every statistic enabled only the
precision is left. -/
theorem C82_removed_fails : ∃ (K : _) (p : Prim ℕ String), decimals.comps = some K ∧ Selected K.types p ∧
    Offers p.ty "min" ∧ Calculated p "min" ∧ "min" ∈ statsOf (colReport false decimals) ∧
    statsOf (colReport true decimals) = ["precision", "unique_count", "unique_ratio", "sample_size",
      "null_count", "null_types", "null_types_index", "data_type_representation"] :=
  ⟨_, full .float 1, rfl, ⟨[full .int 0], [full .text 1], rfl, rfl, by simp [full]⟩, by simp [full, Offers, numeric],
    by simp [full, Calculated, source], by decide +kernel, by decide +kernel⟩

/-- Removing disabled statistics keeps disabled ones: the variance of a column of integers is shown although it is
disabled. -/
theorem C82_kept_fails : ∃ (K : _) (p : Prim ℕ String), integers.comps = some K ∧ Selected K.types p ∧
    Offers p.ty "variance" ∧ ¬ Calculated p "variance" ∧ "variance" ∈ statsOf (colReport true integers) :=
  ⟨_, { full .int 1 with calcs := ["min", "max", "sum"] }, rfl, ⟨[], [], rfl, rfl, by simp⟩, by simp [full, Offers, numeric],
    by simp [full, Calculated, source], by decide +kernel⟩

/-- The report of the numeric statistics alone leaves out the mean and the median although they are enabled. -/
theorem C82_mixin_fails : ∀ k ∈ ["mean", "median", "median_abs_deviation"], source k ∈ (full .int 1).calcs ∧
    k ∉ PyDict.keys (numReport true (full .int 1)) := by
  decide +kernel

omit [DecidableEq ν] in
/-- The times measured for the order and the categories of a column are in no report. -/
theorem C82_lost_times_fails {flag : Bool} {c : Col ν V} {d : Dict ν V} (h : colReport flag c = .ok d) :
    PyDict.get? d "times" = none := by
  obtain ⟨K, hK⟩ := (C82_reported flag c).1 ⟨d, h⟩
  rw [colReport_fed flag c K hK] at h
  cases h
  rw [pick_get, if_neg]
  unfold colKeys; split <;> simp

/-- Two columns with one name. -/
def twoCols : Table ℕ String :=
  { maxSamples := 3, rows := 3, stats := fun k => .leaf (.other k), cols := [decimals, integers, { integers with name := 2 }],
    nullReplication := some [(1, .leaf (.other "metrics"))] }

example : (match report (fun _ => true) (fun _ => .leaf (.other "quartiles")) false twoCols with
    | .ok r => (r.schema, r.columns.map fun d => (PyDict.get? d "null_replication_metrics").isSome)
    | .error _ => ([], [])) = ([(7, [0, 1]), (2, [2])], [false, true, false]) := by decide +kernel

end Verif.Props.Report
