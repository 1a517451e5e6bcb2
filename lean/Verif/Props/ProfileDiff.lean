import Verif.Lemmas.ProfileDiffCol
import Mathlib.Tactic.NormNum
import Mathlib.Data.List.Basic

/-! # C79: differences of structured profiles -/

namespace Verif.Props.ProfileDiff

open Verif Verif.Diffs Verif.Nested Verif.ProfileDiff

variable {τ ν : Type} (T : Tests τ)

/-! ## Columns -/

/-- Both columns have a profile of categories. -/
def Cats (a b : Col ν) (x y : CatCol) : Prop :=
  (∃ s, a.stats = some s ∧ s.categorical = some x) ∧ ∃ s, b.stats = some s ∧ s.categorical = some y

/-- Both columns have labels. -/
def Labelled (a b : Col ν) (x y : LabelCol) : Prop :=
  (∃ s, a.label = some s ∧ s.labeler = some x) ∧ ∃ s, b.label = some s ∧ s.labeler = some y

theorem bothCat_iff (a b : Col ν) (x y : CatCol) : bothCat a.stats b.stats = some (x, y) ↔ Cats a b x y := by
  unfold Cats bothCat
  rcases a.stats with _ | ⟨_, _ | x'⟩ <;> rcases b.stats with _ | ⟨_, _ | y'⟩ <;> simp

theorem stats_get (a b : Option StatComp) :
    PyDict.get? (orderOut a b ++ catOut T a b : PyDict String (NV (Leaf τ ν))) "statistics" = match bothCat a b with
      | some (x, y) => some (.dict (catStats x y
          (if x.isMatch = true ∧ y.isMatch = true then catL T x y (psiL T x y) else [])))
      | none => none := by
  rw [get?_append]
  have ho : PyDict.get? (orderOut a b : PyDict String (NV (Leaf τ ν))) "statistics" = none := by
    unfold orderOut; cases bothOrder a b <;> rfl
  rw [ho]
  unfold catOut
  cases bothCat a b <;> rfl

theorem label_get (a b : Col ν) :
    PyDict.get? (labelOut a.label b.label : PyDict String (NV (Leaf τ ν))) "statistics" = none ↔
      ¬ ∃ x y, Labelled a b x y := by
  unfold Labelled
  rcases a.label with _ | ⟨_ | x⟩ <;> rcases b.label with _ | ⟨_ | y⟩ <;>
    simp [labelOut, labelL, PyDict.get?_cons]

theorem label_look (a b : Col ν) (x y : LabelCol) (h : Labelled a b x y) :
    (labelOut a.label b.label : PyDict String (NV (Leaf τ ν))) = labelL x y := by
  obtain ⟨⟨s, h1, h2⟩, s', h3, h4⟩ := h
  rw [h1, h3]
  cases s; cases s'
  simp only at h2 h4
  rw [h2, h4]
  rfl

/-- Two columns of the same type. -/
def SameType (a b : Col ν) (ty : String) : Prop := HasType a ty ∧ HasType b ty

theorem types_get {a b : Col ν} {t : PyDict String (NV (Leaf τ ν))} (h : TypesOut T a.types b.types t) :
    PyDict.get? t "statistics" = none ↔ ¬ ∃ ty, SameType a b ty := by
  unfold SameType HasType
  cases ha : a.types with
  | none => rw [ha] at h; cases h; simp
  | some x =>
    cases hb : b.types with
    | none => rw [ha, hb] at h; cases h; simp
    | some y =>
      rw [ha, hb] at h
      have h : TypeOut T x y t := h
      constructor
      · rintro hn ⟨ty, ⟨x', hx, h1⟩, y', hy, h2⟩
        cases hx; cases hy
        obtain ⟨st, hst, -⟩ := (h.same ty ((selects_iff _ _).1 h1) ((selects_iff _ _).1 h2)).2
        rw [hn] at hst; cases hst
      · intro hn
        by_cases hs : x.selected = y.selected
        · cases hy : y.selected with
          | none => rw [hy] at hs; exact (h.neither hs hy).1
          | some ty =>
            rw [hy] at hs
            exact absurd ⟨ty, ⟨x, rfl, (selects_iff _ _).2 hs⟩, y, rfl, (selects_iff _ _).2 hy⟩ hn
        · exact (h.differ hs).1

/-- **C79** Comparing two columns raises exactly in two cases: `ZeroDivisionError` if both are categorical and one of them
has no values while a category is known, and otherwise `KeyError` if the columns have no common type, no common
categorical profile and no common labels. -/
theorem C79_raises (a b : Col ν) (e : Err) :
    colDiff T a b = .error e ↔
      (e = .zeroDivision ∧ ∃ x y, Cats a b x y ∧ x.isMatch = true ∧ y.isMatch = true ∧
        (x.counts ≠ [] ∨ y.counts ≠ []) ∧ (x.sampleSize = 0 ∨ y.sampleSize = 0)) ∨
      (e = .keyError ∧ (¬ ∃ ty, SameType a b ty) ∧ (¬ ∃ x y, Cats a b x y) ∧ ¬ ∃ x y, Labelled a b x y) := by
  have hzc : ZeroCat a.stats b.stats ↔ ∃ x y, Cats a b x y ∧ x.isMatch = true ∧ y.isMatch = true ∧
        (x.counts ≠ [] ∨ y.counts ≠ []) ∧ (x.sampleSize = 0 ∨ y.sampleSize = 0) := by
    unfold ZeroCat DividesByZero
    constructor
    · rintro ⟨x, y, h, hd⟩; exact ⟨x, y, (bothCat_iff a b x y).1 h, hd⟩
    · rintro ⟨x, y, h, hd⟩; exact ⟨x, y, (bothCat_iff a b x y).2 h, hd⟩
  have hcn : PyDict.get? (orderOut a.stats b.stats ++ catOut T a.stats b.stats : PyDict String (NV (Leaf τ ν)))
      "statistics" = none ↔ ¬ ∃ x y, Cats a b x y := by
    rw [stats_get]
    constructor
    · rintro hn ⟨x, y, h⟩; rw [(bothCat_iff a b x y).2 h] at hn; simp at hn
    · intro hn
      cases h : bothCat a.stats b.stats with
      | none => rfl
      | some p => exact absurd ⟨p.1, p.2, (bothCat_iff a b _ _).1 h⟩ hn
  rw [← hzc]
  rcases colDiff_form (τ := τ) (ν := ν) T a b with ⟨hz, h⟩ | ⟨hz, t, ht, ⟨h1, h2, h3, h⟩ | ⟨h1, r, h, -⟩⟩
  · rw [h]
    constructor
    · intro he; cases he; exact Or.inl ⟨rfl, hz⟩
    · rintro (⟨rfl, -⟩ | ⟨rfl, -, hn, -⟩)
      · rfl
      · obtain ⟨x, y, hc, -⟩ := hzc.1 hz
        exact absurd ⟨x, y, hc⟩ hn
  · rw [h]
    constructor
    · intro he; cases he
      exact Or.inr ⟨rfl, (types_get T ht).1 h1, hcn.1 h2, (label_get a b).1 h3⟩
    · rintro (⟨rfl, h⟩ | ⟨rfl, -⟩)
      · exact absurd h hz
      · rfl
  · rw [h]
    constructor
    · intro he; cases he
    · rintro (⟨-, h⟩ | ⟨-, h3, h4, h5⟩)
      · exact absurd h hz
      · exact absurd ⟨(types_get T ht).2 h3, hcn.2 h4, (label_get a b).2 h5⟩ h1

theorem out_of_ok {a b : Col ν} {r : PyDict String (NV (Leaf τ ν))} (h : colDiff T a b = .ok r) :
    ∃ t, TypesOut T a.types b.types t ∧
      Out a b t (orderOut a.stats b.stats ++ catOut T a.stats b.stats) (labelOut a.label b.label) r := by
  rcases colDiff_form (τ := τ) (ν := ν) T a b with ⟨hz, h'⟩ | ⟨hz, t, ht, ⟨h1, h2, h3, h'⟩ | ⟨h1, r', h', ho⟩⟩
  · rw [h] at h'; cases h'
  · rw [h] at h'; cases h'
  · rw [h] at h'; cases h'
    exact ⟨t, ht, ho⟩

/-- **C79** The entry of a column has its name and, in this order, the difference of the data type, of the label (exactly
if both profiles label the data), of being categorical, of the order and of the statistics. -/
theorem C79_entries (a b : Col ν) (r : PyDict String (NV (Leaf τ ν))) (h : colDiff T a b = .ok r) :
    r.map Prod.fst = ["column_name", "data_type"] ++ (if a.label.isSome ∧ b.label.isSome then ["data_label"] else []) ++
      ["categorical", "order", "statistics"] ∧
    PyDict.get? r "column_name" = some (.leaf (.name a.name)) ∧
    (∀ x y, Cats a b x y → Shows r "categorical" (ReportsBool x.isMatch y.isMatch)) ∧
    ((¬ ∃ x y, Cats a b x y) → PyDict.get? r "categorical" = some (.leaf .none)) ∧
    (∀ s s' x y, a.stats = some s → b.stats = some s' → s.order = some x → s'.order = some y →
      Shows r "order" (ReportsText x y)) ∧
    (∀ x y, Labelled a b x y → Shows r "data_label" (ReportsLists
      (if x.sampleSize = 0 then none else some x.labels) (if y.sampleSize = 0 then none else some y.labels))) := by
  obtain ⟨t, ht, ho⟩ := out_of_ok T h
  refine ⟨?_, ho.name, ?_, ?_, ?_, ?_⟩
  · rw [ho.keys]; unfold keysOf; cases a.label <;> cases b.label <;> simp
  · intro x y hc
    refine ⟨diffBools x.isMatch y.isMatch, ?_, diffBools_spec _ _⟩
    rw [ho.categorical, get?_append]
    have : PyDict.get? (orderOut a.stats b.stats : PyDict String (NV (Leaf τ ν))) "categorical" = none := by
      unfold orderOut; cases bothOrder a.stats b.stats <;> rfl
    rw [this]
    unfold catOut
    rw [(bothCat_iff a b x y).2 hc]
    rfl
  · intro hn
    rw [ho.categorical, get?_append]
    have : PyDict.get? (orderOut a.stats b.stats : PyDict String (NV (Leaf τ ν))) "categorical" = none := by
      unfold orderOut; cases bothOrder a.stats b.stats <;> rfl
    rw [this]
    unfold catOut
    cases hb : bothCat a.stats b.stats with
    | none => rfl
    | some p => exact absurd ⟨p.1, p.2, (bothCat_iff a b _ _).1 hb⟩ hn
  · intro s s' x y h1 h2 h3 h4
    refine ⟨diffStrings x y, ?_, diffStrings_spec _ _⟩
    rw [ho.order, get?_append, h1, h2]
    cases s; cases s'
    simp only at h3 h4
    rw [h3, h4]
    rfl
  · intro x y hl
    refine ⟨diffLists x.given y.given, ?_, listLeaf_spec _ _⟩
    rw [ho.label, label_look a b x y hl]
    obtain ⟨⟨s, h1, -⟩, s', h2, -⟩ := hl
    rw [h1, h2]
    rfl

/-- **C79** The data type: "unchanged" exactly for columns of the same type, both types otherwise, and nothing if neither
column has one. -/
theorem C79_data_type (a b : Col ν) (x y : TypeComp) (s s' : Option String) (r : PyDict String (NV (Leaf τ ν)))
    (h : colDiff T a b = .ok r) (ha : a.types = some x) (hb : b.types = some y) (hx : Selects x s) (hy : Selects y s') :
    (s = none ∧ s' = none → PyDict.get? r "data_type" = some (.leaf .none)) ∧
    (s ≠ none ∨ s' ≠ none → Shows r "data_type" (ReportsText s s')) := by
  obtain ⟨t, ht, ho⟩ := out_of_ok T h
  rw [ha, hb] at ht
  have ht : TypeOut T x y t := ht
  have hx := (selects_iff _ _).1 hx
  have hy := (selects_iff _ _).1 hy
  subst hx hy
  constructor
  · rintro ⟨h1, h2⟩
    rw [ho.type, (ht.neither h1 h2).2]; rfl
  · intro hne
    refine ⟨diffStrings x.selected y.selected, ?_, diffStrings_spec _ _⟩
    rw [ho.type]
    by_cases hs : x.selected = y.selected
    · cases hy : y.selected with
      | none => rw [hy] at hs; rw [hs, hy] at hne; simp at hne
      | some ty =>
        rw [hy] at hs
        rw [(ht.same ty hs hy).1, hs]
        simp [diffStrings]
    · rw [(ht.differ hs).2]; rfl

/-- Rows of nulls by kind of null: kinds of the first only, kinds of both with the rows of the first only ("unchanged" if
the rows are the same), kinds of the second only. -/
def ReportsRows (a b : PyDict String (List ℤ)) (d : RowsDiff) : Prop :=
  (a = [] ∧ b = [] → d = .unchanged) ∧
  (a ≠ [] ∨ b ≠ [] → ∃ l s r, d = .parts l s r ∧ ∀ k,
    PyDict.get? l k = (if PyDict.get? b k = none then PyDict.get? a k else none) ∧
    PyDict.get? r k = (if PyDict.get? a k = none then PyDict.get? b k else none) ∧
    (∀ v w, PyDict.get? a k = some v → PyDict.get? b k = some w → ∃ e, PyDict.get? s k = some e ∧
      ((∀ i, i ∈ v ↔ i ∈ w) → e = .unchanged) ∧
      (¬ (∀ i, i ∈ v ↔ i ∈ w) → ∃ rows, e = .minus rows ∧ ∀ i, i ∈ rows ↔ i ∈ v ∧ i ∉ w)))

theorem get?_filterMap {K V W : Type} [DecidableEq K] (f : K → V → Option W) (d : PyDict K V) (hd : PyDict.WF d) (k : K) :
    PyDict.get? (d.filterMap fun kv => (f kv.1 kv.2).map fun w => (kv.1, w)) k = (PyDict.get? d k).bind (f k) := by
  induction d with
  | nil => rfl
  | cons p d ih =>
    obtain ⟨k', v⟩ := p
    have hwf : PyDict.WF d := (List.nodup_cons.1 hd).2
    have hnk : k' ∉ PyDict.keys d := (List.nodup_cons.1 hd).1
    rw [PyDict.get?_cons]
    by_cases h : k' = k
    · subst h
      rw [if_pos rfl]
      cases hf : f k' v with
      | none =>
        have hn : PyDict.get? d k' = none := (PyDict.get?_eq_none_iff d k').2 hnk
        have e : ((k', v) :: d).filterMap (fun kv => (f kv.1 kv.2).map fun w => (kv.1, w)) =
            d.filterMap (fun kv => (f kv.1 kv.2).map fun w => (kv.1, w)) := by simp [hf]
        rw [e, ih hwf, hn]
        simp [hf]
      | some w => simp [hf, PyDict.get?_cons]
    · rw [if_neg h]
      cases hf : f k' v with
      | none => simp [hf, ih hwf]
      | some w => simp [hf, PyDict.get?_cons, h, ih hwf]

theorem rowsDiff_spec (a b : PyDict String (List ℤ)) (ha : PyDict.WF a) : ReportsRows a b (rowsDiff a b) := by
  have h1 := get?_filter (fun k => !PyDict.has b k) a
  have h2 := get?_filter (fun k => !PyDict.has a k) b
  have h3 := get?_filterMap (fun k v => (PyDict.get? b k).map fun w => rowDiff v w) a ha
  simp only [Option.map_map, Function.comp_def] at h3
  constructor
  · rintro ⟨rfl, rfl⟩; rfl
  · intro hne
    have hform : rowsDiff a b = .parts (a.filter fun kv => !PyDict.has b kv.1)
        (a.filterMap fun kv => (PyDict.get? b kv.1).map fun w => (kv.1, rowDiff kv.2 w))
        (b.filter fun kv => !PyDict.has a kv.1) := by
      unfold rowsDiff
      dsimp only
      rw [if_neg]
      simp only [Bool.and_eq_true, List.isEmpty_iff, not_and]
      rintro ⟨e1, e2⟩ e3
      rcases hne with hne | hne
      · obtain ⟨⟨k, v⟩, rest, rfl⟩ := List.exists_cons_of_ne_nil hne
        have g1 := h1 k
        have g3 := h3 k
        rw [e1, PyDict.get?_nil] at g1
        rw [e2, PyDict.get?_nil] at g3
        rw [PyDict.get?_cons, if_pos rfl] at g1 g3
        cases hb : PyDict.get? b k with
        | none => simp [PyDict.has, hb] at g1
        | some w => simp [hb] at g3
      · obtain ⟨⟨k, v⟩, rest, rfl⟩ := List.exists_cons_of_ne_nil hne
        have g2 := h2 k
        have g3 := h3 k
        rw [e3, PyDict.get?_nil] at g2
        rw [e2, PyDict.get?_nil] at g3
        rw [PyDict.get?_cons, if_pos rfl] at g2 g3
        cases hb : PyDict.get? a k with
        | none => simp [PyDict.has, hb] at g2
        | some w => simp [hb] at g3
    refine ⟨_, _, _, hform, fun k => ⟨?_, ?_, fun v w hv hw => ?_⟩⟩
    · rw [h1 k]; cases hb : PyDict.get? b k <;> simp [PyDict.has, hb]
    · rw [h2 k]; cases hb : PyDict.get? a k <;> simp [PyDict.has, hb]
    · refine ⟨rowDiff v w, ?_, ?_, ?_⟩
      · rw [h3 k, hv, hw]; rfl
      · intro h; unfold rowDiff; rw [if_pos ⟨fun i hi => (h i).1 hi, fun i hi => (h i).2 hi⟩]
      · intro h
        unfold rowDiff
        rw [if_neg]
        · exact ⟨_, rfl, fun i => by simp⟩
        · rintro ⟨g1, g2⟩; exact h fun i => ⟨fun hi => g1 hi, fun hi => g2 hi⟩

theorem look_label_none (a b : Option LabelComp) (k : String) (hk : k ∉ ["avg_predictions", "label_representation"]) :
    look (labelOut a b : PyDict String (NV (Leaf τ ν))) k = none := by
  simp at hk
  rcases a with _ | ⟨_ | x⟩ <;> rcases b with _ | ⟨_ | y⟩ <;>
    simp [look, labelOut, labelL, PyDict.get?_cons, Ne.symm hk.1, Ne.symm hk.2]

theorem look_stat (a b : Option StatComp) (k : String) :
    look (orderOut a b ++ catOut T a b : PyDict String (NV (Leaf τ ν))) k = match bothCat a b with
      | some (x, y) => PyDict.get? (catStats x y
          (if x.isMatch = true ∧ y.isMatch = true then catL T x y (psiL T x y) else [])) k
      | none => none := by
  unfold look
  rw [stats_get]
  cases bothCat a b <;> rfl

theorem look_stat_none (a b : Option StatComp) (k : String) (hk : k ∉ ["unique_count", "unique_ratio", "chi2-test",
    "categories", "gini_impurity", "unalikeability", "psi", "categorical_count"]) :
    look (orderOut a b ++ catOut T a b : PyDict String (NV (Leaf τ ν))) k = none := by
  rw [look_stat]
  cases bothCat a b with
  | none => rfl
  | some p =>
    obtain ⟨x, y⟩ := p
    simp only
    rw [PyDict.get?_eq_none_iff]
    intro hm
    apply hk
    split at hm
    · rcases psiL_cases (ν := ν) T x y with h | h <;> rw [h] at hm <;>
        simp [PyDict.keys, catStats, catL] at hm <;> simp <;> tauto
    · simp [PyDict.keys, catStats] at hm; simp; tauto

/-- The keys of the statistics of a primitive type. -/
def typeKeys : List String := ["min", "max", "sum", "mean", "median", "mode", "median_absolute_deviation", "variance", "stddev",
  "t-test", "psi", "precision", "vocab", "format"]

theorem look_type {a b : Col ν} {t : PyDict String (NV (Leaf τ ν))} (ht : TypesOut T a.types b.types t) {x y : TypeComp}
    {ty : String} (ha : a.types = some x) (hb : b.types = some y) (hx : x.selected = some ty) (hy : y.selected = some ty) :
    ∃ st, primDiff T x y ty = .ok st ∧ ∀ k, look t k = PyDict.get? st k := by
  rw [ha, hb] at ht
  obtain ⟨st, h1, h2⟩ := (TypeOut.same ht ty hx hy).2
  exact ⟨st, h2, fun k => by unfold look; rw [h1]⟩

theorem look_type_none {a b : Col ν} {t : PyDict String (NV (Leaf τ ν))} (ht : TypesOut T a.types b.types t) (k : String)
    (hk : k ∉ typeKeys) : look t k = none := by
  by_cases hs : ∃ ty, SameType a b ty
  · obtain ⟨ty, ⟨x, ha, hx⟩, y, hb, hy⟩ := hs
    have hx := (selects_iff _ _).1 hx
    have hy := (selects_iff _ _).1 hy
    obtain ⟨st, h1, h2⟩ := look_type T ht ha hb hx hy
    rw [h2 k, PyDict.get?_eq_none_iff]
    obtain ⟨st', h3, -, -, hd, hi, hf, hte⟩ := primDiff_ok (τ := τ) (ν := ν) T x y ty hx hy
    rw [h1] at h3; cases h3
    have hty : ty = "datetime" ∨ ty = "int" ∨ ty = "float" ∨ ty = "text" := by
      have := selected_spec x
      rw [hx] at this
      unfold Selects at this
      split at this <;> rename_i h <;> simp_all
    intro hm
    apply hk
    have hmem : ∀ l : List String, PyDict.keys st = l → (∀ j ∈ l, j ∈ typeKeys) → k ∈ typeKeys :=
      fun l h1 h2 => h2 k (h1 ▸ hm)
    rcases hty with h | h | h | h
    · obtain ⟨p, q, -, -, rfl⟩ := hd h
      exact hmem ["min", "max", "format"] rfl (by decide)
    · obtain ⟨p, q, -, -, rfl⟩ := hi h
      exact hmem ["min", "max", "sum", "mean", "median", "mode", "median_absolute_deviation", "variance", "stddev",
        "t-test", "psi"] rfl (by decide)
    · obtain ⟨p, q, -, -, rfl⟩ := hf h
      exact hmem ["min", "max", "sum", "mean", "median", "mode", "median_absolute_deviation", "variance", "stddev",
        "t-test", "psi", "precision"] rfl (by decide)
    · obtain ⟨p, q, -, -, rfl⟩ := hte h
      exact hmem ["min", "max", "sum", "mean", "median", "mode", "median_absolute_deviation", "variance", "stddev",
        "t-test", "vocab"] rfl (by decide)
  · unfold look; rw [(types_get T ht).2 hs]

theorem own_none (a b : Col ν) (k : String) (hk : k ∉ ["sample_size", "null_count", "null_ratio", "null_types",
    "null_types_index"]) : PyDict.get? (ownL a b : PyDict String (NV (Leaf τ ν))) k = none := by
  rw [PyDict.get?_eq_none_iff]; simpa [PyDict.keys, ownL] using hk

/-- **C79** The statistics of a column's entry: the numbers of values and nulls, the kinds and rows of nulls, what the
categorical profiles and the labels of both columns say, and, exactly for columns of the same type, the statistics of that
type. -/
theorem C79_statistics (a b : Col ν) (r : PyDict String (NV (Leaf τ ν))) (h : colDiff T a b = .ok r)
    (hw : PyDict.WF a.nullRows) : ∃ st, PyDict.get? r "statistics" = some (.dict st) ∧
    Shows st "sample_size" (ReportsNum (some (.fin a.sampleSize)) (some (.fin b.sampleSize))) ∧
    Shows st "null_count" (ReportsNum (some (.fin a.nullCount)) (some (.fin b.nullCount))) ∧
    Shows st "null_ratio" (ReportsNum a.nullRatio b.nullRatio) ∧
    Shows st "null_types" (ReportsList a.nullTypes b.nullTypes) ∧
    (∃ d, PyDict.get? st "null_types_index" = some (.leaf (.rows d)) ∧ ReportsRows a.nullRows b.nullRows d) ∧
    (∀ x y, Cats a b x y → CatShown T x y st) ∧
    (∀ x y, Labelled a b x y → LabelShown x y st) ∧
    (∀ x y p q, a.types = some x → b.types = some y → x.datetime = some p → y.datetime = some q →
      SameType a b "datetime" → DateShown p.col q.col st) ∧
    (∀ x y p q, a.types = some x → b.types = some y → x.int = some p → y.int = some q →
      SameType a b "int" → NumShown T p.col q.col st) ∧
    (∀ x y p q, a.types = some x → b.types = some y → x.float = some p → y.float = some q →
      SameType a b "float" → FloatShown T p.col q.col st) ∧
    (∀ x y p q, a.types = some x → b.types = some y → x.text = some p → y.text = some q →
      SameType a b "text" → TextShown T p.col q.col st) ∧
    ((¬ ∃ ty, SameType a b ty) → ∀ k ∈ ["min", "max", "sum", "mean", "median", "mode", "median_absolute_deviation",
      "variance", "stddev", "t-test", "precision", "vocab", "format"], PyDict.get? st k = none) := by
  obtain ⟨t, ht, ho⟩ := out_of_ok T h
  obtain ⟨st, hst, hget⟩ := ho.statistics
  have hown : ∀ k v, PyDict.get? (ownL a b) k = some v → k ≠ "data_type_representation" → PyDict.get? st k = some v := by
    intro k v hv hk
    rw [hget k, if_neg (by simp [hk]), hv]; rfl
  have htk : ∀ k, k ∈ typeKeys → k ≠ "psi" → PyDict.get? st k = look t k := by
    intro k hk hp
    rw [hget k, if_neg (by rintro ⟨rfl, -⟩; revert hk; decide),
      own_none a b k (by intro h; revert hk; simp at h; rcases h with rfl | rfl | rfl | rfl | rfl <;> decide),
      look_label_none _ _ k (by intro h; revert hk; simp at h; rcases h with rfl | rfl <;> decide),
      look_stat_none T _ _ k (by
        intro h; revert hk hp; simp at h; rcases h with rfl | rfl | rfl | rfl | rfl | rfl | rfl | rfl <;> decide)]
    simp
  have htypes : ∀ ty x y, a.types = some x → b.types = some y → SameType a b ty → x.selected = some ty ∧ y.selected = some ty := by
    rintro ty x y ha hb ⟨⟨x', ha', hx⟩, y', hb', hy⟩
    rw [ha] at ha'; rw [hb] at hb'; cases ha'; cases hb'
    exact ⟨(selects_iff _ _).1 hx, (selects_iff _ _).1 hy⟩
  have hsub : ∀ ty x y (L : PyDict String (NV (Leaf τ ν))), a.types = some x → b.types = some y → SameType a b ty →
      (∀ k ∈ PyDict.keys L, k ∈ typeKeys ∧ k ≠ "psi") →
      (∀ st', primDiff T x y ty = .ok st' → ∀ k v, PyDict.get? L k = some v → PyDict.get? st' k = some v) →
      ∀ k v, PyDict.get? L k = some v → PyDict.get? st k = some v := by
    intro ty x y L ha hb hs hk hL k v hv
    obtain ⟨h1, h2⟩ := htypes ty x y ha hb hs
    obtain ⟨st', h3, h4⟩ := look_type T ht ha hb h1 h2
    have hk' := hk k ((PyDict.mem_keys_iff L k).2 ⟨v, hv⟩)
    rw [htk k hk'.1 hk'.2, h4]
    exact hL st' h3 k v hv
  have hnum : ∀ (m n : NumCol), ∀ k ∈ PyDict.keys (numL T m n : PyDict String (NV (Leaf τ ν))), k ∈ typeKeys ∧ k ≠ "psi" := by
    intro m n k hk
    have : k ∈ ["min", "max", "sum", "mean", "median", "mode", "median_absolute_deviation", "variance", "stddev", "t-test"] := by
      simpa [PyDict.keys, numL] using hk
    revert k; intro k _ hk
    simp at hk
    rcases hk with rfl | rfl | rfl | rfl | rfl | rfl | rfl | rfl | rfl | rfl <;> decide
  refine ⟨st, hst, ?_, ?_, ?_, ?_, ?_, ?_, ?_, ?_, ?_, ?_, ?_, ?_⟩
  · exact shows_mk (hown _ _ rfl (by decide)) (numD_spec _ _)
  · exact shows_mk (hown _ _ rfl (by decide)) (numD_spec _ _)
  · exact shows_mk (hown _ _ rfl (by decide)) (numD_spec _ _)
  · exact shows_mk (hown _ _ rfl (by decide)) (diffLists_spec _ _)
  · exact ⟨_, hown _ _ rfl (by decide), rowsDiff_spec _ _ hw⟩
  · intro x y hc
    refine catShown_of T x y st fun k hp hk => ?_
    have hk5 : k ≠ "data_type_representation" ∧ k ∉ ["sample_size", "null_count", "null_ratio", "null_types",
        "null_types_index"] ∧ k ∉ ["avg_predictions", "label_representation"] ∧ k ∉ typeKeys := by
      simp at hk
      rcases hk with rfl | rfl | rfl | rfl | rfl | rfl | rfl <;> decide
    rw [hget k, if_neg (by simp [hk5.1]), own_none a b k hk5.2.1, look_label_none _ _ k hk5.2.2.1, look_type_none T ht k hk5.2.2.2,
      look_stat, (bothCat_iff a b x y).2 hc]
    simp
  · intro x y hl
    have g : ∀ k ∈ ["avg_predictions", "label_representation"], PyDict.get? st k = look (labelL x y) k := by
      intro k hk
      have hk5 : k ≠ "data_type_representation" ∧ k ∉ ["sample_size", "null_count", "null_ratio", "null_types",
          "null_types_index"] ∧ k ∉ ["unique_count", "unique_ratio", "chi2-test",
          "categories", "gini_impurity", "unalikeability", "psi", "categorical_count"] ∧ k ∉ typeKeys := by
        simp at hk
        rcases hk with rfl | rfl <;> decide
      rw [hget k, if_neg (by simp [hk5.1]), own_none a b k hk5.2.1, label_look a b x y hl, look_stat_none T _ _ k hk5.2.2.1,
        look_type_none T ht k hk5.2.2.2]
      simp
    exact labelShown_of x y st (by rw [g _ (by decide)]; rfl) (by rw [g _ (by decide)]; rfl)
  · intro x y p q ha hb hp hq hs
    have hL := hsub "datetime" x y (dateDiff p.col q.col) ha hb hs (by
        intro k hk
        simp [PyDict.keys, dateDiff] at hk
        rcases hk with rfl | rfl | rfl <;> decide) (by
        intro st' h3 k v hv
        have : st' = dateDiff p.col q.col := by
          simp [primDiff, hp, hq] at h3; exact h3.symm
        rw [this]; exact hv)
    exact ⟨shows_mk (hL _ _ rfl) (diffDates_spec _ _), shows_mk (hL _ _ rfl) (diffDates_spec _ _),
      shows_mk (hL _ _ rfl) (diffLists_spec _ _)⟩
  · intro x y p q ha hb hp hq hs
    refine numShown_of T p.col q.col st (hsub "int" x y _ ha hb hs (hnum _ _) ?_)
    intro st' h3 k v hv
    simp [primDiff, hp, hq, numDiff_eq] at h3
    rw [← h3, Nested.get?_append, hv]; rfl
  · intro x y p q ha hb hp hq hs
    have h3' : ∀ st' : PyDict String (NV (Leaf τ ν)), primDiff T x y "float" = .ok st' → st' = numL T p.col.num q.col.num ++
        [("psi", .leaf (.test (T.numPsi p.col.num q.col.num))), ("precision", .dict (precL p.col q.col))] := by
      intro st' h3
      simp [primDiff, hp, hq, floatDiff_eq] at h3
      exact h3.symm
    have hprec := hsub "float" x y [("precision", .dict (precL p.col q.col))] ha hb hs (by
        intro k hk
        simp [PyDict.keys] at hk; subst hk; decide) (by
        intro st' h3 k v hv
        rw [h3' st' h3]
        rw [PyDict.get?_cons] at hv
        split at hv
        · rename_i hk; subst hk; simp [numL, PyDict.get?_cons]; exact Option.some.inj hv
        · cases hv)
    refine ⟨numShown_of T p.col.num q.col.num st (hsub "float" x y _ ha hb hs (hnum _ _) ?_), precL p.col q.col,
      hprec _ _ rfl, shows_mk rfl (numD_spec _ _), shows_mk rfl (numD_spec _ _), shows_mk rfl (numD_spec _ _),
      shows_mk rfl (numD_spec _ _), shows_mk rfl (numD_spec _ _), shows_mk rfl (numD_spec _ _), shows_mk rfl (numD_spec _ _), rfl⟩
    intro st' h3 k v hv
    rw [h3' st' h3, Nested.get?_append, hv]; rfl
  · intro x y p q ha hb hp hq hs
    have h3' : ∀ st' : PyDict String (NV (Leaf τ ν)), primDiff T x y "text" = .ok st' → st' = numL T p.col.num q.col.num ++
        [("vocab", .leaf (.diff (diffLists p.col.vocab q.col.vocab)))] := by
      intro st' h3
      simp [primDiff, hp, hq, textDiff_eq] at h3
      exact h3.symm
    have hv := hsub "text" x y [("vocab", .leaf (.diff (diffLists p.col.vocab q.col.vocab)))] ha hb hs (by
        intro k hk
        simp [PyDict.keys] at hk; subst hk; decide) (by
        intro st' h3 k v hv
        rw [h3' st' h3]
        rw [PyDict.get?_cons] at hv
        split at hv
        · rename_i hk; subst hk; simp [numL, PyDict.get?_cons]; exact Option.some.inj hv
        · cases hv)
    refine ⟨numShown_of T p.col.num q.col.num st (hsub "text" x y _ ha hb hs (hnum _ _) ?_),
      shows_mk (hv _ _ rfl) (listLeaf_spec _ _)⟩
    intro st' h3 k v hv
    rw [h3' st' h3, Nested.get?_append, hv]; rfl
  · intro hn k hk
    have hk' : k ∈ typeKeys ∧ k ≠ "psi" := by
      simp at hk
      rcases hk with rfl | rfl | rfl | rfl | rfl | rfl | rfl | rfl | rfl | rfl | rfl | rfl | rfl <;> decide
    rw [htk k hk'.1 hk'.2]
    unfold look; rw [(types_get T ht).2 hn]

/-- **C79** (partial) The stability index of a column's entry: that of the categories if both columns are categorical and
a category is known, otherwise that of the numbers for two columns of integers or of floats, and none for other columns.
Missing: the index of numbers when the columns are categorical as well (`C79_psi_fails`). -/
theorem C79_psi_partial (a b : Col ν) (r st : PyDict String (NV (Leaf τ ν))) (h : colDiff T a b = .ok r)
    (hst : PyDict.get? r "statistics" = some (.dict st)) :
    (∀ x y, Cats a b x y → x.isMatch = true → y.isMatch = true → (x.counts ≠ [] ∨ y.counts ≠ []) →
      PyDict.get? st "psi" = some (.leaf (.test (T.catPsi x y)))) ∧
    ((¬ ∃ x y, Cats a b x y ∧ x.isMatch = true ∧ y.isMatch = true ∧ (x.counts ≠ [] ∨ y.counts ≠ [])) →
      (∀ x y p q, a.types = some x → b.types = some y → x.int = some p → y.int = some q →
        SameType a b "int" → PyDict.get? st "psi" = some (.leaf (.test (T.numPsi p.col q.col)))) ∧
      (∀ x y p q, a.types = some x → b.types = some y → x.float = some p → y.float = some q →
        SameType a b "float" → PyDict.get? st "psi" = some (.leaf (.test (T.numPsi p.col.num q.col.num)))) ∧
      (¬ SameType a b "int" → ¬ SameType a b "float" → PyDict.get? st "psi" = none)) := by
  obtain ⟨t, ht, ho⟩ := out_of_ok T h
  obtain ⟨st', hst', hget⟩ := ho.statistics
  rw [hst] at hst'; cases hst'
  have hp : PyDict.get? st "psi" =
      (look (orderOut a.stats b.stats ++ catOut T a.stats b.stats) "psi").or (look t "psi") := by
    rw [hget, if_neg (by simp), own_none a b _ (by decide), look_label_none _ _ _ (by decide)]
    simp
  constructor
  · intro x y hc hx hy hne
    rw [hp, look_stat, (bothCat_iff a b x y).2 hc]
    simp only [if_pos (And.intro hx hy)]
    have : ¬ (x.counts = [] ∧ y.counts = []) := by
      rintro ⟨h1, h2⟩; rcases hne with h | h <;> contradiction
    simp [catStats, catL, psiL, this, PyDict.get?_cons]
  · intro hn
    have hs : look (orderOut a.stats b.stats ++ catOut T a.stats b.stats : PyDict String (NV (Leaf τ ν))) "psi" = none := by
      rw [look_stat]
      cases hc : bothCat a.stats b.stats with
      | none => rfl
      | some p =>
        obtain ⟨x, y⟩ := p
        simp only
        split
        · rename_i hm
          have : x.counts = [] ∧ y.counts = [] := by
            by_contra hne
            exact hn ⟨x, y, (bothCat_iff a b x y).1 hc, hm.1, hm.2, by tauto⟩
          simp [catStats, catL, psiL, this, PyDict.get?_cons]
        · simp [catStats, PyDict.get?_cons]
    rw [hp, hs]
    have htypes : ∀ ty x y, a.types = some x → b.types = some y → SameType a b ty → x.selected = some ty ∧ y.selected = some ty := by
      rintro ty x y ha hb ⟨⟨x', ha', hx⟩, y', hb', hy⟩
      rw [ha] at ha'; rw [hb] at hb'; cases ha'; cases hb'
      exact ⟨(selects_iff _ _).1 hx, (selects_iff _ _).1 hy⟩
    refine ⟨?_, ?_, ?_⟩
    · intro x y p q ha hb hp hq hs
      obtain ⟨h1, h2⟩ := htypes _ x y ha hb hs
      obtain ⟨st', h3, h4⟩ := look_type T ht ha hb h1 h2
      simp [primDiff, hp, hq, numDiff_eq] at h3
      rw [h4, ← h3]; simp [numL, PyDict.get?_cons]
    · intro x y p q ha hb hp hq hs
      obtain ⟨h1, h2⟩ := htypes _ x y ha hb hs
      obtain ⟨st', h3, h4⟩ := look_type T ht ha hb h1 h2
      simp [primDiff, hp, hq, floatDiff_eq] at h3
      rw [h4, ← h3]; simp [numL, PyDict.get?_cons]
    · intro hi hf
      by_cases hs : ∃ ty, SameType a b ty
      · obtain ⟨ty, ⟨x, ha, hx⟩, y, hb, hy⟩ := hs
        have hty : SameType a b ty := ⟨⟨x, ha, hx⟩, y, hb, hy⟩
        have hx' := (selects_iff _ _).1 hx
        have hy' := (selects_iff _ _).1 hy
        obtain ⟨st', h3, h4⟩ := look_type T ht ha hb hx' hy'
        obtain ⟨st'', h5, -, -, hd, -, -, hte⟩ := primDiff_ok (τ := τ) (ν := ν) T x y ty hx' hy'
        rw [h3] at h5; cases h5
        have : ty = "datetime" ∨ ty = "text" := by
          unfold Selects at hx
          split at hx <;> rename_i h <;> simp_all
        rw [h4]
        rcases this with h | h
        · obtain ⟨p, q, -, -, rfl⟩ := hd h
          simp [dateDiff, PyDict.get?_cons]
        · obtain ⟨p, q, -, -, rfl⟩ := hte h
          simp [numL, PyDict.get?_cons]
      · unfold look; rw [(types_get T ht).2 hs]; rfl

theorem ratioL_shown {A : Type} (key : String) (a b : Option (Prim A)) (d : PyDict String (NV (Leaf τ ν)))
    (h : PyDict.get? d key = PyDict.get? (ratioL key a b : PyDict String (NV (Leaf τ ν))) key) :
    RatioShown d key (a.map Prim.ratio) (b.map Prim.ratio) := by
  rcases a with _ | ⟨x, a⟩ <;> rcases b with _ | ⟨y, b⟩ <;>
    simp only [ratioL, PyDict.get?_cons, PyDict.get?_nil, if_pos] at h
  · exact h
  · refine ⟨_, h, ?_⟩; cases y <;> rfl
  · refine ⟨_, h, ?_⟩; cases x <;> rfl
  · exact ⟨_, h, numD_spec _ _⟩

/-- **C79** The shares of values that fit each type are compared if one of the columns has a type; otherwise they are left
out. -/
theorem C79_representation (a b : Col ν) (x y : TypeComp) (s s' : Option String) (r st : PyDict String (NV (Leaf τ ν)))
    (h : colDiff T a b = .ok r) (hst : PyDict.get? r "statistics" = some (.dict st)) (ha : a.types = some x)
    (hb : b.types = some y) (hx : Selects x s) (hy : Selects y s') :
    (s ≠ none ∨ s' ≠ none → ∃ rep, PyDict.get? st "data_type_representation" = some (.dict rep) ∧
      RatioShown rep "datetime" (x.datetime.map Prim.ratio) (y.datetime.map Prim.ratio) ∧
      RatioShown rep "int" (x.int.map Prim.ratio) (y.int.map Prim.ratio) ∧
      RatioShown rep "float" (x.float.map Prim.ratio) (y.float.map Prim.ratio) ∧
      RatioShown rep "text" (x.text.map Prim.ratio) (y.text.map Prim.ratio)) ∧
    (s = none ∧ s' = none → PyDict.get? st "data_type_representation" = none) := by
  obtain ⟨t, ht, ho⟩ := out_of_ok T h
  obtain ⟨st', hst', hget⟩ := ho.statistics
  rw [hst] at hst'; cases hst'
  have ht' := ht
  rw [ha, hb] at ht'
  have ht' : TypeOut T x y t := ht'
  have hx := (selects_iff _ _).1 hx
  have hy := (selects_iff _ _).1 hy
  subst hx hy
  constructor
  · intro hne
    have hd : PyDict.get? t "data_type" ≠ none := by
      by_cases hs : x.selected = y.selected
      · cases hy : y.selected with
        | none => rw [hs, hy] at hne; simp at hne
        | some ty =>
          rw [hy] at hs
          rw [(ht'.same ty hs hy).1]; simp
      · rw [(ht'.differ hs).2]; simp
    refine ⟨reprL x y, ?_, ?_, ?_, ?_, ?_⟩
    · rw [hget, if_pos ⟨rfl, hd⟩, repr_of_data_type T ht' hd]
    all_goals
      apply ratioL_shown
      simp only [reprL, get?_append]
      simp [ratioL_get]
  · rintro ⟨h1, h2⟩
    rw [hget, if_neg (by rw [(ht'.neither h1 h2).2]; simp), own_none a b _ (by decide), look_label_none _ _ _ (by decide),
      look_stat_none T _ _ _ (by decide), look_type_none T ht _ (by decide)]
    rfl

/-- **C79** What one of the columns lacks is reported as `None`, and the statistics have no entries but the ones described. -/
theorem C79_missing (a b : Col ν) (r : PyDict String (NV (Leaf τ ν))) (h : colDiff T a b = .ok r) :
    ((¬ ∃ s s' x y, a.stats = some s ∧ b.stats = some s' ∧ s.order = some x ∧ s'.order = some y) →
      PyDict.get? r "order" = some (.leaf .none)) ∧
    (a.types = none ∨ b.types = none → PyDict.get? r "data_type" = some (.leaf .none)) ∧
    ((¬ ∃ x y, Labelled a b x y) → a.label.isSome → b.label.isSome → PyDict.get? r "data_label" = some (.leaf .none)) ∧
    (∀ st k, PyDict.get? r "statistics" = some (.dict st) → PyDict.get? st k ≠ none → k ∈ ["min", "max", "sum", "mean",
      "median", "mode", "median_absolute_deviation", "variance", "stddev", "t-test", "psi", "precision", "vocab", "format",
      "unique_count", "unique_ratio", "chi2-test", "categories", "gini_impurity", "unalikeability", "categorical_count",
      "avg_predictions", "label_representation", "sample_size", "null_count", "null_ratio", "null_types", "null_types_index",
      "data_type_representation"]) := by
  obtain ⟨t, ht, ho⟩ := out_of_ok T h
  refine ⟨?_, ?_, ?_, ?_⟩
  · intro hn
    rw [ho.order, get?_append]
    have h1 : PyDict.get? (orderOut a.stats b.stats : PyDict String (NV (Leaf τ ν))) "order" = none := by
      unfold orderOut
      cases hb : bothOrder a.stats b.stats with
      | none => rfl
      | some p =>
        exfalso; apply hn
        revert hb
        rcases ha' : a.stats with _ | ⟨_ | x, c⟩ <;> rcases hb' : b.stats with _ | ⟨_ | y, c'⟩ <;> intro hb
        all_goals first
          | (simp [bothOrder] at hb; done)
          | exact ⟨_, _, _, _, rfl, rfl, rfl, rfl⟩
    have h2 : PyDict.get? (catOut T a.stats b.stats : PyDict String (NV (Leaf τ ν))) "order" = none := by
      unfold catOut
      cases bothCat a.stats b.stats <;> rfl
    rw [h1, h2]; rfl
  · intro hn
    rw [ho.type]
    have : t = [] := by
      rcases hn with hn | hn <;> rw [hn] at ht
      · revert ht; cases b.types <;> exact id
      · revert ht; cases a.types <;> exact id
    rw [this]; rfl
  · intro hn h1 h2
    rw [ho.label, if_pos (by simp [h1, h2])]
    have : (labelOut a.label b.label : PyDict String (NV (Leaf τ ν))) = [] := by
      unfold Labelled at hn
      revert hn
      rcases a.label with _ | ⟨_ | x⟩ <;> rcases b.label with _ | ⟨_ | y⟩ <;> intro hn
      all_goals first
        | rfl
        | exact absurd ⟨_, _, ⟨_, rfl, rfl⟩, _, rfl, rfl⟩ hn
    rw [this]; rfl
  · intro st k hst hk
    obtain ⟨st', hst', hget⟩ := ho.statistics
    rw [hst] at hst'; cases hst'
    by_contra hn
    simp only [List.mem_cons, List.not_mem_nil, not_or, or_false] at hn
    apply hk
    rw [hget k, if_neg (by tauto), own_none a b k (by simp; tauto), look_label_none _ _ k (by simp; tauto),
      look_stat_none T _ _ k (by simp; tauto), look_type_none T ht k (by simp [typeKeys]; tauto)]
    rfl

end Verif.Props.ProfileDiff
