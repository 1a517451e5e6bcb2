import Verif.Spec.Report
import Verif.Lemmas.PyDict
import Verif.Lemmas.Nested
import Mathlib.Tactic.SplitIfs

/-! Helper lemmas about reports. -/

namespace Verif.Report

open Verif Nested

variable {ν V : Type}

theorem get?_map (f : String → Val ν V) (ks : List String) (k : String) :
    PyDict.get? (ks.map fun k => (k, f k)) k = if k ∈ ks then some (f k) else none := by
  induction ks with
  | nil => simp
  | cons a ks ih =>
    rw [List.map_cons, PyDict.get?_cons, ih]
    by_cases h : a = k
    · subst h; simp
    · simp [h, Ne.symm h]

theorem popLoop_get (keep : String → Bool) (ks : List String) : ∀ (d : Dict ν V), PyDict.WF d →
    PyDict.WF (popLoop keep d ks) ∧
    ∀ k, PyDict.get? (popLoop keep d ks) k = if k ∈ ks ∧ keep k = false then none else PyDict.get? d k := by
  induction ks with
  | nil => intro d h; exact ⟨h, by simp [popLoop]⟩
  | cons a ks ih =>
    intro d h
    rw [popLoop]
    by_cases ha : keep a = true
    · rw [if_pos ha]
      obtain ⟨h1, h2⟩ := ih d h
      refine ⟨h1, fun k => ?_⟩
      rw [h2]
      by_cases hk : k = a
      · subst hk; simp [ha]
      · simp [hk]
    · rw [if_neg ha]
      obtain ⟨h1, h2⟩ := ih _ (PyDict.WF_del h a)
      refine ⟨h1, fun k => ?_⟩
      rw [h2, PyDict.get?_del h]
      by_cases hk : k = a
      · subst hk; simp [ha]
      · simp [hk, Ne.symm hk]

/-- The keys of the numeric statistics. -/
def numKeys : List String :=
  ["min", "max", "mode", "median", "sum", "mean", "variance", "stddev", "skewness", "kurtosis", "histogram", "quantiles",
    "median_abs_deviation", "num_zeros", "num_negatives", "times"]

/-- The keys of the statistics of texts. -/
def textKeys : List String :=
  ["min", "max", "mode", "median", "sum", "mean", "variance", "stddev", "skewness", "kurtosis", "histogram", "quantiles",
    "median_abs_deviation", "times", "vocab"]

theorem numProfile_eq (p : Prim ν V) : numProfile p = numKeys.map fun k => (k, p.stats k) := rfl
theorem floatProfile_eq (p : Prim ν V) : floatProfile p = (numKeys ++ ["precision"]).map fun k => (k, p.stats k) := by
  simp [floatProfile, update, numProfile, PyDict.set, numKeys]
theorem textProfile_eq (p : Prim ν V) : textProfile p = textKeys.map fun k => (k, p.stats k) := by
  simp [textProfile, update, numProfile, PyDict.set, PyDict.del, textKeys]

theorem wf_map (f : String → Val ν V) (ks : List String) (h : ks.Nodup) : PyDict.WF (ks.map fun k => (k, f k)) := by
  simpa [PyDict.WF, PyDict.keys, Function.comp_def] using h

theorem keys_map (f : String → Val ν V) (ks : List String) : PyDict.keys (ks.map fun k => (k, f k)) = ks := by
  simp [PyDict.keys, Function.comp_def]

/-- The keys reported for a data type. -/
def shownKeys (flag : Bool) (p : Prim ν V) : List String :=
  match p.ty with
  | .datetime => ["min", "max", "histogram", "format", "times"]
  | .int => numKeys
  | .float => if flag then (if "precision" ∈ p.own then ["precision"] else []) else numKeys ++ ["precision"]
  | .text => if flag then (if "vocab" ∈ p.own then ["vocab"] else []) else textKeys

/-- The value reported for a data type. -/
def shownVal (p : Prim ν V) (k : String) : Val ν V :=
  if p.ty = .datetime ∧ k = "histogram" then .leaf .none else p.stats k

theorem primReport_wf (flag : Bool) (p : Prim ν V) : PyDict.WF (primReport flag p) := by
  unfold primReport
  cases p.ty with
  | datetime => simp [PyDict.WF, PyDict.keys, dateProfile]
  | int => rw [numProfile_eq]; exact wf_map _ _ (by decide)
  | float =>
    have h : PyDict.WF (floatProfile p) := by rw [floatProfile_eq]; exact wf_map _ _ (by decide)
    simp only
    split
    · exact (popLoop_get _ _ _ h).1
    · exact h
  | text =>
    have h : PyDict.WF (textProfile p) := by rw [textProfile_eq]; exact wf_map _ _ (by decide)
    simp only
    split
    · exact (popLoop_get _ _ _ h).1
    · exact h

theorem primReport_get (flag : Bool) (p : Prim ν V) (k : String) :
    PyDict.get? (primReport flag p) k = if k ∈ shownKeys flag p then some (shownVal p k) else none := by
  unfold primReport shownKeys shownVal
  cases h : p.ty with
  | datetime =>
    simp only [dateProfile, PyDict.get?_cons, PyDict.get?_nil]
    by_cases h1 : k = "min"; · subst h1; simp
    by_cases h2 : k = "max"; · subst h2; simp
    by_cases h3 : k = "histogram"; · subst h3; simp
    by_cases h4 : k = "format"; · subst h4; simp
    by_cases h5 : k = "times"; · subst h5; simp
    simp [h1, h2, h3, h4, h5, Ne.symm h1, Ne.symm h2, Ne.symm h3, Ne.symm h4, Ne.symm h5]
  | int => simp only; rw [numProfile_eq, get?_map]; simp
  | float =>
    have hw : PyDict.WF (floatProfile p) := by rw [floatProfile_eq]; exact wf_map _ _ (by decide)
    cases flag with
    | false => simp only [Bool.false_eq_true, if_false]; rw [floatProfile_eq, get?_map]; simp
    | true =>
      simp only [if_true]
      rw [(popLoop_get _ _ _ hw).2, floatProfile_eq, keys_map, get?_map]
      by_cases hk : k = "precision"
      · subst hk
        by_cases ho : "precision" ∈ p.own <;> simp [floatKeep, ho]
      · simp only [floatKeep, if_neg hk, and_true]
        have : k ∉ (if "precision" ∈ p.own then ["precision"] else []) := by split <;> simp [hk]
        rw [if_neg this]
        by_cases hm : k ∈ numKeys ++ ["precision"]
        · rw [if_pos hm]
        · rw [if_neg hm, if_neg hm]
  | text =>
    have hw : PyDict.WF (textProfile p) := by rw [textProfile_eq]; exact wf_map _ _ (by decide)
    cases flag with
    | false => simp only [Bool.false_eq_true, if_false]; rw [textProfile_eq, get?_map]; simp
    | true =>
      simp only [if_true]
      rw [(popLoop_get _ _ _ hw).2, textProfile_eq, keys_map, get?_map]
      by_cases hk : k = "vocab"
      · subst hk
        by_cases ho : "vocab" ∈ p.own <;> simp [textKeep, ho, textKeys]
      · simp only [textKeep, if_neg hk, and_true]
        have : k ∉ (if "vocab" ∈ p.own then ["vocab"] else []) := by split <;> simp [hk]
        rw [if_neg this]
        by_cases hm : k ∈ textKeys
        · rw [if_pos hm]
        · rw [if_neg hm, if_neg hm]

/-- The report of the compiler of data types. -/
def lit (r : Dict ν V) (x y : Val ν V) : Dict ν V :=
  [("data_type_representation", .dict r), ("data_type", x), ("statistics", y)]

theorem typeStep_lit (flag : Bool) (r : Dict ν V) (x y : Val ν V) (b : Bool) (p : Prim ν V) :
    typeStep flag (lit r x y, b) p =
      if b = false ∧ p.ratio = some 1 then
        (lit (PyDict.set r p.ty.name (ratioVal p.ratio)) (.leaf (.type p.ty.name)) (.dict (primReport flag p)), true)
      else (lit (PyDict.set r p.ty.name (ratioVal p.ratio)) x y, b) := by
  unfold typeStep
  by_cases h : b = false ∧ p.ratio = some 1
  · rw [if_pos h, if_pos (by simp [h.1, h.2])]
    simp [lit, update, addRatio, PyDict.set, PyDict.get?_cons]
  · rw [if_neg h, if_neg (by simpa using h)]
    simp [lit, addRatio, PyDict.set, PyDict.get?_cons]

/-- The shares, one after the other. -/
def shareDict (r : Dict ν V) (ps : List (Prim ν V)) : Dict ν V :=
  ps.foldl (fun r p => PyDict.set r p.ty.name (ratioVal p.ratio)) r

/-- The first profile all values match. -/
def first (ps : List (Prim ν V)) : Option (Prim ν V) := ps.find? fun p => p.ratio == some 1

theorem foldl_found (flag : Bool) (ps : List (Prim ν V)) : ∀ (r : Dict ν V) (x y : Val ν V),
    ps.foldl (typeStep flag) (lit r x y, true) = (lit (shareDict r ps) x y, true) := by
  induction ps with
  | nil => intros; rfl
  | cons p ps ih => intro r x y; rw [List.foldl_cons, typeStep_lit, if_neg (by simp), ih]; rfl

theorem foldl_type (flag : Bool) (ps : List (Prim ν V)) : ∀ (r : Dict ν V) (x y : Val ν V),
    (ps.foldl (typeStep flag) (lit r x y, false)).1 =
      match first ps with
      | some p => lit (shareDict r ps) (.leaf (.type p.ty.name)) (.dict (primReport flag p))
      | none => lit (shareDict r ps) x y := by
  induction ps with
  | nil => intros; rfl
  | cons p ps ih =>
    intro r x y
    rw [List.foldl_cons, typeStep_lit]
    by_cases h : p.ratio = some 1
    · rw [if_pos ⟨rfl, h⟩, foldl_found]
      simp [first, h, shareDict]
    · rw [if_neg (by simp [h]), ih]
      have e : first (p :: ps) = first ps := by simp [first, h]
      rw [e]; rfl

/-- The data type reported. -/
def typeVal (ps : List (Prim ν V)) : Val ν V :=
  match first ps with
  | some p => .leaf (.type p.ty.name)
  | none => .leaf .none

/-- The statistics of the data type. -/
def typeStats (flag : Bool) (ps : List (Prim ν V)) : Dict ν V :=
  match first ps with
  | some p => primReport flag p
  | none => []

theorem typeReport_eq (flag : Bool) (ps : List (Prim ν V)) :
    typeReport flag ps = lit (shareDict [] ps) (typeVal ps) (.dict (typeStats flag ps)) := by
  have h := foldl_type flag ps [] (.leaf .none) (.dict [])
  unfold typeReport typeVal typeStats
  rw [show ([("data_type_representation", .dict []), ("data_type", .leaf .none), ("statistics", .dict [])] : Dict ν V) =
    lit [] (.leaf .none) (.dict []) from rfl, h]
  cases first ps <;> rfl

theorem typeStats_wf (flag : Bool) (ps : List (Prim ν V)) : PyDict.WF (typeStats flag ps) := by
  unfold typeStats
  cases first ps with
  | none => exact PyDict.WF_nil
  | some p => exact primReport_wf flag p

theorem first_selected (ps : List (Prim ν V)) (p : Prim ν V) : first ps = some p ↔ Spec.Selected ps p := by
  unfold first
  rw [List.find?_eq_some_iff_append]
  constructor
  · rintro ⟨h1, l, r, rfl, h2⟩
    exact ⟨l, r, rfl, by simpa using h1, by simpa using h2⟩
  · rintro ⟨l, r, rfl, h1, h2⟩
    exact ⟨by simpa using h1, l, r, rfl, by simpa using h2⟩

theorem first_none (ps : List (Prim ν V)) : first ps = none ↔ ∀ p ∈ ps, p.ratio ≠ some 1 := by
  unfold first; rw [List.find?_eq_none]; simp

/-- The statistics of categories. -/
def catPart (c : Option (CatCol ν V)) : Dict ν V := (c.map catStats).getD []

/-- The statistics of labels. -/
def labelPart (l : Option (Option (LabelCol ν V))) : Dict ν V :=
  match l with
  | some (some l) => [("avg_predictions", l.average), ("data_label_representation", l.representation), ("times", l.times)]
  | _ => []

theorem labelReport_eq (l : Option (LabelCol ν V)) :
    labelReport l = [("data_label", (l.map LabelCol.label).getD (.leaf .none)), ("statistics", .dict (labelPart (some l)))] := by
  cases l <;> simp [labelReport, labelPart, labelProfile, PyDict.get?_cons, update, PyDict.del, PyDict.set]

theorem catStats_wf (c : CatCol ν V) : PyDict.WF (catStats c) := by
  unfold catStats; split <;> simp [PyDict.WF, PyDict.keys]

theorem catPart_wf (c : Option (CatCol ν V)) : PyDict.WF (catPart c) := by
  cases c with
  | none => exact PyDict.WF_nil
  | some c => exact catStats_wf c

theorem labelPart_wf (l : Option (Option (LabelCol ν V))) : PyDict.WF (labelPart l) := by
  rcases l with _ | _ | l <;> simp [labelPart, PyDict.WF, PyDict.keys]

theorem statReport_eq (o : Option (OrderCol ν V)) (c : Option (CatCol ν V)) :
    PyDict.WF (statReport o c) ∧
    PyDict.get? (statReport o c) "order" = o.map OrderCol.order ∧
    PyDict.get? (statReport o c) "categorical" = c.map (fun x => .leaf (.bool x.isMatch)) ∧
    PyDict.get? (statReport o c) "statistics" = c.map (fun x => .dict (catStats x)) ∧
    (∀ k, k ∉ ["order", "categorical", "statistics", "times"] → PyDict.get? (statReport o c) k = none) := by
  cases o <;> cases c <;>
    refine ⟨?_, ?_, ?_, ?_, ?_⟩ <;>
    first
      | (intro k hk
         simp only [List.mem_cons, List.not_mem_nil, or_false, not_or] at hk
         obtain ⟨h1, h2, h3, h4⟩ := hk
         simp [statReport, update, orderReport, catReport, PyDict.get?_cons, PyDict.set, Ne.symm h1, Ne.symm h2, Ne.symm h3,
           Ne.symm h4])
      | simp [statReport, update, orderReport, catReport, PyDict.get?_cons, PyDict.WF, PyDict.keys, PyDict.set]

/-- The merged reports of the compilers. -/
def merged (flag : Bool) (K : Comps ν V) : Dict ν V := (compReports flag (some K)).foldl updItems []

/-- The merged statistics of the compilers. -/
def mergedStats (flag : Bool) (K : Comps ν V) : Dict ν V :=
  updItems (updItems (typeStats flag K.types) (catPart K.cat)) (labelPart K.label)

theorem updItems_self_nil (d : Dict ν V) : updItems d [] = d := updItems_nil d

theorem lit_wf (r : Dict ν V) (x y : Val ν V) : PyDict.WF (lit r x y) := by simp [lit, PyDict.WF, PyDict.keys]

theorem two_get (flag : Bool) (K : Comps ν V) :
    let u := updItems (updItems [] (typeReport flag K.types)) (statReport K.order K.cat)
    PyDict.get? u "data_type" = some (typeVal K.types) ∧
    PyDict.get? u "data_type_representation" = some (.dict (shareDict [] K.types)) ∧
    PyDict.get? u "order" = K.order.map OrderCol.order ∧
    PyDict.get? u "categorical" = K.cat.map (fun x => .leaf (.bool x.isMatch)) ∧
    PyDict.get? u "data_label" = none ∧
    PyDict.get? u "statistics" = some (.dict (updItems (typeStats flag K.types) (catPart K.cat))) := by
  intro u
  obtain ⟨hw, ho, hc, hs, hn⟩ := statReport_eq K.order K.cat
  have base : ∀ k, PyDict.get? (updItems [] (typeReport flag K.types)) k = PyDict.get? (typeReport flag K.types) k := by
    intro k
    rw [typeReport_eq, updItems_get _ _ (lit_wf _ _ _)]
    cases PyDict.get? (lit (shareDict [] K.types) (typeVal K.types) (.dict (typeStats flag K.types))) k with
    | none => rfl
    | some v => cases v <;> rfl
  have get : ∀ k, PyDict.get? u k = match PyDict.get? (statReport K.order K.cat) k with
      | none => PyDict.get? (typeReport flag K.types) k
      | some v => some (merge1 v (PyDict.get? (typeReport flag K.types) k)) := by
    intro k
    rw [updItems_get _ _ hw, base]
    cases PyDict.get? (statReport K.order K.cat) k <;> rfl
  have tr := typeReport_eq flag K.types
  refine ⟨?_, ?_, ?_, ?_, ?_, ?_⟩
  · rw [get, hn _ (by decide), tr]; simp [lit, PyDict.get?_cons]
  · rw [get, hn _ (by decide), tr]; simp [lit, PyDict.get?_cons]
  · rw [get, ho, tr]
    have : PyDict.get? (lit (shareDict [] K.types) (typeVal K.types) (.dict (typeStats flag K.types))) "order" = none := by
      simp [lit, PyDict.get?_cons]
    rw [this]
    cases K.order with
    | none => rfl
    | some o => simp only [Option.map_some]; cases o.order <;> rfl
  · rw [get, hc, tr]
    have : PyDict.get? (lit (shareDict [] K.types) (typeVal K.types) (.dict (typeStats flag K.types))) "categorical" = none := by
      simp [lit, PyDict.get?_cons]
    rw [this]
    cases K.cat with
    | none => rfl
    | some o => rfl
  · rw [get, hn _ (by decide), tr]; simp [lit, PyDict.get?_cons]
  · rw [get, hs, tr]
    have : PyDict.get? (lit (shareDict [] K.types) (typeVal K.types) (.dict (typeStats flag K.types))) "statistics" =
        some (.dict (typeStats flag K.types)) := by
      simp [lit, PyDict.get?_cons]
    rw [this]
    cases K.cat with
    | none => simp [catPart, updItems_nil]
    | some o => rfl

theorem merged_get (flag : Bool) (K : Comps ν V) :
    PyDict.get? (merged flag K) "data_type" = some (typeVal K.types) ∧
    PyDict.get? (merged flag K) "data_type_representation" = some (.dict (shareDict [] K.types)) ∧
    PyDict.get? (merged flag K) "order" = K.order.map OrderCol.order ∧
    PyDict.get? (merged flag K) "categorical" = K.cat.map (fun x => .leaf (.bool x.isMatch)) ∧
    PyDict.get? (merged flag K) "data_label" = K.label.map (fun l => (l.map LabelCol.label).getD (.leaf .none)) ∧
    PyDict.get? (merged flag K) "statistics" = some (.dict (mergedStats flag K)) := by
  obtain ⟨h1, h2, h3, h4, h5, h6⟩ := two_get flag K
  unfold merged mergedStats compReports
  cases hl : K.label with
  | none =>
    simp only [hl, Option.map_none, Option.toList_none, List.foldl_cons, List.foldl_nil]
    refine ⟨h1, h2, h3, h4, h5, ?_⟩
    rw [h6]; simp [labelPart, updItems_nil]
  | some l =>
    simp only [hl, Option.map_some, Option.toList_some, List.foldl_cons, List.foldl_nil]
    have hw : PyDict.WF (labelReport l) := by rw [labelReport_eq]; simp [PyDict.WF, PyDict.keys]
    have hn : ∀ k, k ≠ "data_label" → k ≠ "statistics" → PyDict.get? (labelReport l) k = none := by
      intro k a b
      rw [labelReport_eq]; simp [PyDict.get?_cons, Ne.symm a, Ne.symm b]
    have hd : PyDict.get? (labelReport l) "data_label" = some ((l.map LabelCol.label).getD (.leaf .none)) := by
      rw [labelReport_eq]; simp [PyDict.get?_cons]
    have hs : PyDict.get? (labelReport l) "statistics" = some (.dict (labelPart (some l))) := by
      rw [labelReport_eq]; simp [PyDict.get?_cons]
    refine ⟨?_, ?_, ?_, ?_, ?_, ?_⟩
    · rw [updItems_get _ _ hw, hn _ (by decide) (by decide)]; exact h1
    · rw [updItems_get _ _ hw, hn _ (by decide) (by decide)]; exact h2
    · rw [updItems_get _ _ hw, hn _ (by decide) (by decide)]; exact h3
    · rw [updItems_get _ _ hw, hn _ (by decide) (by decide)]; exact h4
    · rw [updItems_get _ _ hw, hd]
      simp only
      rw [h5]
      cases (l.map LabelCol.label).getD (.leaf .none) <;> rfl
    · rw [updItems_get _ _ hw, hs]
      simp only
      rw [h6]; rfl

/-- The entries written by the column. -/
def ownList (c : Col ν V) : Dict ν V :=
  [("sample_size", c.sampleSize), ("null_count", c.nullCount), ("null_types", c.nullTypes), ("null_types_index", c.nullRows)]

/-- The statistics of a column that was given data. -/
def finalStats (flag : Bool) (c : Col ν V) (K : Comps ν V) : Dict ν V :=
  match first K.types with
  | some _ => PyDict.set (update (mergedStats flag K) (ownList c)) "data_type_representation" (.dict (shareDict [] K.types))
  | none => update (mergedStats flag K) (ownList c)

/-- The keys of a column's report. -/
def colKeys (c : Col ν V) : List String :=
  if c.labelled then ["column_name", "data_type", "data_label", "categorical", "order", "samples", "statistics"]
  else ["column_name", "data_type", "categorical", "order", "samples", "statistics"]

/-- Everything a column's report is picked from. -/
def gathered (flag : Bool) (c : Col ν V) (K : Comps ν V) : Dict ν V :=
  PyDict.set (update (merged flag K) [("column_name", .leaf (.name c.name)), ("samples", c.samples)]) "statistics"
    (.dict (finalStats flag c K))

theorem colReport_fed (flag : Bool) (c : Col ν V) (K : Comps ν V) (h : c.comps = some K) :
    colReport flag c = .ok ((colKeys c).map (pick (gathered flag c K))) := by
  obtain ⟨h1, h2, -, -, -, h6⟩ := merged_get flag K
  have hst : columnStats c (update (merged flag K) [("column_name", .leaf (.name c.name)), ("samples", c.samples)]) =
      .ok (finalStats flag c K) := by
    have g : ∀ k, k ≠ "column_name" → k ≠ "samples" →
        PyDict.get? (update (merged flag K) [("column_name", .leaf (.name c.name)), ("samples", c.samples)]) k =
          PyDict.get? (merged flag K) k := by
      intro k a b
      simp [update, PyDict.get?_set, Ne.symm a, Ne.symm b]
    unfold columnStats
    rw [g _ (by decide) (by decide), h6]
    simp only
    rw [g _ (by decide) (by decide), g _ (by decide) (by decide), h1, h2]
    unfold typeVal finalStats
    cases first K.types <;> rfl
  unfold colReport
  rw [h]
  change (columnStats c (update (merged flag K) _) >>= _) = _
  rw [hst]
  simp only [bind, Except.bind]
  unfold colKeys
  cases c.labelled <;> rfl

theorem colReport_unfed (flag : Bool) (c : Col ν V) (h : c.comps = none) : colReport flag c = .error .keyError := by
  unfold colReport
  rw [h]
  simp [compReports, columnStats, update, PyDict.set, PyDict.get?_cons, bind, Except.bind]

theorem pick_get (u : Dict ν V) (ks : List String) (k : String) :
    PyDict.get? (ks.map (pick u)) k = if k ∈ ks then some ((PyDict.get? u k).getD (.leaf .none)) else none := by
  induction ks with
  | nil => simp
  | cons a ks ih =>
    rw [List.map_cons, pick, PyDict.get?_cons, ih]
    by_cases h : a = k
    · subst h; simp
    · simp [h, Ne.symm h]

end Verif.Report
