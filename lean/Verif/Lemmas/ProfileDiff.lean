import Verif.Spec.ProfileDiff
import Verif.Lemmas.Nested
import Verif.Lemmas.PyDict
import Verif.Lemmas.Diff
import Verif.Props.Diff
import Mathlib.Tactic.Tauto

/-! # Lemmas on differences of profiles -/

namespace Verif.ProfileDiff

open Verif Verif.Diffs Verif.Nested

variable {τ ν : Type}

/-! ## Leaves -/

/-- `find_diff_of_numbers` in closed form. -/
def numD : Option Num → Option Num → Diff String
  | none, none => .unchanged
  | some x, none => .pair (.num x) .none
  | none, some y => .pair .none (.num y)
  | some x, some y => if x.ne y then .num (x.sub y) else .unchanged

theorem diffNumbers_eq (a b : Option Num) :
    diffNumbers (α := String) ((a.map PV.num).getD .none) ((b.map PV.num).getD .none) = .ok (numD a b) := by
  rcases a with _ | a <;> rcases b with _ | b <;> simp [diffNumbers, numD, PV.asNum]
  split <;> rfl

theorem numLeaf_eq (a b : Option Num) : (numLeaf a b : Except Err (NV (Leaf τ ν))) = .ok (.leaf (.diff (numD a b))) := by
  rw [numLeaf, diffNumbers_eq]; rfl

theorem natLeaf_eq (a b : ℕ) :
    (natLeaf a b : Except Err (NV (Leaf τ ν))) = .ok (.leaf (.diff (numD (some (.fin a)) (some (.fin b))))) := numLeaf_eq _ _

theorem numD_spec (a b : Option Num) : ReportsNum a b (numD a b) := by
  rcases a with _ | (a | _) <;> rcases b with _ | (b | _) <;> simp [ReportsNum, numD, Num.ne, Num.sub]

theorem diffStrings_spec (a b : Option String) : ReportsText a b (diffStrings a b) := by
  unfold ReportsText
  constructor
  · intro h; simp [diffStrings, h]
  · intro h
    simp only [diffStrings, if_pos h]
    refine ⟨_, _, rfl, ?_, ?_⟩
    · cases a <;> rfl
    · cases b <;> rfl

theorem diffBools_spec (a b : Bool) : ReportsBool a b (diffBools a b) := by
  constructor
  · intro h; simp [diffBools, h]
  · intro h; simp [diffBools, h]

theorem diffDates_spec (a b : Option ℤ) : ReportsDate a b (diffDates a b) := by
  rcases a with _ | a <;> rcases b with _ | b <;> try rfl
  exact ⟨(C28_dates a b).1.2, (C28_dates a b).2.1, (C28_dates a b).2.2.1⟩

theorem diffLists_spec {α : Type} [DecidableEq α] (a b : List α) : ReportsList a b (diffLists (some a) (some b)) := by
  constructor
  · exact fun h => (C28_lists_unchanged_partial a b).1.2 h
  · intro h
    have h' : diffLists (some a) (some b) ≠ .unchanged := fun h' => h ((C28_lists_unchanged_partial a b).1.1 h')
    unfold diffLists at h' ⊢
    simp only at h' ⊢
    split
    · rename_i hc
      refine ⟨_, _, _, rfl, fun x => ?_⟩
      refine C28_lists a b _ _ _ ?_ x
      unfold diffLists
      simp only
      rw [if_pos hc]
    · rename_i hc
      rw [if_neg hc] at h'
      exact absurd rfl h'

theorem listLeaf_spec (a b : Option (List String)) : ReportsLists a b (diffLists a b) := by
  rcases a with _ | a <;> rcases b with _ | b <;> try rfl
  exact diffLists_spec a b

/-! ## Dictionaries of numbers -/

/-- The items of a comparison of two dictionaries of numbers. -/
def numsItems (d1 d2 : PyDict String Num) : List (String × Diff String) :=
  d1.map (fun kv => (kv.1, numD (some kv.2) (PyDict.get? d2 kv.1))) ++
    (d2.filter fun kv => !PyDict.has d1 kv.1).map fun kv => (kv.1, Diff.pair .none (.num kv.2))

/-- The comparison of two dictionaries of numbers. -/
def numsD (d1 d2 : PyDict String Num) : Diff String :=
  if (numsItems d1 d2).isEmpty then .unchanged else .dict (numsItems d1 d2)

theorem get?_map {V W : Type} (f : String → V → W) (d : PyDict String V) (k : String) :
    PyDict.get? (d.map fun kv => (kv.1, f kv.1 kv.2)) k = (PyDict.get? d k).map (f k) := by
  induction d with
  | nil => rfl
  | cons p d ih =>
    obtain ⟨k', v⟩ := p
    simp only [List.map_cons, PyDict.get?_cons]
    by_cases h : k' = k
    · subst h; simp
    · simp [h, ih]

theorem numOf_eq (d : PyDict String Num) (k : String) : numOf d k = PyDict.get? d k := by
  induction d with
  | nil => rfl
  | cons p d ih =>
    obtain ⟨k', v⟩ := p
    unfold numOf at ih ⊢
    by_cases h : k' = k
    · simp [PyDict.get?_cons, h]
    · simp [PyDict.get?_cons, h, ih]

theorem countOf_eq (d : PyDict String ℕ) (k : String) : countOf d k = (PyDict.get? d k).getD 0 := by
  induction d with
  | nil => rfl
  | cons p d ih =>
    obtain ⟨k', v⟩ := p
    unfold countOf at ih ⊢
    by_cases h : k' = k
    · simp [PyDict.get?_cons, h]
    · simp [PyDict.get?_cons, h, ih]

theorem numVals_get (d : PyDict String Num) (k : String) :
    PyDict.get? (numVals d) k = (PyDict.get? d k).map PV.num := get?_map (fun _ x => PV.num x) d k

theorem diffItems_eq (d1 d2 : PyDict String Num) :
    diffItems (numVals d1) (numVals d2) = .ok (d1.map fun kv => (kv.1, numD (some kv.2) (PyDict.get? d2 kv.1))) := by
  induction d1 with
  | nil => simp [numVals, diffItems]
  | cons p d1 ih =>
    obtain ⟨k, x⟩ := p
    have hv : diffVal (PV.num x) ((PyDict.get? (numVals d2) k).getD .none) =
        .ok (numD (some x) (PyDict.get? d2 k)) := by
      rw [numVals_get, diffVal]
      · exact diffNumbers_eq (some x) (PyDict.get? d2 k)
      all_goals intros; simp_all
    show diffItems ((k, PV.num x) :: numVals d1) (numVals d2) = _
    rw [diffItems, hv, ih]
    rfl

theorem has_map {V W : Type} (f : String → V → W) (d : PyDict String V) (k : String) :
    PyDict.has (d.map fun kv => (kv.1, f kv.1 kv.2)) k = PyDict.has d k := by
  unfold PyDict.has; rw [get?_map]; simp

theorem diffDicts_nums (d1 d2 : PyDict String Num) :
    diffDicts (some (numVals d1)) (some (numVals d2)) = .ok (numsD d1 d2) := by
  unfold diffDicts
  simp only [Option.getD_some]
  rw [diffVal, diffItems_eq]
  show Except.ok (assemble _ _) = _
  have hi : ∀ k, PyDict.has (d1.map fun kv => (kv.1, numD (some kv.2) (PyDict.get? d2 kv.1))) k = PyDict.has d1 k :=
    has_map (fun k x => numD (some x) (PyDict.get? d2 k)) d1
  unfold assemble numsD numsItems numVals
  simp only [hi, List.filter_map, List.map_map, Function.comp_def]

theorem numsItems_get (d1 d2 : PyDict String Num) (k : String) :
    PyDict.get? (numsItems d1 d2) k = match PyDict.get? d1 k, PyDict.get? d2 k with
      | none, none => none
      | x, y => some (numD x y) := by
  unfold numsItems
  rw [get?_append, get?_map (fun k x => numD (some x) (PyDict.get? d2 k)), get?_map (fun _ x => Diff.pair .none (.num x)),
    get?_filter (fun k => !PyDict.has d1 k)]
  cases h1 : PyDict.get? d1 k with
  | some x => cases h2 : PyDict.get? d2 k <;> simp
  | none =>
    cases h2 : PyDict.get? d2 k <;> simp [PyDict.has, h1, numD]

theorem numsD_spec (d1 d2 : PyDict String Num) : ReportsNums (PyDict.get? d1) (PyDict.get? d2) (numsD d1 d2) := by
  have hg := numsItems_get d1 d2
  constructor
  · intro h
    have : numsItems d1 d2 = [] := by
      cases hi : numsItems d1 d2 with
      | nil => rfl
      | cons p rest =>
        have := hg p.1
        rw [hi] at this
        simp only [(h p.1).1, (h p.1).2] at this
        rw [PyDict.get?_cons, if_pos rfl] at this
        cases this
    unfold numsD; rw [this]; rfl
  · rintro ⟨k, hk⟩
    have hne : numsItems d1 d2 ≠ [] := by
      intro he
      have := hg k
      rw [he] at this
      rcases h1 : PyDict.get? d1 k with _ | x <;> rcases h2 : PyDict.get? d2 k with _ | y <;> simp_all
    refine ⟨numsItems d1 d2, ?_, fun k => ⟨fun h => ?_, fun h => ?_⟩⟩
    · unfold numsD
      rw [if_neg (by simpa using hne)]
    · rw [hg k, h.1, h.2]
    · refine ⟨numD (PyDict.get? d1 k) (PyDict.get? d2 k), ?_, numD_spec _ _⟩
      rw [hg k]
      rcases h1 : PyDict.get? d1 k with _ | x <;> rcases h2 : PyDict.get? d2 k with _ | y <;> simp_all

/-! ## Column profiles -/

variable (T : Tests τ)

/-- The numeric statistics but the stability index. -/
def numL (a b : NumCol) : PyDict String (NV (Leaf τ ν)) :=
  [("min", .leaf (.diff (numD a.min b.min))), ("max", .leaf (.diff (numD a.max b.max))),
   ("sum", .leaf (.diff (numD a.sum b.sum))), ("mean", .leaf (.diff (numD a.mean b.mean))),
   ("median", .leaf (.diff (numD a.median b.median))),
   ("mode", .leaf (.modes (diffLists (some a.mode) (some b.mode)))),
   ("median_absolute_deviation", .leaf (.diff (numD a.mad b.mad))),
   ("variance", .leaf (.diff (numD a.variance b.variance))), ("stddev", .leaf (.diff (numD a.stddev b.stddev))),
   ("t-test", .leaf (.test (T.ttest a b)))]

theorem numDiff_eq (a b : NumCol) :
    (numDiff T a b : Except Err (PyDict String (NV (Leaf τ ν)))) =
      .ok (numL T a b ++ [("psi", .leaf (.test (T.numPsi a b)))]) := by
  unfold numDiff
  simp only [numLeaf_eq]
  rfl

/-- The comparison of precisions. -/
def precL (a b : FloatCol) : PyDict String (NV (Leaf τ ν)) :=
  [("min", .leaf (.diff (numD a.precMin b.precMin))), ("max", .leaf (.diff (numD a.precMax b.precMax))),
   ("mean", .leaf (.diff (numD a.precMean b.precMean))), ("var", .leaf (.diff (numD a.precVar b.precVar))),
   ("std", .leaf (.diff (numD a.precStd b.precStd))), ("sample_size", .leaf (.diff (numD a.precSize b.precSize))),
   ("margin_of_error", .leaf (.diff (numD a.precMargin b.precMargin)))]

theorem floatDiff_eq (a b : FloatCol) :
    (floatDiff T a b : Except Err (PyDict String (NV (Leaf τ ν)))) =
      .ok (numL T a.num b.num ++ [("psi", .leaf (.test (T.numPsi a.num b.num))), ("precision", .dict (precL a b))]) := by
  unfold floatDiff
  rw [numDiff_eq]
  simp only [numLeaf_eq]
  show Except.ok _ = _
  simp [numL, precL, PyDict.set]

theorem textDiff_eq (a b : TextCol) :
    (textDiff T a b : Except Err (PyDict String (NV (Leaf τ ν)))) =
      .ok (numL T a.num b.num ++ [("vocab", .leaf (.diff (diffLists a.vocab b.vocab)))]) := by
  unfold textDiff
  rw [numDiff_eq]
  show Except.ok _ = _
  simp [numL, PyDict.set, PyDict.del, listLeaf]

theorem shows_mk {d : PyDict String (NV (Leaf τ ν))} {k : String} {P : Diff String → Prop} {e : Diff String}
    (h : PyDict.get? d k = some (.leaf (.diff e))) (hp : P e) : Shows d k P := ⟨e, h, hp⟩

/-- The statistics of a dictionary are shown in every dictionary that has them. -/
theorem numShown_of (a b : NumCol) (st : PyDict String (NV (Leaf τ ν)))
    (h : ∀ k v, PyDict.get? (numL T a b) k = some v → PyDict.get? st k = some v) : NumShown T a b st where
  min := shows_mk (h _ _ rfl) (numD_spec _ _)
  max := shows_mk (h _ _ rfl) (numD_spec _ _)
  sum := shows_mk (h _ _ rfl) (numD_spec _ _)
  mean := shows_mk (h _ _ rfl) (numD_spec _ _)
  median := shows_mk (h _ _ rfl) (numD_spec _ _)
  mad := shows_mk (h _ _ rfl) (numD_spec _ _)
  variance := shows_mk (h _ _ rfl) (numD_spec _ _)
  stddev := shows_mk (h _ _ rfl) (numD_spec _ _)
  mode := ⟨_, h _ _ rfl, diffLists_spec _ _⟩
  ttest := h _ _ rfl

/-- The statistics of categorical columns, with the stability index `ps`. -/
def catL (a b : CatCol) (ps : PyDict String (NV (Leaf τ ν))) : PyDict String (NV (Leaf τ ν)) :=
  [("chi2-test", .leaf (.test (T.chi2 a b))), ("categories", listLeaf (some a.categories) (some b.categories)),
    ("gini_impurity", .leaf (.diff (numD a.gini b.gini))), ("unalikeability", .leaf (.diff (numD a.unalike b.unalike)))] ++
  ps ++ [("categorical_count", .leaf (.diff (numsD
    ((padded a.counts b.counts).map fun kv => (kv.1, Num.fin kv.2))
    ((padded b.counts a.counts).map fun kv => (kv.1, Num.fin kv.2)))))]

theorem countVals_eq (d : PyDict String ℕ) : countVals d = numVals (d.map fun kv => (kv.1, Num.fin kv.2)) := by
  simp [countVals, numVals]

theorem bothCategorical_eq (a b : CatCol) :
    (bothCategorical T a b : Except Err (PyDict String (NV (Leaf τ ν)))) =
      (catPsiEntry T a b).map (catL T a b) := by
  unfold bothCategorical
  simp only [numLeaf_eq, countVals_eq, diffDicts_nums]
  show Except.bind (catPsiEntry T a b) _ = _
  cases (catPsiEntry T a b : Except Err (PyDict String (NV (Leaf τ ν)))) with
  | error e => rfl
  | ok p => rfl

theorem padded_get (a b : PyDict String ℕ) (k : String) :
    PyDict.get? ((padded a b).map fun kv => (kv.1, Num.fin kv.2)) k =
      if k ∈ a.map Prod.fst ∨ k ∈ b.map Prod.fst then some (.fin (countOf a k)) else none := by
  rw [get?_map (fun _ (x : ℕ) => Num.fin x), padded, get?_append, get?_map (fun _ _ => 0),
    get?_filter (fun k => !PyDict.has a k), countOf_eq]
  have ha := PyDict.get?_eq_none_iff a k
  have hb := PyDict.get?_eq_none_iff b k
  unfold PyDict.keys at ha hb
  cases h1 : PyDict.get? a k with
  | some x =>
    have : k ∈ a.map Prod.fst := by
      by_contra h; rw [ha.2 h] at h1; cases h1
    simp [this]
  | none =>
    have h1' := ha.1 h1
    cases h2 : PyDict.get? b k with
    | some y =>
      have : k ∈ b.map Prod.fst := by
        by_contra h; rw [hb.2 h] at h2; cases h2
      simp [this, PyDict.has, h1, -List.mem_map]
    | none =>
      have h2' := hb.1 h2
      simp [h1', h2', PyDict.has, h1, -List.mem_map]

/-! ## Merging the reports of the compilers -/

/-- A report of a compiler: distinct keys, and `statistics`, if present, is a dictionary with distinct keys. -/
structure Part (d : PyDict String (NV (Leaf τ ν))) : Prop where
  wf : PyDict.WF d
  stats : ∀ v, PyDict.get? d "statistics" = some v → ∃ st, v = .dict st ∧ PyDict.WF st

/-- A report whose statistics and other entries are no dictionaries. -/
structure FlatPart (d : PyDict String (NV (Leaf τ ν))) : Prop extends Part d where
  flat : ∀ k v, k ≠ "statistics" → PyDict.get? d k = some v → ∃ a, v = .leaf a
  flatStats : ∀ st, PyDict.get? d "statistics" = some (.dict st) → ∀ k v, PyDict.get? st k = some v → ∃ a, v = .leaf a

/-- The statistic of a report. -/
def look (d : PyDict String (NV (Leaf τ ν))) (k : String) : Option (NV (Leaf τ ν)) :=
  match PyDict.get? d "statistics" with
  | some (.dict st) => PyDict.get? st k
  | _ => none

theorem keys_upd {A : Type} (u d : PyDict String (NV A)) (h : PyDict.WF d) : PyDict.WF (updItems d u) := by
  induction u generalizing d with
  | nil => rwa [updItems_nil]
  | cons p u ih =>
    obtain ⟨k, v⟩ := p
    rw [updItems_cons]
    exact ih _ (PyDict.WF_set h k _)

theorem upd_part {d u : PyDict String (NV (Leaf τ ν))} (hd : Part d) (hu : FlatPart u) : Part (updItems d u) := by
  refine ⟨keys_upd u d hd.wf, fun v hv => ?_⟩
  rw [updItems_get u d hu.wf] at hv
  cases hs : PyDict.get? u "statistics" with
  | none => rw [hs] at hv; exact hd.stats v hv
  | some w =>
    obtain ⟨su, rfl, hsu⟩ := hu.stats w hs
    rw [hs] at hv
    simp only [Option.some.injEq] at hv
    cases hds : PyDict.get? d "statistics" with
    | none => rw [hds] at hv; exact ⟨su, hv.symm, hsu⟩
    | some x =>
      obtain ⟨sd, rfl, hsd⟩ := hd.stats x hds
      rw [hds] at hv
      exact ⟨_, hv.symm, keys_upd su sd hsd⟩

theorem merge1_leaf {A : Type} (a : A) (o : Option (NV A)) : merge1 (.leaf a) o = .leaf a := by
  cases o <;> rfl

theorem upd_get {d u : PyDict String (NV (Leaf τ ν))} (hu : FlatPart u) (k : String) (hk : k ≠ "statistics") :
    PyDict.get? (updItems d u) k = (PyDict.get? u k).or (PyDict.get? d k) := by
  rw [updItems_get u d hu.wf]
  cases h : PyDict.get? u k with
  | none => simp
  | some v =>
    obtain ⟨a, rfl⟩ := hu.flat k v hk h
    simp [merge1_leaf]

theorem upd_look {d u : PyDict String (NV (Leaf τ ν))} (hd : Part d) (hu : FlatPart u) (k : String) :
    look (updItems d u) k = (look u k).or (look d k) := by
  unfold look
  rw [updItems_get u d hu.wf]
  cases hs : PyDict.get? u "statistics" with
  | none => simp
  | some w =>
    obtain ⟨su, rfl, hsu⟩ := hu.stats w hs
    have hf := hu.flatStats su hs
    cases hds : PyDict.get? d "statistics" with
    | none => simp [merge1]
    | some x =>
      obtain ⟨sd, rfl, hsd⟩ := hd.stats x hds
      simp only [merge1]
      rw [updItems_get su sd hsu]
      cases h : PyDict.get? su k with
      | none => simp
      | some v =>
        obtain ⟨a, rfl⟩ := hf k v h
        simp [merge1_leaf]

theorem upd_none {d u : PyDict String (NV (Leaf τ ν))} (hu : PyDict.WF u) (k : String) :
    PyDict.get? (updItems d u) k = none ↔ PyDict.get? u k = none ∧ PyDict.get? d k = none := by
  rw [updItems_get u d hu]
  cases PyDict.get? u k <;> simp

theorem update_get (d e : PyDict String (NV (Leaf τ ν))) (he : PyDict.WF e) (k : String) :
    PyDict.get? (update d e) k = (PyDict.get? e k).or (PyDict.get? d k) := by
  unfold update
  induction e generalizing d with
  | nil => simp
  | cons p e ih =>
    obtain ⟨k', v⟩ := p
    have hwf : PyDict.WF e := (List.nodup_cons.1 he).2
    have hnk : k' ∉ PyDict.keys e := (List.nodup_cons.1 he).1
    rw [List.foldl_cons, ih _ hwf, PyDict.get?_cons, PyDict.get?_set]
    by_cases h : k' = k
    · subst h
      rw [(PyDict.get?_eq_none_iff _ _).2 hnk]
      simp
    · simp [h]

/-! ## The three compilers -/

/-- The order and categorical keys only. -/
structure StatPart (d : PyDict String (NV (Leaf τ ν))) : Prop extends FlatPart d where
  others : ∀ k, k ∉ ["order", "categorical", "statistics"] → PyDict.get? d k = none

theorem catPsiEntry_cases (a b : CatCol) :
    (a.counts = [] ∧ b.counts = [] ∧ (catPsiEntry T a b : Except Err (PyDict String (NV (Leaf τ ν)))) = .ok []) ∨
    ((a.counts ≠ [] ∨ b.counts ≠ []) ∧ (a.sampleSize = 0 ∨ b.sampleSize = 0) ∧
      (catPsiEntry T a b : Except Err (PyDict String (NV (Leaf τ ν)))) = .error .zeroDivision) ∨
    ((a.counts ≠ [] ∨ b.counts ≠ []) ∧ a.sampleSize ≠ 0 ∧ b.sampleSize ≠ 0 ∧
      (catPsiEntry T a b : Except Err (PyDict String (NV (Leaf τ ν)))) = .ok [("psi", .leaf (.test (T.catPsi a b)))]) := by
  unfold catPsiEntry
  by_cases h1 : a.counts = []
  · by_cases h2 : b.counts = []
    · left; simp [h1, h2, padded]
    · right
      have : ¬ (padded a.counts b.counts).isEmpty = true := by
        rw [h1]; simp only [padded, List.nil_append, List.isEmpty_iff, List.map_eq_nil_iff, PyDict.has, PyDict.get?_nil]
        simp [h2]
      rw [if_neg this]
      by_cases h3 : a.sampleSize = 0 ∨ b.sampleSize = 0
      · left; simp [h2, h3]
      · right; simp only [if_neg h3]; simp only [not_or] at h3; exact ⟨Or.inr h2, h3.1, h3.2, trivial⟩
  · right
    have : ¬ (padded a.counts b.counts).isEmpty = true := by simp [padded, h1]
    rw [if_neg this]
    by_cases h3 : a.sampleSize = 0 ∨ b.sampleSize = 0
    · left; simp [h1, h3]
    · right; simp only [if_neg h3]; simp only [not_or] at h3; exact ⟨Or.inl h1, h3.1, h3.2, trivial⟩

/-- The statistics of a categorical comparison. -/
def catStats (a b : CatCol) (more : PyDict String (NV (Leaf τ ν))) : PyDict String (NV (Leaf τ ν)) :=
  [("unique_count", .leaf (.diff (numD (some (.fin a.uniqueCount)) (some (.fin b.uniqueCount))))),
    ("unique_ratio", .leaf (.diff (numD (some a.uniqueRatio) (some b.uniqueRatio))))] ++ more

/-- The report of a categorical comparison. -/
def catReport (a b : CatCol) (more : PyDict String (NV (Leaf τ ν))) : PyDict String (NV (Leaf τ ν)) :=
  [("categorical", .leaf (.diff (diffBools a.isMatch b.isMatch))), ("statistics", .dict (catStats a b more))]

theorem catDiff_eq (a b : CatCol) : (catDiff T a b : Except Err (PyDict String (NV (Leaf τ ν)))) =
    if a.isMatch = true ∧ b.isMatch = true then (catPsiEntry T a b).map fun ps => catReport a b (catL T a b ps)
    else .ok (catReport a b []) := by
  unfold catDiff
  simp only [numLeaf_eq, natLeaf_eq, bothCategorical_eq]
  by_cases h : a.isMatch = true ∧ b.isMatch = true
  · rw [if_pos h]
    simp only [h.1, h.2, Bool.and_self, if_true]
    cases (catPsiEntry T a b : Except Err (PyDict String (NV (Leaf τ ν)))) with
    | error e => rfl
    | ok p =>
      show Except.ok _ = Except.ok _
      simp [catReport, catStats, h.1, h.2]
  · rw [if_neg h]
    have : (a.isMatch && b.isMatch) = false := by
      rw [Bool.eq_false_iff]; simpa using h
    rw [this]
    rfl

theorem catStats_wf (a b : CatCol) (ps : PyDict String (NV (Leaf τ ν))) (x : NV (Leaf τ ν))
    (h : ps = [] ∨ ps = [("psi", x)]) : PyDict.WF (catStats a b (catL T a b ps)) := by
  rcases h with rfl | rfl
  · simp [PyDict.WF, PyDict.keys, catStats, catL]
  · simp [PyDict.WF, PyDict.keys, catStats, catL]

theorem flat_of_all {d : PyDict String (NV (Leaf τ ν))} (h : ∀ kv ∈ d, ∃ a, kv.2 = .leaf a) (k : String) (v : NV (Leaf τ ν))
    (hv : PyDict.get? d k = some v) : ∃ a, v = .leaf a := h _ (PyDict.mem_of_get? hv)

theorem catStats_flat (a b : CatCol) (ps : PyDict String (NV (Leaf τ ν))) (x : Leaf τ ν)
    (h : ps = [] ∨ ps = [("psi", .leaf x)]) : ∀ kv ∈ catStats a b (catL T a b ps), ∃ y, kv.2 = .leaf y := by
  rcases h with rfl | rfl <;> simp [catStats, catL, listLeaf]

/-- A statistics report is an order, if both have one, and a categorical report, if both have one. -/
theorem stat_part (o : PyDict String (NV (Leaf τ ν))) (ho : o = [] ∨ ∃ x, o = [("order", .leaf x)])
    (c : PyDict String (NV (Leaf τ ν))) (hc : c = [] ∨ ∃ x st, c = [("categorical", .leaf x), ("statistics", .dict st)] ∧
      PyDict.WF st ∧ ∀ kv ∈ st, ∃ y, kv.2 = .leaf y) : StatPart (o ++ c) := by
  rcases ho with rfl | ⟨x, rfl⟩ <;> rcases hc with rfl | ⟨y, st, rfl, hst, hfl⟩
  · refine ⟨⟨⟨by simp [PyDict.WF, PyDict.keys], ?_⟩, ?_, ?_⟩, ?_⟩ <;> simp
  · refine ⟨⟨⟨by simp [PyDict.WF, PyDict.keys], ?_⟩, ?_, ?_⟩, ?_⟩
    · intro v hv; simp [PyDict.get?_cons] at hv; exact ⟨st, hv.symm, hst⟩
    · intro k v hk hv
      simp [PyDict.get?_cons, Ne.symm hk] at hv
      exact ⟨_, hv.2.symm⟩
    · intro st' h k v hv
      simp [PyDict.get?_cons] at h
      subst h
      exact flat_of_all hfl k v hv
    · intro k hk
      simp at hk
      simp [PyDict.get?_cons, Ne.symm hk.2.1, Ne.symm hk.2.2]
  · refine ⟨⟨⟨by simp [PyDict.WF, PyDict.keys], ?_⟩, ?_, ?_⟩, ?_⟩
    · intro v hv; simp [PyDict.get?_cons] at hv
    · intro k v hk hv
      simp [PyDict.get?_cons] at hv
      exact ⟨_, hv.2.symm⟩
    · intro st' h; simp [PyDict.get?_cons] at h
    · intro k hk
      simp at hk
      simp [PyDict.get?_cons, Ne.symm hk.1]
  · refine ⟨⟨⟨by simp [PyDict.WF, PyDict.keys], ?_⟩, ?_, ?_⟩, ?_⟩
    · intro v hv; simp [PyDict.get?_cons] at hv; exact ⟨st, hv.symm, hst⟩
    · intro k v hk hv
      simp only [List.cons_append, List.nil_append, PyDict.get?_cons, PyDict.get?_nil, if_neg (Ne.symm hk)] at hv
      split at hv
      · exact ⟨_, (Option.some.inj hv).symm⟩
      · split at hv
        · exact ⟨_, (Option.some.inj hv).symm⟩
        · cases hv
    · intro st' h k v hv
      simp [PyDict.get?_cons] at h
      subst h
      exact flat_of_all hfl k v hv
    · intro k hk
      simp at hk
      simp [PyDict.get?_cons, Ne.symm hk.1, Ne.symm hk.2.1, Ne.symm hk.2.2]

/-- When comparing two columns divides by zero: both are categorical, one has no values and the other has some. -/
def DividesByZero (a b : CatCol) : Prop :=
  a.isMatch = true ∧ b.isMatch = true ∧ (a.counts ≠ [] ∨ b.counts ≠ []) ∧ (a.sampleSize = 0 ∨ b.sampleSize = 0)

/-- The stability index of two categorical columns, if any category is known. -/
def psiL (a b : CatCol) : PyDict String (NV (Leaf τ ν)) :=
  if a.counts = [] ∧ b.counts = [] then [] else [("psi", .leaf (.test (T.catPsi a b)))]

theorem catDiff_cases (a b : CatCol) :
    (DividesByZero a b ∧ (catDiff T a b : Except Err (PyDict String (NV (Leaf τ ν)))) = .error .zeroDivision) ∨
    (¬ DividesByZero a b ∧ (catDiff T a b : Except Err (PyDict String (NV (Leaf τ ν)))) =
      .ok (catReport a b (if a.isMatch = true ∧ b.isMatch = true then catL T a b (psiL T a b) else []))) := by
  rw [catDiff_eq]
  by_cases h : a.isMatch = true ∧ b.isMatch = true
  · simp only [if_pos h]
    rcases catPsiEntry_cases (τ := τ) (ν := ν) T a b with ⟨h1, h2, h3⟩ | ⟨h1, h2, h3⟩ | ⟨h1, h2, h2', h3⟩
    · right; rw [h3]; refine ⟨fun hz => ?_, ?_⟩
      · rcases hz.2.2.1 with h | h <;> contradiction
      · simp [psiL, h1, h2, Except.map]
    · left; rw [h3]; exact ⟨⟨h.1, h.2, h1, h2⟩, rfl⟩
    · right; rw [h3]; refine ⟨fun hz => ?_, ?_⟩
      · rcases hz.2.2.2 with h | h <;> contradiction
      · have : ¬ (a.counts = [] ∧ b.counts = []) := by
          rintro ⟨ha, hb⟩; rcases h1 with h | h <;> contradiction
        simp [psiL, this, Except.map]
  · simp only [if_neg h]
    right
    exact ⟨fun hz => h ⟨hz.1, hz.2.1⟩, trivial⟩

/-- The statistics of two categorical columns are shown in every dictionary that has them and nothing else of that kind. -/
theorem catShown_of (a b : CatCol) (st : PyDict String (NV (Leaf τ ν)))
    (h : ∀ k, k ≠ "psi" → k ∈ ["unique_count", "unique_ratio", "gini_impurity", "unalikeability", "categories", "chi2-test",
        "categorical_count"] → PyDict.get? st k = PyDict.get? (catStats a b
      (if a.isMatch = true ∧ b.isMatch = true then catL T a b (psiL T a b) else [])) k) : CatShown T a b st := by
  have hps : (psiL T a b : PyDict String (NV (Leaf τ ν))) = [] ∨
      (psiL T a b : PyDict String (NV (Leaf τ ν))) = [("psi", .leaf (.test (T.catPsi a b)))] := by
    unfold psiL; split <;> simp
  have big : a.isMatch = true → b.isMatch = true → ∀ k, k ≠ "psi" → k ∈ ["unique_count", "unique_ratio", "gini_impurity",
      "unalikeability", "categories", "chi2-test", "categorical_count"] →
      PyDict.get? st k = PyDict.get? (catStats a b (catL T a b [])) k := by
    intro ha hb k hk hm
    rw [h k hk hm, if_pos ⟨ha, hb⟩]
    rcases hps with hp | hp
    · rw [hp]
    · rw [hp]
      have hz : PyDict.get? ([("psi", .leaf (.test (T.catPsi a b)))] : PyDict String (NV (Leaf τ ν))) k = none := by
        rw [PyDict.get?_cons, if_neg (Ne.symm hk)]; rfl
      unfold catStats catL
      simp only [get?_append, hz, PyDict.get?_nil]
  refine ⟨?_, ?_, fun ha hb => ?_, fun ha hb => ?_, fun ha hb => ?_, fun ha hb => ?_, fun ha hb => ?_, fun hn k hk => ?_⟩
  · exact shows_mk (h _ (by decide) (by decide)) (numD_spec _ _)
  · exact shows_mk (h _ (by decide) (by decide)) (numD_spec _ _)
  · exact shows_mk (big ha hb _ (by decide) (by decide)) (numD_spec _ _)
  · exact shows_mk (big ha hb _ (by decide) (by decide)) (numD_spec _ _)
  · exact shows_mk (big ha hb _ (by decide) (by decide)) (diffLists_spec _ _)
  · exact big ha hb _ (by decide) (by decide)
  · refine shows_mk (big ha hb _ (by decide) (by decide)) ?_
    have := numsD_spec ((padded a.counts b.counts).map fun kv => (kv.1, Num.fin kv.2))
      ((padded b.counts a.counts).map fun kv => (kv.1, Num.fin kv.2))
    have e1 : PyDict.get? ((padded a.counts b.counts).map fun kv => (kv.1, Num.fin (kv.2 : ℚ))) = fun k =>
        if k ∈ a.counts.map Prod.fst ∨ k ∈ b.counts.map Prod.fst then some (.fin (countOf a.counts k : ℚ)) else none :=
      funext (padded_get a.counts b.counts)
    have e2 : PyDict.get? ((padded b.counts a.counts).map fun kv => (kv.1, Num.fin (kv.2 : ℚ))) = fun k =>
        if k ∈ a.counts.map Prod.fst ∨ k ∈ b.counts.map Prod.fst then some (.fin (countOf b.counts k : ℚ)) else none := by
      funext k; rw [padded_get b.counts a.counts k]; simp only [or_comm]
    rw [e1, e2] at this
    exact this
  · have hk' : k ≠ "psi" ∧ k ≠ "unique_count" ∧ k ≠ "unique_ratio" := by
      refine ⟨?_, ?_, ?_⟩ <;> (rintro rfl; revert hk; decide)
    rw [h k hk'.1 (by simp only [List.mem_cons] at hk ⊢; tauto), if_neg hn]
    simp [catStats, PyDict.get?_cons, Ne.symm hk'.2.1, Ne.symm hk'.2.2]

end Verif.ProfileDiff
