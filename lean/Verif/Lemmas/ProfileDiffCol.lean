import Verif.Lemmas.ProfileDiff

/-! # Lemmas on differences of columns -/

namespace Verif.ProfileDiff

open Verif Verif.Diffs Verif.Nested

variable {τ ν : Type} (T : Tests τ)

/-! ## Labels -/

/-- The report of two columns of labels. -/
def labelL (x y : LabelCol) : PyDict String (NV (Leaf τ ν)) :=
  [("statistics", .dict [("avg_predictions", .leaf (.diff (numsD x.avgPredictions y.avgPredictions))),
      ("label_representation", .leaf (.diff (numsD x.representation y.representation)))]),
    ("data_label", .leaf (.diff (diffLists x.given y.given)))]

theorem labelDiff_eq (a b : LabelComp) : (labelDiff a b : Except Err (PyDict String (NV (Leaf τ ν)))) =
    match a.labeler, b.labeler with
    | some x, some y => .ok (labelL x y)
    | _, _ => .ok [] := by
  unfold labelDiff
  cases a.labeler <;> cases b.labeler <;> try rfl
  simp only [diffDicts_nums]
  rfl

theorem labelShown_of (x y : LabelCol) (st : PyDict String (NV (Leaf τ ν)))
    (h1 : PyDict.get? st "avg_predictions" = some (.leaf (.diff (numsD x.avgPredictions y.avgPredictions))))
    (h2 : PyDict.get? st "label_representation" = some (.leaf (.diff (numsD x.representation y.representation)))) :
    LabelShown x y st := by
  have e : ∀ d : PyDict String Num, numOf d = PyDict.get? d := fun d => funext (numOf_eq d)
  refine ⟨shows_mk h1 ?_, shows_mk h2 ?_⟩
  · rw [e, e]; exact numsD_spec _ _
  · rw [e, e]; exact numsD_spec _ _

/-- The keys of a label report. -/
structure LabelPart (d : PyDict String (NV (Leaf τ ν))) : Prop extends FlatPart d where
  others : ∀ k, k ∉ ["data_label", "statistics"] → PyDict.get? d k = none

theorem nil_flat : FlatPart ([] : PyDict String (NV (Leaf τ ν))) := by
  refine ⟨⟨PyDict.WF_nil, ?_⟩, ?_, ?_⟩ <;> simp

theorem labelL_part (x y : LabelCol) : LabelPart (labelL x y : PyDict String (NV (Leaf τ ν))) := by
  refine ⟨⟨⟨by simp [PyDict.WF, PyDict.keys, labelL], ?_⟩, ?_, ?_⟩, ?_⟩
  · intro v hv
    simp [labelL, PyDict.get?_cons] at hv
    exact ⟨_, hv.symm, by simp [PyDict.WF, PyDict.keys]⟩
  · intro k v hk hv
    simp [labelL, PyDict.get?_cons, Ne.symm hk] at hv
    exact ⟨_, hv.2.symm⟩
  · intro st h k v hv
    simp [labelL, PyDict.get?_cons] at h
    subst h
    exact flat_of_all (by simp) k v hv
  · intro k hk
    simp at hk
    simp [labelL, PyDict.get?_cons, Ne.symm hk.1, Ne.symm hk.2]

/-- The report of the label compilers. -/
def labelOut (a b : Option LabelComp) : PyDict String (NV (Leaf τ ν)) :=
  match a, b with
  | some ⟨some x⟩, some ⟨some y⟩ => labelL x y
  | _, _ => []

theorem label_comp (a b : Option LabelComp) :
    (compDiff labelDiff a b : Except Err (PyDict String (NV (Leaf τ ν)))) = .ok (labelOut a b) := by
  rcases a with _ | ⟨_ | x⟩ <;> rcases b with _ | ⟨_ | y⟩ <;> try rfl
  rw [compDiff, labelDiff_eq]
  rfl

theorem labelOut_part (a b : Option LabelComp) : LabelPart (labelOut a b : PyDict String (NV (Leaf τ ν))) := by
  rcases a with _ | ⟨_ | x⟩ <;> rcases b with _ | ⟨_ | y⟩ <;>
    first | exact labelL_part _ _ | exact ⟨nil_flat, by simp [labelOut]⟩

/-! ## Order and categories -/

/-- Both columns have a categorical profile. -/
def bothCat (a b : Option StatComp) : Option (CatCol × CatCol) :=
  match a, b with
  | some ⟨_, some x⟩, some ⟨_, some y⟩ => some (x, y)
  | _, _ => none

/-- Both columns have an order. -/
def bothOrder (a b : Option StatComp) : Option (Option String × Option String) :=
  match a, b with
  | some ⟨some x, _⟩, some ⟨some y, _⟩ => some (x, y)
  | _, _ => none

/-- The order report of the statistics compilers. -/
def orderOut (a b : Option StatComp) : PyDict String (NV (Leaf τ ν)) :=
  match bothOrder a b with
  | some (x, y) => orderDiff x y
  | none => []

/-- The categorical report of the statistics compilers. -/
def catOut (a b : Option StatComp) : PyDict String (NV (Leaf τ ν)) :=
  match bothCat a b with
  | some (x, y) => catReport x y (if x.isMatch = true ∧ y.isMatch = true then catL T x y (psiL T x y) else [])
  | none => []

/-- Comparing the categorical profiles divides by zero. -/
def ZeroCat (a b : Option StatComp) : Prop := ∃ x y, bothCat a b = some (x, y) ∧ DividesByZero x y

theorem stat_comp (a b : Option StatComp) :
    (ZeroCat a b ∧ (compDiff (statDiff T) a b : Except Err (PyDict String (NV (Leaf τ ν)))) = .error .zeroDivision) ∨
    (¬ ZeroCat a b ∧ (compDiff (statDiff T) a b : Except Err (PyDict String (NV (Leaf τ ν)))) =
      .ok (orderOut a b ++ catOut T a b)) := by
  rcases a with _ | ⟨oa, _ | x⟩
  · right; exact ⟨(by rintro ⟨x, y, h, _⟩; cases h), rfl⟩
  · right
    refine ⟨?_, ?_⟩
    · rintro ⟨x, y, h, _⟩; cases b <;> cases h
    · rcases b with _ | ⟨ob, _ | y⟩ <;> cases oa <;> (try cases ob) <;> rfl
  · rcases b with _ | ⟨ob, _ | y⟩
    · right; exact ⟨(by rintro ⟨x, y, h, _⟩; cases h), by cases oa <;> rfl⟩
    · right; exact ⟨(by rintro ⟨x, y, h, _⟩; cases h), by cases oa <;> cases ob <;> rfl⟩
    · have hz : ZeroCat (some ⟨oa, some x⟩) (some ⟨ob, some y⟩) ↔ DividesByZero x y := by
        constructor
        · rintro ⟨x', y', h, hd⟩; cases h; exact hd
        · intro h; exact ⟨x, y, rfl, h⟩
      rcases catDiff_cases (τ := τ) (ν := ν) T x y with ⟨h1, h2⟩ | ⟨h1, h2⟩
      · left
        refine ⟨hz.2 h1, ?_⟩
        show Except.bind (catDiff T x y) _ = _
        rw [h2]; rfl
      · right
        refine ⟨fun h => h1 (hz.1 h), ?_⟩
        show Except.bind (catDiff T x y) _ = _
        rw [h2]
        cases oa <;> cases ob <;> rfl

theorem psiL_cases (x y : CatCol) : (psiL T x y : PyDict String (NV (Leaf τ ν))) = [] ∨
    (psiL T x y : PyDict String (NV (Leaf τ ν))) = [("psi", .leaf (.test (T.catPsi x y)))] := by
  unfold psiL; split <;> simp

theorem statOut_part (a b : Option StatComp) :
    StatPart (orderOut a b ++ catOut T a b : PyDict String (NV (Leaf τ ν))) := by
  refine stat_part _ ?_ _ ?_
  · unfold orderOut
    cases bothOrder a b with
    | none => exact Or.inl rfl
    | some p => exact Or.inr ⟨_, rfl⟩
  · unfold catOut
    cases bothCat a b with
    | none => exact Or.inl rfl
    | some p =>
      obtain ⟨x, y⟩ := p
      right
      refine ⟨_, _, rfl, ?_, ?_⟩
      · split
        · rcases psiL_cases (ν := ν) T x y with h | h
          · rw [h]; exact catStats_wf T x y _ (.leaf .none) (Or.inl rfl)
          · rw [h]; exact catStats_wf T x y _ _ (Or.inr rfl)
        · simp [PyDict.WF, PyDict.keys, catStats]
      · split
        · exact catStats_flat T x y _ _ (psiL_cases T x y)
        · simp [catStats]

/-! ## Types -/

theorem fits_iff {A : Type} (o : Option (Prim A)) : fits o = true ↔ ∃ p, o = some p ∧ p.ratio = some (.fin 1) := by
  cases o <;> simp [fits]

theorem fits_false {A : Type} {o : Option (Prim A)} : ¬ fits o = true → ∀ p, o = some p → p.ratio ≠ some (.fin 1) := by
  intro h p hp hr; exact h ((fits_iff o).2 ⟨p, hp, hr⟩)

theorem selected_spec (c : TypeComp) : Selects c c.selected := by
  unfold TypeComp.selected
  split
  · rename_i h; exact (fits_iff _).1 h
  · rename_i h1
    split
    · rename_i h; exact ⟨fits_false h1, (fits_iff _).1 h⟩
    · rename_i h2
      split
      · rename_i h; exact ⟨fits_false h1, fits_false h2, (fits_iff _).1 h⟩
      · rename_i h3
        split
        · rename_i h; exact ⟨fits_false h1, fits_false h2, fits_false h3, (fits_iff _).1 h⟩
        · rename_i h; exact ⟨fits_false h1, fits_false h2, fits_false h3, fits_false h⟩

theorem selects_iff (c : TypeComp) (o : Option String) : Selects c o ↔ c.selected = o := by
  constructor
  · intro h
    have nf : ∀ {A : Type} {o : Option (Prim A)}, (∀ p, o = some p → p.ratio ≠ some (.fin 1)) → fits o = false := by
      intro A o h
      rw [Bool.eq_false_iff]
      intro hf
      obtain ⟨p, hp, hr⟩ := (fits_iff o).1 hf
      exact h p hp hr
    unfold Selects at h
    unfold TypeComp.selected
    split at h
    · rw [if_pos ((fits_iff _).2 h)]
    · rw [nf h.1, (fits_iff _).2 h.2]; rfl
    · rw [nf h.1, nf h.2.1, (fits_iff _).2 h.2.2]; rfl
    · rw [nf h.1, nf h.2.1, nf h.2.2.1, (fits_iff _).2 h.2.2.2]; rfl
    · exact h.elim
    · rw [nf h.1, nf h.2.1, nf h.2.2.1, nf h.2.2.2]; rfl
  · rintro rfl; exact selected_spec c

/-- The difference of two ratios, nothing if the type is missing from both. -/
def ratioL {A : Type} (key : String) (a b : Option (Prim A)) : PyDict String (NV (Leaf τ ν)) :=
  match a, b with
  | none, none => []
  | a, b => [(key, .leaf (.diff (match a, b with
      | some p, some q => numD p.ratio q.ratio
      | some p, none => .pair ((p.ratio.map PV.num).getD .none) .none
      | none, some q => .pair .none ((q.ratio.map PV.num).getD .none)
      | none, none => .unchanged)))]

theorem ratioDiff_eq {A : Type} (key : String) (a b : Option (Prim A)) :
    (ratioDiff key a b : Except Err (PyDict String (NV (Leaf τ ν)))) = .ok (ratioL key a b) := by
  cases a <;> cases b <;> try rfl
  simp only [ratioDiff, numLeaf_eq]
  rfl

/-- The differences of all ratios. -/
def reprL (a b : TypeComp) : PyDict String (NV (Leaf τ ν)) :=
  ratioL "datetime" a.datetime b.datetime ++ ratioL "int" a.int b.int ++ ratioL "float" a.float b.float ++
    ratioL "text" a.text b.text

theorem reprDiff_eq (a b : TypeComp) : (reprDiff a b : Except Err (PyDict String (NV (Leaf τ ν)))) = .ok (reprL a b) := by
  unfold reprDiff
  simp only [ratioDiff_eq]
  rfl

theorem ratioL_get {A : Type} (key : String) (a b : Option (Prim A)) (k : String) (hk : key ≠ k) :
    PyDict.get? (ratioL key a b : PyDict String (NV (Leaf τ ν))) k = none := by
  cases a <;> cases b <;> simp [ratioL, PyDict.get?_cons, hk]

theorem primDiff_ok (a b : TypeComp) (ty : String) (ha : a.selected = some ty) (hb : b.selected = some ty) :
    ∃ st, (primDiff T a b ty : Except Err (PyDict String (NV (Leaf τ ν)))) = .ok st ∧ PyDict.WF st ∧
      (∀ v, PyDict.get? st "psi" = some v → ∃ x, v = .leaf x) ∧
      (ty = "datetime" → ∃ p q, a.datetime = some p ∧ b.datetime = some q ∧ st = dateDiff p.col q.col) ∧
      (ty = "int" → ∃ p q, a.int = some p ∧ b.int = some q ∧
        st = numL T p.col q.col ++ [("psi", .leaf (.test (T.numPsi p.col q.col)))]) ∧
      (ty = "float" → ∃ p q, a.float = some p ∧ b.float = some q ∧ st = numL T p.col.num q.col.num ++
        [("psi", .leaf (.test (T.numPsi p.col.num q.col.num))), ("precision", .dict (precL p.col q.col))]) ∧
      (ty = "text" → ∃ p q, a.text = some p ∧ b.text = some q ∧ st = numL T p.col.num q.col.num ++
        [("vocab", .leaf (.diff (diffLists p.col.vocab q.col.vocab)))]) := by
  have ha' := selected_spec a
  have hb' := selected_spec b
  rw [ha] at ha'
  rw [hb] at hb'
  unfold Selects at ha' hb'
  split at ha'
  · rename_i h; cases h
    obtain ⟨p, hp, _⟩ := ha'
    obtain ⟨q, hq, _⟩ := hb'
    refine ⟨dateDiff p.col q.col, ?_, ?_, ?_, fun _ => ⟨p, q, hp, hq, rfl⟩, ?_, ?_, ?_⟩
    · simp [primDiff, hp, hq]
    · simp [PyDict.WF, PyDict.keys, dateDiff]
    · intro v hv; simp [dateDiff, PyDict.get?_cons] at hv
    all_goals simp
  · rename_i h; cases h
    obtain ⟨_, p, hp, _⟩ := ha'
    obtain ⟨_, q, hq, _⟩ := hb'
    refine ⟨_, ?_, ?_, ?_, ?_, fun _ => ⟨p, q, hp, hq, rfl⟩, ?_, ?_⟩
    · simp [primDiff, hp, hq, numDiff_eq]
    · simp [PyDict.WF, PyDict.keys, numL]
    · intro v hv; simp [numL, PyDict.get?_cons] at hv; exact ⟨_, hv.symm⟩
    all_goals simp
  · rename_i h; cases h
    obtain ⟨_, _, p, hp, _⟩ := ha'
    obtain ⟨_, _, q, hq, _⟩ := hb'
    refine ⟨_, ?_, ?_, ?_, ?_, ?_, fun _ => ⟨p, q, hp, hq, rfl⟩, ?_⟩
    · simp [primDiff, hp, hq, floatDiff_eq]
    · simp [PyDict.WF, PyDict.keys, numL]
    · intro v hv; simp [numL, PyDict.get?_cons] at hv; exact ⟨_, hv.symm⟩
    all_goals simp
  · rename_i h; cases h
    obtain ⟨_, _, _, p, hp, _⟩ := ha'
    obtain ⟨_, _, _, q, hq, _⟩ := hb'
    refine ⟨_, ?_, ?_, ?_, ?_, ?_, ?_, fun _ => ⟨p, q, hp, hq, rfl⟩⟩
    · simp [primDiff, hp, hq, textDiff_eq]
    · simp [PyDict.WF, PyDict.keys, numL]
    · intro v hv; simp [numL, PyDict.get?_cons] at hv
    all_goals simp
  · exact ha'.elim
  · rename_i h; cases h

/-- What the comparison of two type compilers reports. -/
structure TypeOut (a b : TypeComp) (t : PyDict String (NV (Leaf τ ν))) : Prop extends Part t where
  same : ∀ ty, a.selected = some ty → b.selected = some ty →
    PyDict.get? t "data_type" = some (.leaf (.diff .unchanged)) ∧
    ∃ st, PyDict.get? t "statistics" = some (.dict st) ∧ primDiff T a b ty = .ok st
  differ : a.selected ≠ b.selected → PyDict.get? t "statistics" = none ∧
    PyDict.get? t "data_type" = some (.leaf (.diff (diffStrings a.selected b.selected)))
  neither : a.selected = none → b.selected = none → PyDict.get? t "statistics" = none ∧ PyDict.get? t "data_type" = none
  repr : PyDict.get? t "data_type_representation" =
    if (reprL a b : PyDict String (NV (Leaf τ ν))) = [] then none else some (.dict (reprL a b))
  others : ∀ k, k ∉ ["data_type", "statistics", "data_type_representation"] → PyDict.get? t k = none

theorem reprPart_get (rep : PyDict String (NV (Leaf τ ν))) (k : String) (hk : k ≠ "data_type_representation") :
    PyDict.get? (if rep.isEmpty then [] else [("data_type_representation", NV.dict rep)] : PyDict String (NV (Leaf τ ν))) k =
      none := by
  split
  · rfl
  · simp [PyDict.get?_cons, Ne.symm hk]

theorem reprPart_rep (rep : PyDict String (NV (Leaf τ ν))) :
    PyDict.get? (if rep.isEmpty then [] else [("data_type_representation", NV.dict rep)] : PyDict String (NV (Leaf τ ν)))
      "data_type_representation" = if rep = [] then none else some (.dict rep) := by
  cases rep <;> simp [PyDict.get?_cons]

theorem typeDiff_ok (a b : TypeComp) :
    ∃ t, (typeDiff T a b : Except Err (PyDict String (NV (Leaf τ ν)))) = .ok t ∧ TypeOut T a b t := by
  unfold typeDiff
  rw [reprDiff_eq]
  generalize hrep : (reprL a b : PyDict String (NV (Leaf τ ν))) = rep
  have key : ∀ sel : PyDict String (NV (Leaf τ ν)), (selectedDiff T a b) = .ok sel →
      (do let rep ← (Except.ok rep : Except Err _); let sel ← selectedDiff T a b
          Except.ok ((if rep.isEmpty then [] else [("data_type_representation", NV.dict rep)]) ++ sel)) =
        (Except.ok ((if rep.isEmpty then [] else [("data_type_representation", NV.dict rep)]) ++ sel) : Except Err _) := by
    intro sel h; rw [h]; rfl
  have wf : ∀ sel : PyDict String (NV (Leaf τ ν)), PyDict.WF sel → "data_type_representation" ∉ PyDict.keys sel →
      PyDict.WF ((if rep.isEmpty then [] else [("data_type_representation", NV.dict rep)]) ++ sel) := by
    intro sel h hn
    split
    · exact h
    · exact List.nodup_cons.2 ⟨hn, h⟩
  by_cases hs : a.selected = b.selected
  · cases h : b.selected with
    | none =>
      rw [h] at hs
      have hsel : (selectedDiff T a b : Except Err (PyDict String (NV (Leaf τ ν)))) = .ok [] := by
        unfold selectedDiff; rw [h, hs]
      refine ⟨_, key _ hsel, ⟨⟨wf _ PyDict.WF_nil (by simp [PyDict.keys]), ?_⟩, ?_, ?_, ?_, ?_, ?_⟩⟩
      · intro v hv; rw [get?_append, reprPart_get _ _ (by decide)] at hv; simp at hv
      · intro ty h1; rw [hs] at h1; cases h1
      · intro hne; rw [hs, h] at hne; exact absurd rfl hne
      · intro _ _
        rw [get?_append, reprPart_get _ _ (by decide), get?_append, reprPart_get _ _ (by decide)]; simp
      · rw [get?_append, reprPart_rep, hrep]; simp
      · intro k hk
        simp at hk
        rw [get?_append, reprPart_get _ _ hk.2.2]; simp
    | some ty =>
      rw [h] at hs
      obtain ⟨st, hst, hwf, -⟩ := primDiff_ok (τ := τ) (ν := ν) T a b ty hs h
      have hsel : (selectedDiff T a b : Except Err (PyDict String (NV (Leaf τ ν)))) =
          .ok [("data_type", .leaf (.diff .unchanged)), ("statistics", .dict st)] := by
        unfold selectedDiff
        rw [h, hs]
        simp only [if_true, Option.getD_some]
        rw [hst]; rfl
      refine ⟨_, key _ hsel, ⟨⟨wf _ (by simp [PyDict.WF, PyDict.keys]) (by simp [PyDict.keys]), ?_⟩, ?_, ?_, ?_, ?_, ?_⟩⟩
      · intro v hv; rw [get?_append, reprPart_get _ _ (by decide)] at hv
        simp [PyDict.get?_cons] at hv
        exact ⟨st, hv.symm, hwf⟩
      · intro ty' h1 _
        rw [hs] at h1; cases h1
        rw [get?_append, reprPart_get _ _ (by decide), get?_append, reprPart_get _ _ (by decide)]
        exact ⟨rfl, st, rfl, hst⟩
      · intro hne; rw [hs, h] at hne; exact absurd rfl hne
      · intro h1; rw [hs] at h1; cases h1
      · rw [get?_append, reprPart_rep, hrep]
        simp [PyDict.get?_cons]
      · intro k hk
        simp at hk
        rw [get?_append, reprPart_get _ _ hk.2.2]
        simp [PyDict.get?_cons, Ne.symm hk.1, Ne.symm hk.2.1]
  · have hsel : (selectedDiff T a b : Except Err (PyDict String (NV (Leaf τ ν)))) =
        .ok [("data_type", .leaf (.diff (diffStrings a.selected b.selected)))] := by
      unfold selectedDiff
      split
      · rename_i h1 h2; rw [h1, h2] at hs; exact absurd rfl hs
      · rw [if_neg hs]
    refine ⟨_, key _ hsel, ⟨⟨wf _ (by simp [PyDict.WF, PyDict.keys]) (by simp [PyDict.keys]), ?_⟩, ?_, ?_, ?_, ?_, ?_⟩⟩
    · intro v hv; rw [get?_append, reprPart_get _ _ (by decide)] at hv
      simp [PyDict.get?_cons] at hv
    · intro ty h1 h2; rw [h1, h2] at hs; exact absurd rfl hs
    · intro _
      rw [get?_append, reprPart_get _ _ (by decide), get?_append, reprPart_get _ _ (by decide)]
      exact ⟨rfl, rfl⟩
    · intro h1 h2; rw [h1, h2] at hs; exact absurd rfl hs
    · rw [get?_append, reprPart_rep, hrep]; simp [PyDict.get?_cons]
    · intro k hk
      simp at hk
      rw [get?_append, reprPart_get _ _ hk.2.2]
      simp [PyDict.get?_cons, Ne.symm hk.1]

/-! ## Columns -/

theorem repr_of_data_type {a b : TypeComp} {t : PyDict String (NV (Leaf τ ν))} (h : TypeOut T a b t)
    (hd : PyDict.get? t "data_type" ≠ none) :
    PyDict.get? t "data_type_representation" = some (.dict (reprL a b)) := by
  rw [h.repr, if_neg]
  intro he
  have hn : ∀ c : TypeComp, c.datetime = none → c.int = none → c.float = none → c.text = none → c.selected = none := by
    intro c h1 h2 h3 h4; simp [TypeComp.selected, h1, h2, h3, h4, fits]
  have hr : ∀ {A : Type} (key : String) (x y : Option (Prim A)), (ratioL key x y : PyDict String (NV (Leaf τ ν))) = [] →
      x = none ∧ y = none := by
    intro A key x y hxy; cases x <;> cases y <;> simp_all [ratioL]
  unfold reprL at he
  simp only [List.append_eq_nil_iff] at he
  obtain ⟨⟨⟨h1, h2⟩, h3⟩, h4⟩ := he
  have h1 := hr _ _ _ h1
  have h2 := hr _ _ _ h2
  have h3 := hr _ _ _ h3
  have h4 := hr _ _ _ h4
  exact hd (h.neither (hn a h1.1 h2.1 h3.1 h4.1) (hn b h1.2 h2.2 h3.2 h4.2)).2

/-- The report of two type compilers, if both exist. -/
def TypesOut (a b : Option TypeComp) (t : PyDict String (NV (Leaf τ ν))) : Prop :=
  match a, b with
  | some x, some y => TypeOut T x y t
  | _, _ => t = []

theorem types_comp (a b : Option TypeComp) :
    ∃ t, (compDiff (typeDiff T) a b : Except Err (PyDict String (NV (Leaf τ ν)))) = .ok t ∧ TypesOut T a b t := by
  rcases a with _ | a <;> rcases b with _ | b
  · exact ⟨[], rfl, rfl⟩
  · exact ⟨[], rfl, rfl⟩
  · exact ⟨[], rfl, rfl⟩
  · exact typeDiff_ok T a b

theorem typesOut_part {a b : Option TypeComp} {t : PyDict String (NV (Leaf τ ν))} (h : TypesOut T a b t) : Part t := by
  rcases a with _ | a <;> rcases b with _ | b
  · cases h; exact nil_flat.toPart
  · cases h; exact nil_flat.toPart
  · cases h; exact nil_flat.toPart
  · exact TypeOut.toPart h

theorem typesOut_repr {a b : Option TypeComp} {t : PyDict String (NV (Leaf τ ν))} (h : TypesOut T a b t)
    (hd : PyDict.get? t "data_type" ≠ none) : ∃ rep, PyDict.get? t "data_type_representation" = some rep := by
  rcases a with _ | a <;> rcases b with _ | b
  · cases h; simp at hd
  · cases h; simp at hd
  · cases h; simp at hd
  · exact ⟨_, repr_of_data_type T h hd⟩

theorem typesOut_others {a b : Option TypeComp} {t : PyDict String (NV (Leaf τ ν))} (h : TypesOut T a b t) (k : String)
    (hk : k ∉ ["data_type", "statistics", "data_type_representation"]) : PyDict.get? t k = none := by
  rcases a with _ | a <;> rcases b with _ | b
  · cases h; rfl
  · cases h; rfl
  · cases h; rfl
  · exact TypeOut.others h k hk

/-- The entries of the column itself. -/
def ownL (a b : Col ν) : PyDict String (NV (Leaf τ ν)) :=
  [("sample_size", .leaf (.diff (numD (some (.fin a.sampleSize)) (some (.fin b.sampleSize))))),
   ("null_count", .leaf (.diff (numD (some (.fin a.nullCount)) (some (.fin b.nullCount))))),
   ("null_ratio", .leaf (.diff (numD a.nullRatio b.nullRatio))),
   ("null_types", .leaf (.diff (diffLists (some a.nullTypes) (some b.nullTypes)))),
   ("null_types_index", .leaf (.rows (rowsDiff a.nullRows b.nullRows)))]

theorem ownStats_eq (a b : Col ν) : (ownStats a b : Except Err (PyDict String (NV (Leaf τ ν)))) = .ok (ownL a b) := by
  unfold ownStats
  simp only [numLeaf_eq, natLeaf_eq]
  rfl

theorem ownL_wf (a b : Col ν) : PyDict.WF (ownL a b : PyDict String (NV (Leaf τ ν))) := by
  simp [PyDict.WF, PyDict.keys, ownL]

/-- The keys of a column's report. -/
def keysOf (a b : Col ν) : List String :=
  if a.label.isSome && b.label.isSome then
    ["column_name", "data_type", "data_label", "categorical", "order", "statistics"]
  else ["column_name", "data_type", "categorical", "order", "statistics"]

theorem pick_get (u : PyDict String (NV (Leaf τ ν))) (ks : List String) (k : String) :
    PyDict.get? (ks.map (pick u)) k = if k ∈ ks then some ((PyDict.get? u k).getD (.leaf .none)) else none := by
  induction ks with
  | nil => simp
  | cons k' ks ih =>
    rw [List.map_cons, pick, PyDict.get?_cons, ih]
    by_cases h : k' = k
    · subst h; simp
    · simp [h, Ne.symm h]

/-- The report of a column in terms of the reports of its compilers. -/
structure Out (a b : Col ν) (t s l r : PyDict String (NV (Leaf τ ν))) : Prop where
  keys : r.map Prod.fst = keysOf a b
  name : PyDict.get? r "column_name" = some (.leaf (.name a.name))
  type : PyDict.get? r "data_type" = some ((PyDict.get? t "data_type").getD (.leaf .none))
  label : PyDict.get? r "data_label" =
    if a.label.isSome && b.label.isSome then some ((PyDict.get? l "data_label").getD (.leaf .none)) else none
  categorical : PyDict.get? r "categorical" = some ((PyDict.get? s "categorical").getD (.leaf .none))
  order : PyDict.get? r "order" = some ((PyDict.get? s "order").getD (.leaf .none))
  statistics : ∃ st, PyDict.get? r "statistics" = some (.dict st) ∧ ∀ k, PyDict.get? st k =
    if k = "data_type_representation" ∧ PyDict.get? t "data_type" ≠ none then PyDict.get? t "data_type_representation"
    else (PyDict.get? (ownL a b) k).or ((look l k).or ((look s k).or (look t k)))

theorem colDiff_form (a b : Col ν) :
    (ZeroCat a.stats b.stats ∧ colDiff T a b = .error .zeroDivision) ∨
    (¬ ZeroCat a.stats b.stats ∧ ∃ t, TypesOut T a.types b.types t ∧
      (PyDict.get? t "statistics" = none ∧ PyDict.get? (orderOut a.stats b.stats ++ catOut T a.stats b.stats : PyDict String (NV (Leaf τ ν))) "statistics" = none ∧
        PyDict.get? (labelOut a.label b.label : PyDict String (NV (Leaf τ ν))) "statistics" = none ∧
        colDiff T a b = .error .keyError ∨
       ¬ (PyDict.get? t "statistics" = none ∧ PyDict.get? (orderOut a.stats b.stats ++ catOut T a.stats b.stats : PyDict String (NV (Leaf τ ν))) "statistics" = none ∧
        PyDict.get? (labelOut a.label b.label : PyDict String (NV (Leaf τ ν))) "statistics" = none) ∧
        ∃ r, colDiff T a b = .ok r ∧ Out a b t (orderOut a.stats b.stats ++ catOut T a.stats b.stats)
          (labelOut a.label b.label) r)) := by
  obtain ⟨t, ht, hto⟩ := types_comp (τ := τ) (ν := ν) T a.types b.types
  have hl := label_comp (τ := τ) (ν := ν) a.label b.label
  rcases stat_comp (τ := τ) (ν := ν) T a.stats b.stats with ⟨hz, hs⟩ | ⟨hz, hs⟩
  · left
    refine ⟨hz, ?_⟩
    unfold colDiff compilers
    rw [ht, hs]
    rfl
  · right
    refine ⟨hz, t, hto, ?_⟩
    have tp := typesOut_part T hto
    have sp := statOut_part (τ := τ) (ν := ν) T a.stats b.stats
    have lp := labelOut_part (τ := τ) (ν := ν) a.label b.label
    generalize hsd : (orderOut a.stats b.stats ++ catOut T a.stats b.stats : PyDict String (NV (Leaf τ ν))) = s at *
    generalize hld : (labelOut a.label b.label : PyDict String (NV (Leaf τ ν))) = l at *
    have hu : compilers T a b = .ok (updItems (updItems (updItems [] t) s) l) := by
      unfold compilers
      rw [ht, hs, hl]
      rfl
    generalize hud : updItems (updItems (updItems [] t) s) l = u at hu
    have p1 : Part (updItems [] t) := by
      refine ⟨keys_upd _ _ PyDict.WF_nil, fun v hv => ?_⟩
      rw [updItems_get t [] tp.wf] at hv
      cases h : PyDict.get? t "statistics" with
      | none => rw [h] at hv; simp at hv
      | some w =>
        rw [h] at hv
        obtain ⟨st, rfl, hst⟩ := tp.stats w h
        simp [merge1] at hv
        exact ⟨st, hv.symm, hst⟩
    have g1 : ∀ k, PyDict.get? (updItems [] t) k = PyDict.get? t k := by
      intro k
      rw [updItems_get t [] tp.wf]
      cases h : PyDict.get? t k with
      | none => rfl
      | some w => cases w <;> rfl
    have p2 := upd_part p1 sp.toFlatPart
    have pu : Part u := hud ▸ upd_part p2 lp.toFlatPart
    have lu : ∀ k, look u k = (look l k).or ((look s k).or (look t k)) := by
      intro k
      rw [← hud, upd_look p2 lp.toFlatPart, upd_look p1 sp.toFlatPart]
      have : look (updItems [] t) k = look t k := by unfold look; rw [g1]
      rw [this]
    have gu : ∀ k, k ≠ "statistics" → PyDict.get? u k = (PyDict.get? l k).or ((PyDict.get? s k).or (PyDict.get? t k)) := by
      intro k hk
      rw [← hud, upd_get lp.toFlatPart k hk, upd_get sp.toFlatPart k hk, g1]
    have nu : PyDict.get? u "statistics" = none ↔
        PyDict.get? l "statistics" = none ∧ PyDict.get? s "statistics" = none ∧ PyDict.get? t "statistics" = none := by
      rw [← hud, upd_none lp.wf, upd_none sp.wf, g1]
    have gt : ∀ k ∈ ["data_type", "data_type_representation"], PyDict.get? u k = PyDict.get? t k := by
      intro k hk
      have hk' : k ≠ "statistics" ∧ k ≠ "data_label" ∧ k ≠ "order" ∧ k ≠ "categorical" := by
        refine ⟨?_, ?_, ?_, ?_⟩ <;> (rintro rfl; revert hk; decide)
      rw [gu k hk'.1, lp.others k (by simp [hk'.1, hk'.2.1]), sp.others k (by simp [hk'.1, hk'.2.2])]
      simp
    have gs : ∀ k ∈ ["order", "categorical"], PyDict.get? u k = PyDict.get? s k := by
      intro k hk
      have hk' : k ≠ "statistics" ∧ k ≠ "data_label" ∧ k ≠ "data_type" ∧ k ≠ "data_type_representation" := by
        refine ⟨?_, ?_, ?_, ?_⟩ <;> (rintro rfl; revert hk; decide)
      rw [gu k hk'.1, lp.others k (by simp [hk'.1, hk'.2.1]), typesOut_others T hto k (by simp [hk'.1, hk'.2.2])]
      simp
    have gl : PyDict.get? u "data_label" = PyDict.get? l "data_label" := by
      rw [gu _ (by decide), sp.others _ (by decide), typesOut_others T hto _ (by decide)]
      simp
    have hc : colDiff T a b = (do
        let st ← statistics (PyDict.set u "column_name" (.leaf (.name a.name))) (ownL a b)
        Except.ok ((keysOf a b).map (pick (PyDict.set (PyDict.set u "column_name" (.leaf (.name a.name))) "statistics" (.dict st))))) := by
      unfold colDiff
      rw [hu, ownStats_eq]
      rfl
    cases hst : PyDict.get? u "statistics" with
    | none =>
      left
      obtain ⟨h1, h2, h3⟩ := nu.1 hst
      refine ⟨h3, h2, h1, ?_⟩
      rw [hc]
      have : statistics (PyDict.set u "column_name" (.leaf (.name a.name))) (ownL a b) = .error .keyError := by
        unfold statistics
        rw [PyDict.get?_set, if_neg (by decide), hst]
      rw [this]
      rfl
    | some w =>
      right
      obtain ⟨st, rfl, hwf⟩ := pu.stats w hst
      refine ⟨fun h => ?_, ?_⟩
      · rw [nu.2 ⟨h.2.2, h.2.1, h.1⟩] at hst; cases hst
      have lst : ∀ k, PyDict.get? st k = (look l k).or ((look s k).or (look t k)) := by
        intro k
        rw [← lu k]; unfold look; rw [hst]
      have hstat : ∃ st', statistics (PyDict.set u "column_name" (.leaf (.name a.name))) (ownL a b) = .ok st' ∧
          ∀ k, PyDict.get? st' k = if k = "data_type_representation" ∧ PyDict.get? t "data_type" ≠ none then
              PyDict.get? t "data_type_representation"
            else (PyDict.get? (ownL a b) k).or ((look l k).or ((look s k).or (look t k))) := by
        unfold statistics
        rw [PyDict.get?_set, if_neg (by decide), hst]
        simp only
        rw [PyDict.get?_set, if_neg (by decide), gt _ (by decide)]
        cases hd : PyDict.get? t "data_type" with
        | none =>
          refine ⟨_, rfl, fun k => ?_⟩
          rw [update_get _ _ (ownL_wf a b), lst]
          simp
        | some d =>
          obtain ⟨rep, hrep⟩ := typesOut_repr T hto (by rw [hd]; simp)
          simp only
          rw [PyDict.get?_set, if_neg (by decide), gt _ (by decide), hrep]
          refine ⟨_, rfl, fun k => ?_⟩
          rw [PyDict.get?_set, update_get _ _ (ownL_wf a b), lst]
          by_cases hk : k = "data_type_representation"
          · subst hk; simp
          · simp [hk, Ne.symm hk]
      obtain ⟨st', hst', hget⟩ := hstat
      refine ⟨_, by rw [hc, hst']; rfl, ?_⟩
      have hin : ∀ k ∈ ["column_name", "data_type", "categorical", "order", "statistics"], k ∈ keysOf a b := by
        intro k hk; unfold keysOf; split
        · simp at hk ⊢; tauto
        · exact hk
      constructor
      · rw [List.map_map]
        have : (Prod.fst ∘ pick (PyDict.set (PyDict.set u "column_name" (.leaf (.name a.name))) "statistics" (.dict st'))) = id := by
          funext k; rfl
        rw [this, List.map_id]
      · rw [pick_get, if_pos (hin _ (by decide)), PyDict.get?_set, if_neg (by decide), PyDict.get?_set, if_pos rfl]; rfl
      · rw [pick_get, if_pos (hin _ (by decide)), PyDict.get?_set, if_neg (by decide), PyDict.get?_set, if_neg (by decide),
          gt _ (by decide)]
      · have e : PyDict.get? (PyDict.set (PyDict.set u "column_name" (.leaf (.name a.name))) "statistics" (.dict st'))
            "data_label" = PyDict.get? l "data_label" := by
          rw [PyDict.get?_set, if_neg (by decide), PyDict.get?_set, if_neg (by decide), gl]
        rw [pick_get, e]
        unfold keysOf
        split <;> simp
      · rw [pick_get, if_pos (hin _ (by decide)), PyDict.get?_set, if_neg (by decide), PyDict.get?_set, if_neg (by decide),
          gs _ (by decide)]
      · rw [pick_get, if_pos (hin _ (by decide)), PyDict.get?_set, if_neg (by decide), PyDict.get?_set, if_neg (by decide),
          gs _ (by decide)]
      · exact ⟨st', by rw [pick_get, if_pos (hin _ (by decide)), PyDict.get?_set, if_pos rfl]; rfl, hget⟩

end Verif.ProfileDiff
