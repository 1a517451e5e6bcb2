import Verif.Lemmas.OptionsSet

/-!
# C34: setting options
-/

namespace Verif.Props.OptionsSet

open Verif Verif.Options Verif.Spec.Options Verif.Lemmas.OptionsSet

/-! ### Options created by the library have flags -/

/-- Whether an attribute is an object without a flag. -/
def lacksFlag : Option Opt → Bool
  | some (.obj _ fields) =>
    match PyDict.get? fields "is_enabled" with
    | some (.val _) => false
    | _ => true
  | _ => false

mutual
/-- A check of `Flagged`. -/
def check : Opt → Bool
  | .val _ => true
  | .obj cls fields => (switched cls).all (fun n => !lacksFlag (PyDict.get? fields n)) && checkAll fields

/-- A check of `Flagged` for attributes. -/
def checkAll : Fields → Bool
  | [] => true
  | (_, o) :: rest => check o && checkAll rest
end

theorem checkAll_get {fields : Fields} (h : checkAll fields = true) {m : String} {o : Opt}
    (hm : PyDict.get? fields m = some o) : check o = true := by
  induction fields with
  | nil => cases hm
  | cons kv rest ih =>
    obtain ⟨k, o'⟩ := kv
    rw [checkAll, Bool.and_eq_true] at h
    rw [PyDict.get?_cons] at hm
    split_ifs at hm with hk
    · cases hm; exact h.1
    · exact ih h.2 hm

theorem flagged_of_check (o : Opt) (h : check o = true) : Flagged o := by
  intro position
  induction position generalizing o with
  | nil =>
    intro cls n c h1 h2 h3 h4
    obtain ⟨fields, rfl⟩ := kind_obj h1
    rw [check, Bool.and_eq_true, List.all_eq_true] at h
    have := h.1 n ((switched_iff h2 n).2 h3)
    change kindAt (.obj cls fields) [n, "is_enabled"] = _
    change kindAt (.obj cls fields) [n] = _ at h4
    rw [kindAt_cons] at h4 ⊢
    cases hg : PyDict.get? fields n with
    | none => rw [hg] at h4; cases h4
    | some og =>
      rw [hg] at h4 this
      obtain ⟨fs, rfl⟩ := kind_obj h4
      change kindAt (.obj c fs) ["is_enabled"] = _
      rw [kindAt_cons]
      simp only [lacksFlag] at this
      cases hg2 : PyDict.get? fs "is_enabled" with
      | none => rw [hg2] at this; cases this
      | some o2 =>
        cases o2 with
        | val x => rfl
        | obj c2 fs2 => rw [hg2] at this; cases this
  | cons m pos ih =>
    intro cls n c h1 h2 h3 h4
    cases o with
    | val x => cases h1
    | obj cls' fields =>
      rw [List.cons_append, kindAt_cons] at h4 ⊢
      rw [kindAt_cons] at h1
      cases hm : PyDict.get? fields m with
      | none => rw [hm] at h1; cases h1
      | some om =>
        rw [hm] at h1 h4
        rw [check, Bool.and_eq_true] at h
        exact ih om (checkAll_get h.2 hm) cls n c h1 h2 h3 h4

/-- The options of a profiler have flags. -/
theorem flagged_default (presets : PV) : Flagged (profilerOptions presets) := by
  apply flagged_of_check
  have h : checkAll [("structured_options", structuredOptions), ("unstructured_options", unstructuredOptions)] = true := by
    decide +kernel
  simp only [checkAll, Bool.and_true, Bool.and_eq_true] at h
  simp only [profilerOptions, check, switched, checkAll, List.all_nil, h.1, h.2, Bool.and_true]

/-! ### Setting -/

/-- C34: after `options.set(...)` without exception, the value at a position is the one given for the last path that
addresses it, and the old one if no path does. Positions no path addresses are unchanged also if there is an exception.

Missing from the full statement: a star does not match every sub-option (`C34_star_fails`), and unknown names do not
always raise (`C34_unknown_fails`). -/
theorem C34_partial (options : List (List String × PV)) (o : Opt) (hf : Flagged o) (position : List String)
    (hb : "is_enabled" ∉ position.dropLast) :
    ((∀ pv ∈ options, ¬ Addressed o pv.1 position) → valueAt (profilerSet options o).1 position = valueAt o position) ∧
    ((profilerSet options o).2 = none → ∀ pre path v post, options = pre ++ (path, v) :: post →
      Addressed o path position → (∀ pv ∈ post, ¬ Addressed o pv.1 position) →
      valueAt (profilerSet options o).1 position = some v) := by
  obtain ⟨h1, h2, -⟩ := setMany_value position hb options o hf
  unfold profilerSet
  split_ifs with ha
  · exact ⟨fun _ => rfl, (fun h => nomatch h)⟩
  · exact ⟨h1, h2⟩

/-- Setting neither adds nor removes options, and option objects stay option objects of their class, also if there is an
exception. -/
theorem C34_shape (options : List (List String × PV)) (o : Opt) (hf : Flagged o) (position : List String) :
    kindAt (profilerSet options o).1 position = kindAt o position := by
  unfold profilerSet
  split_ifs
  · rfl
  · exact (setMany_value [] (by simp) options o hf).2.2 position

theorem contains_iff (s t : List Char) : contains s t = true ↔ s <:+: t := by
  unfold contains
  rw [List.any_eq_true]
  constructor
  · rintro ⟨i, -, h⟩
    exact (List.isPrefixOf_iff_prefix.1 h).isInfix.trans (List.drop_suffix i t).isInfix
  · rintro ⟨a, b, rfl⟩
    refine ⟨a.length, by simp; omega, ?_⟩
    rw [List.isPrefixOf_iff_prefix, List.append_assoc, List.drop_left]
    exact List.prefix_append s b

theorem ambiguous_iff (path : List String) : ambiguous path = true ↔ Unclear path := by
  unfold ambiguous Unclear
  rw [Bool.and_eq_true, List.any_eq_true]
  refine and_congr ?_ ?_
  · cases path with
    | nil => simp
    | cons n rest => simp
  · simp only [contains_iff]
    rfl

/-- An ambiguous path is refused before anything is changed. -/
theorem C34_ambiguous (options : List (List String × PV)) (o : Opt) (pv : List String × PV) (hm : pv ∈ options)
    (ha : Unclear pv.1) : profilerSet options o = (o, some .valueError) := by
  unfold profilerSet
  rw [if_pos (List.any_eq_true.2 ⟨pv, hm, (ambiguous_iff _).2 ha⟩)]

/-- No other path is refused for ambiguity: the paths are set one after the other. -/
theorem C34_clear (options : List (List String × PV)) (o : Opt) (h : ∀ pv ∈ options, ¬ Unclear pv.1) :
    profilerSet [] o = (o, none) ∧ (∀ path v rest, options = (path, v) :: rest →
      profilerSet options o =
        match setOpt path v o with
        | (o', some e) => (o', some e)
        | (o', none) => profilerSet rest o') := by
  have hc : ∀ l : List (List String × PV), (∀ pv ∈ l, ¬ Unclear pv.1) → ∀ o, profilerSet l o = setMany l o := by
    intro l hl o
    unfold profilerSet
    rw [if_neg]
    rw [List.any_eq_true]
    rintro ⟨pv, hm, ha⟩
    exact hl pv hm ((ambiguous_iff _).1 ha)
  refine ⟨rfl, fun path v rest e => ?_⟩
  rw [hc options h o]
  subst e
  have hr := hc rest fun pv hm => h pv (List.mem_cons_of_mem _ hm)
  rw [setMany]
  rcases setOpt path v o with ⟨o', _ | e⟩
  · exact (hr o').symm
  · rfl

theorem looks_plain {n n' : String} {rest rest' : List String} (hn : n ≠ "*") (h : Looks (n :: rest) n' rest') :
    n' = n ∧ rest' = rest := by
  rcases h with ⟨-, e⟩ | e
  · cases e; exact ⟨rfl, rfl⟩
  · cases e; exact absurd rfl hn

/-- The full path of an existing value sets this value and no other. -/
theorem C34_exact (v : PV) (position : List String) : ∀ (o : Opt), "*" ∉ position →
    "is_numeric_stats_enabled" ∉ position → position ≠ [] → kindAt o position = some none →
    (setOpt position v o).2 = none ∧ ∀ other, Addressed o position other ↔ other = position := by
  induction position with
  | nil => intro o _ _ h; exact absurd rfl h
  | cons n rest ih =>
    intro o hstar hsw _ hk
    have hn : n ≠ "*" := fun e => hstar (by simp [e])
    have hns : n ≠ "is_numeric_stats_enabled" := fun e => hsw (by simp [e])
    cases o with
    | val x => cases hk
    | obj cls fields =>
      rw [kindAt_cons] at hk
      cases hg : PyDict.get? fields n with
      | none => rw [hg] at hk; cases hk
      | some og =>
        rw [hg] at hk
        have hmem : n ∈ PyDict.keys fields := (PyDict.mem_keys_iff _ _).2 ⟨_, hg⟩
        have hhas : hasProp cls fields n = true := (hasProp_iff _ _ _).2 (Or.inl hmem)
        have hnc : ¬ Switch cls n := fun h => hns h.1
        have hparse : parse (n :: rest) = .ok (false, n, rest) := by simp [parse, hn]
        have hlook : Looks (n :: rest) n rest := Or.inl ⟨hn, rfl⟩
        cases rest with
        | nil =>
          obtain ⟨x, rfl⟩ := kind_val hk
          refine ⟨?_, fun other => ⟨fun ha => ?_, ?_⟩⟩
          · unfold setOpt
            rw [hparse]
            dsimp only
            rw [if_pos hhas, if_neg (by rw [hg]; simp [isObj]), if_neg (by simp)]
          · cases ha with
            | here hl hv hs => rw [(looks_plain hn hl).1]
            | switch hl hs h hv => exact absurd ((looks_plain hn hl).1 ▸ hs) hnc
            | into hl hr hv h => exact absurd (looks_plain hn hl).2 hr
            | descend hl hr h hv _ => exact absurd (Or.inl ((looks_plain hn hl).1.symm ▸ hmem)) h
          · rintro rfl; exact .here hlook hg hnc
        | cons a r =>
          cases og with
          | val x => cases hk
          | obj c fs =>
            obtain ⟨i1, i2⟩ := ih (.obj c fs) (fun h => hstar (List.mem_cons_of_mem _ h))
              (fun h => hsw (List.mem_cons_of_mem _ h)) (by simp) hk
            refine ⟨?_, fun other => ⟨fun ha => ?_, ?_⟩⟩
            · unfold setOpt
              rw [hparse]
              dsimp only
              rw [if_pos hhas, if_pos (by rw [hg]; rfl), if_neg (by simp)]
              dsimp only
              rw [setAt_error hg, i1]
            · cases ha with
              | here hl hv hs => exact absurd (looks_plain hn hl).2 (by simp)
              | switch hl hs h hv => exact absurd (looks_plain hn hl).2 (by simp)
              | into hl hr hv h =>
                obtain ⟨rfl, rfl⟩ := looks_plain hn hl
                rw [hg] at hv; cases hv
                rw [(i2 _).1 h]
              | descend hl hr h hv _ => exact absurd (Or.inl ((looks_plain hn hl).1.symm ▸ hmem)) h
            · rintro rfl; exact .into hlook (by simp) hg ((i2 _).2 rfl)

/-- A name that an option object does not have raises, if the object is reached by its full path; nothing is changed. -/
theorem C34_unknown (v : PV) (n : String) (hn : n ≠ "*") (hns : n ≠ "is_numeric_stats_enabled") (path : List String) :
    ∀ (o : Opt) (c : Cls), "*" ∉ path → kindAt o path = some (some c) → kindAt o (path ++ [n]) = none →
    (setOpt (path ++ [n]) v o).2 = some .attributeError ∧
      ∀ position, valueAt (setOpt (path ++ [n]) v o).1 position = valueAt o position := by
  induction path with
  | nil =>
    intro o c _ hk h0
    obtain ⟨fields, rfl⟩ := kind_obj hk
    have hnot : hasProp c fields n = false := by
      rw [← Bool.not_eq_true, hasProp_iff]
      rintro (h | h)
      · exact (keys_kind (cls := c) n).1 h h0
      · exact hns h.1
    have hparse : parse [n] = .ok (false, n, []) := by simp [parse, hn]
    have : setOpt ([] ++ [n]) v (.obj c fields) = (.obj c fields, some .attributeError) := by
      unfold setOpt
      rw [List.nil_append, hparse]
      dsimp only
      rw [if_neg (by simp [hnot]), if_neg (by simp)]
    rw [this]
    exact ⟨rfl, fun _ => rfl⟩
  | cons m path ih =>
    intro o c hstar hk h0
    have hm : m ≠ "*" := fun e => hstar (by simp [e])
    cases o with
    | val x => cases hk
    | obj cls fields =>
      rw [List.cons_append, kindAt_cons] at h0
      rw [kindAt_cons] at hk
      cases hg : PyDict.get? fields m with
      | none => rw [hg] at hk; cases hk
      | some og =>
        rw [hg] at hk h0
        cases og with
        | val x => cases path <;> cases hk
        | obj c' fs =>
          obtain ⟨i1, i2⟩ := ih (.obj c' fs) c (fun h => hstar (List.mem_cons_of_mem _ h)) hk h0
          have hmem : m ∈ PyDict.keys fields := (PyDict.mem_keys_iff _ _).2 ⟨_, hg⟩
          have hhas : hasProp cls fields m = true := (hasProp_iff _ _ _).2 (Or.inl hmem)
          have hparse : parse (m :: (path ++ [n])) = .ok (false, m, path ++ [n]) := by simp [parse, hm]
          have : setOpt (m :: path ++ [n]) v (.obj cls fields) =
              (.obj cls (setAt m (path ++ [n]) v fields).1, (setAt m (path ++ [n]) v fields).2) := by
            conv_lhs => unfold setOpt
            rw [List.cons_append, hparse]
            dsimp only
            rw [if_pos hhas, if_pos (by rw [hg]; rfl), if_neg (by simp)]
          rw [this]
          refine ⟨(setAt_error hg).trans i1, fun position => ?_⟩
          cases position with
          | nil => rfl
          | cons a pos =>
            rw [valueAt_cons, valueAt_cons, get?_setAt]
            split_ifs with ha
            · subst ha
              rw [hg]
              exact i2 pos
            · rfl

/-- What `*.n` addresses: the values called `n` with no option object above them that also has an option `n`. -/
theorem C34_star (n : String) (hns : n ≠ "is_numeric_stats_enabled") (position : List String) : ∀ (o : Opt),
    Addressed o ["*", n] position ↔ ∃ pre, position = pre ++ [n] ∧ kindAt o position = some none ∧
      ∀ k < pre.length, kindAt o (pre.take k ++ [n]) = none := by
  have looks : ∀ {n' rest}, Looks ["*", n] n' rest → n' = n ∧ rest = [] := by
    rintro n' rest (⟨h, e⟩ | e)
    · cases e; exact absurd rfl h
    · cases e; exact ⟨rfl, rfl⟩
  have hlook : Looks ["*", n] n [] := Or.inr rfl
  induction position with
  | nil =>
    intro o
    constructor
    · intro h; cases h
    · rintro ⟨pre, h, -⟩; simp at h
  | cons m pos ih =>
    intro o
    cases o with
    | val x =>
      constructor
      · intro h; cases h
      · rintro ⟨-, -, h, -⟩; cases h
    | obj cls fields =>
      constructor
      · intro ha
        cases ha with
        | here hl hv hs =>
          obtain ⟨rfl, -⟩ := looks hl
          exact ⟨[], rfl, by rw [kindAt_cons, hv]; rfl, by simp⟩
        | switch hl hs hn hv => exact absurd ((looks hl).1 ▸ hs.1) hns
        | into hl hr hv h => exact absurd (looks hl).2 hr
        | @descend _ c _ fs _ _ _ n' _ hl hr hn hv h =>
          obtain ⟨rfl, -⟩ := looks hl
          obtain ⟨pre, e, hk, hp⟩ := (ih (.obj c fs)).1 h
          refine ⟨m :: pre, by rw [e]; rfl, by rw [kindAt_cons, hv]; exact hk, fun k hlt => ?_⟩
          cases k with
          | zero =>
            change kindAt (.obj cls fields) [n'] = none
            by_contra hne
            exact hn (Or.inl ((keys_kind (cls := cls) n').2 hne))
          | succ k =>
            rw [List.take_succ_cons, List.cons_append, kindAt_cons, hv]
            exact hp k (by simpa using hlt)
      · rintro ⟨pre, e, hk, hp⟩
        cases pre with
        | nil =>
          cases e
          rw [kindAt_cons] at hk
          cases hg : PyDict.get? fields n with
          | none => rw [hg] at hk; cases hk
          | some og =>
            rw [hg] at hk
            obtain ⟨x, rfl⟩ := kind_val hk
            exact .here hlook hg fun h => hns h.1
        | cons a pre =>
          rw [List.cons_append, List.cons.injEq] at e
          obtain ⟨rfl, rfl⟩ := e
          rw [kindAt_cons] at hk
          cases hg : PyDict.get? fields m with
          | none => rw [hg] at hk; cases hk
          | some og =>
            rw [hg] at hk
            cases og with
            | val x => cases pre <;> cases hk
            | obj c fs =>
              refine .descend hlook (Or.inr rfl) ?_ hg ((ih (.obj c fs)).2 ⟨pre, rfl, hk, fun k hlt => ?_⟩)
              · rintro (h | h)
                · have := hp 0 (by simp)
                  exact (keys_kind (cls := cls) n).1 h this
                · exact hns h.1
              · have := hp (k + 1) (by simpa using hlt)
                rw [List.take_succ_cons, List.cons_append, kindAt_cons, hg] at this
                exact this

/-- The value of a flag. -/
def flagIs (b : Bool) : Option PV → Bool
  | some (.bool c) => b == c
  | _ => false

theorem flagIs_eq {b : Bool} {v : Option PV} (h : flagIs b v = true) : v = some (.bool b) := by
  rcases v with _ | v
  · cases h
  · cases v <;> simp_all [flagIs]

/-- A star does not match every sub-option: `*.is_enabled` switches off columns of integers, but not their minimum. -/
theorem C34_star_fails :
    (profilerSet [(["*", "is_enabled"], .bool false)] (profilerOptions .none)).2 = none ∧
    valueAt (profilerSet [(["*", "is_enabled"], .bool false)] (profilerOptions .none)).1
      ["structured_options", "int", "is_enabled"] = some (.bool false) ∧
    valueAt (profilerSet [(["*", "is_enabled"], .bool false)] (profilerOptions .none)).1
      ["structured_options", "int", "min", "is_enabled"] = some (.bool true) :=
  ⟨by decide +kernel, flagIs_eq (by decide +kernel), flagIs_eq (by decide +kernel)⟩

/-- An unknown name raises nothing if it is followed by a dot or preceded by a star. -/
theorem C34_unknown_fails :
    (profilerSet [(["no_such_column", "is_enabled"], .bool false)] (profilerOptions .none)).2 = none ∧
    (profilerSet [(["*", "no_such_option"], .bool false)] (profilerOptions .none)).2 = none ∧
    (profilerSet [(["no_such_option"], .bool false)] (profilerOptions .none)).2 = some .attributeError := by
  decide +kernel

/-- A call that raises may have set options. -/
theorem C34_atomic_fails :
    (profilerSet [(["multiprocess", "is_enabled"], .bool false), (["no_such_option"], .bool false)]
      (profilerOptions .none)).2 = some .attributeError ∧
    valueAt (profilerSet [(["multiprocess", "is_enabled"], .bool false), (["no_such_option"], .bool false)]
      (profilerOptions .none)).1 ["structured_options", "multiprocess", "is_enabled"] = some (.bool false) :=
  ⟨by decide +kernel, flagIs_eq (by decide +kernel)⟩

/-- A case of `C34_exact`. -/
example (v : PV) : ∀ other, Addressed (profilerOptions .none) ["structured_options", "int", "min", "is_enabled"] other ↔
    other = ["structured_options", "int", "min", "is_enabled"] :=
  (C34_exact v _ (profilerOptions .none) (by decide) (by decide) (by decide) (by decide +kernel)).2

/-- A case of `C34_unknown`. -/
example (v : PV) : (setOpt (["structured_options", "int"] ++ ["minimum"]) v (profilerOptions .none)).2 =
    some .attributeError :=
  (C34_unknown v "minimum" (by decide) (by decide) ["structured_options", "int"] (profilerOptions .none) .int (by decide)
    (by decide +kernel) (by decide +kernel)).1

/-- A case of `C34_ambiguous`. -/
example (o : Opt) (v : PV) : profilerSet [(["text", "is_enabled"], v)] o = (o, some .valueError) :=
  C34_ambiguous _ o (["text", "is_enabled"], v) (by simp)
    ((ambiguous_iff _).1 (show ambiguous ["text", "is_enabled"] = true by decide +kernel))

/-- A case of `C34_clear`. -/
example : ¬ Unclear ["*", "is_enabled"] :=
  fun h => (h.1 "*" rfl).1 rfl

end Verif.Props.OptionsSet
