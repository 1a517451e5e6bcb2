import Verif.Spec.Options
import Verif.Lemmas.PyDict
import Mathlib.Tactic.SplitIfs
import Mathlib.Tactic.Tauto

/-!
# Setting options: lemmas
-/

namespace Verif.Lemmas.OptionsSet

open Verif Verif.Options Verif.Spec.Options

theorem parse_looks {path : List String} {star : Bool} {n : String} {rest : List String}
    (h : parse path = .ok (star, n, rest)) :
    (∀ n' rest', Looks path n' rest' ↔ n' = n ∧ rest' = rest) ∧ (path = "*" :: n :: rest ↔ star = true) := by
  cases path with
  | nil => cases h
  | cons a r =>
    simp only [parse] at h
    by_cases ha : a = "*"
    · rw [if_pos ha] at h
      subst ha
      cases r with
      | nil => cases h
      | cons m r =>
        cases h
        refine ⟨fun n' rest' => ?_, by simp⟩
        unfold Looks
        constructor
        · rintro (⟨h, e⟩ | e)
          · cases e; exact absurd rfl h
          · cases e; exact ⟨rfl, rfl⟩
        · rintro ⟨rfl, rfl⟩; exact Or.inr rfl
    · rw [if_neg ha] at h
      cases h
      refine ⟨fun n' rest' => ?_, ?_⟩
      · unfold Looks
        constructor
        · rintro (⟨-, e⟩ | e)
          · cases e; exact ⟨rfl, rfl⟩
          · cases e; exact absurd rfl ha
        · rintro ⟨rfl, rfl⟩; exact Or.inl ⟨ha, rfl⟩
      · constructor
        · intro e
          exact absurd (List.cons.inj e).1 ha
        · intro h; cases h

theorem not_looks {path : List String} {e : Err} (h : parse path = .error e) (n : String) (rest : List String) :
    ¬ Looks path n rest := by
  cases path with
  | nil => rintro (⟨-, h⟩ | h) <;> cases h
  | cons a r =>
    simp only [parse] at h
    by_cases ha : a = "*"
    · rw [if_pos ha] at h
      subst ha
      cases r with
      | nil =>
        rintro (⟨h, e⟩ | h)
        · cases e; exact h rfl
        · cases h
      | cons m r => cases h
    · rw [if_neg ha] at h; cases h

theorem computed_iff (cls : Cls) (n : String) : computed cls n = true ↔ Switch cls n := by
  unfold computed Switch
  cases cls <;> simp [switched]

theorem hasProp_iff (cls : Cls) (fields : Fields) (n : String) : hasProp cls fields n = true ↔ Has cls fields n := by
  unfold hasProp Has
  rw [Bool.or_eq_true, PyDict.has_iff, computed_iff]
  rfl

theorem switched_iff {cls : Cls} (h : cls ∈ [Cls.int, .float, .text]) (n : String) : n ∈ switched cls ↔ Statistic cls n := by
  simp only [List.mem_cons, List.not_mem_nil, or_false] at h
  unfold Statistic
  rcases h with h | h | h <;> subst h <;> simp [switched] <;> tauto

theorem get?_modify (fields : Fields) (n m : String) (f : Opt → Opt) :
    PyDict.get? (Options.modify fields n f) m = if m = n then (PyDict.get? fields m).map f else PyDict.get? fields m := by
  unfold Options.modify
  induction fields with
  | nil => simp
  | cons kv rest ih =>
    obtain ⟨k, o⟩ := kv
    rw [List.map_cons]
    by_cases hk : k = n
    · rw [if_pos hk, PyDict.get?_cons, PyDict.get?_cons]
      by_cases hm : k = m
      · simp [hm, ← hk]
      · rw [if_neg hm, if_neg hm]; exact ih
    · rw [if_neg hk, PyDict.get?_cons, PyDict.get?_cons]
      by_cases hm : k = m
      · have : m ≠ n := fun e => hk (hm.trans e)
        simp [hm, this]
      · rw [if_neg hm, if_neg hm]; exact ih

theorem enable_enable (v : PV) (o : Opt) : enable v (enable v o) = enable v o := by
  cases o with
  | val x => rfl
  | obj c fs =>
    simp only [enable]
    congr 1
    induction fs with
    | nil => simp [PyDict.set]
    | cons kv rest ih =>
      obtain ⟨k, o⟩ := kv
      by_cases hk : k = "is_enabled"
      · simp [PyDict.set, hk]
      · simp [PyDict.set, hk, ih]

theorem get?_switch (names : List String) (fields : Fields) (m : String) (v : PV) :
    PyDict.get? (names.foldl (fun fs n => Options.modify fs n (enable v)) fields) m =
      if m ∈ names then (PyDict.get? fields m).map (enable v) else PyDict.get? fields m := by
  induction names generalizing fields with
  | nil => simp
  | cons n rest ih =>
    rw [List.foldl_cons, ih, get?_modify]
    by_cases hm : m = n
    · subst hm
      by_cases hr : m ∈ rest
      · cases PyDict.get? fields m <;> simp [hr, enable_enable]
      · simp [hr]
    · simp [hm]

theorem get?_setAt (n : String) (path : List String) (v : PV) (fields : Fields) (m : String) :
    PyDict.get? (setAt n path v fields).1 m =
      if m = n then (PyDict.get? fields m).map (fun o => (setOpt path v o).1) else PyDict.get? fields m := by
  induction fields with
  | nil => simp [setAt]
  | cons kv rest ih =>
    obtain ⟨k, o⟩ := kv
    unfold setAt
    by_cases hk : k = n
    · rw [if_pos hk, PyDict.get?_cons, PyDict.get?_cons]
      by_cases hm : k = m
      · simp [hm, ← hk]
      · have : m ≠ n := fun e => hm (hk.trans e.symm)
        simp [hm, this]
    · rw [if_neg hk, PyDict.get?_cons, PyDict.get?_cons]
      by_cases hm : k = m
      · have : m ≠ n := fun e => hk (hm.trans e)
        simp [hm, this]
      · rw [if_neg hm, if_neg hm]; exact ih

theorem setAt_error {n : String} {path : List String} {v : PV} {fields : Fields} {o : Opt}
    (h : PyDict.get? fields n = some o) : (setAt n path v fields).2 = (setOpt path v o).2 := by
  induction fields with
  | nil => cases h
  | cons kv rest ih =>
    obtain ⟨k, o'⟩ := kv
    unfold setAt
    rw [PyDict.get?_cons] at h
    by_cases hk : k = n
    · rw [if_pos hk] at h ⊢
      cases h; rfl
    · rw [if_neg hk] at h ⊢
      exact ih h

theorem get?_setAll (path : List String) (v : PV) (fields : Fields) (m : String) :
    PyDict.get? (setAll path v fields).1 m = (PyDict.get? fields m).map (fun o => (setOpt path v o).1) ∨
      PyDict.get? (setAll path v fields).1 m = PyDict.get? fields m ∧ (setAll path v fields).2 ≠ none := by
  induction fields with
  | nil => simp [setAll]
  | cons kv rest ih =>
    obtain ⟨k, o⟩ := kv
    unfold setAll
    cases he : (setOpt path v o).2 with
    | some e =>
      dsimp only
      rw [PyDict.get?_cons, PyDict.get?_cons]
      by_cases hm : k = m
      · simp [hm]
      · right; simp [hm]
    | none =>
      dsimp only
      rw [PyDict.get?_cons, PyDict.get?_cons]
      by_cases hm : k = m
      · simp [hm]
      · rw [if_neg hm, if_neg hm]; exact ih

theorem setAll_ok {path : List String} {v : PV} {fields : Fields} (h : (setAll path v fields).2 = none) {m : String}
    {o : Opt} (hm : PyDict.get? fields m = some o) : (setOpt path v o).2 = none := by
  induction fields with
  | nil => cases hm
  | cons kv rest ih =>
    obtain ⟨k, o'⟩ := kv
    unfold setAll at h
    rw [PyDict.get?_cons] at hm
    cases he : (setOpt path v o').2 with
    | some e => rw [he] at h; cases h
    | none =>
      rw [he] at h
      by_cases hk : k = m
      · rw [if_pos hk] at hm; cases hm; exact he
      · rw [if_neg hk] at hm; exact ih h hm

theorem setAll_none {path : List String} {v : PV} {fields : Fields}
    (h : ∀ kv ∈ fields, (setOpt path v kv.2).2 = none) : (setAll path v fields).2 = none := by
  induction fields with
  | nil => rfl
  | cons kv rest ih =>
    obtain ⟨k, o⟩ := kv
    unfold setAll
    rw [h (k, o) (by simp)]
    exact ih fun kv hkv => h kv (by simp [hkv])

theorem addressed_val (x : PV) (path position : List String) : ¬ Addressed (.val x) path position := nofun

theorem isObj_iff (o : Option Opt) : isObj o = true ↔ ∃ c fs, o = some (.obj c fs) := by
  rcases o with _ | (_ | _) <;> simp [isObj]

theorem valueAt_cons (cls : Cls) (fields : Fields) (m : String) (position : List String) :
    valueAt (.obj cls fields) (m :: position) = (PyDict.get? fields m).bind fun o => valueAt o position := rfl

/-- What setting one path does to the value at a position. -/
theorem set_value (v : PV) (position : List String) (hb : "is_enabled" ∉ position.dropLast) :
    ∀ (o : Opt) (path : List String),
    (¬ Addressed o path position → valueAt (setOpt path v o).1 position = valueAt o position) ∧
    ((setOpt path v o).2 = none → Addressed o path position → valueAt (setOpt path v o).1 position = some v) ∧
    (valueAt (setOpt path v o).1 position = valueAt o position ∨ valueAt (setOpt path v o).1 position = some v) := by
  induction position with
  | nil =>
    intro o path
    cases o with
    | val x => simp [setOpt, addressed_val]
    | obj cls fields =>
      have hv : valueAt (setOpt path v (.obj cls fields)).1 [] = valueAt (.obj cls fields) [] := by
        unfold setOpt
        split
        · rfl
        · split_ifs <;> rfl
      exact ⟨fun _ => hv, (fun _ h => nomatch h), Or.inl hv⟩
  | cons m pos ih =>
    replace ih := ih (by
      cases pos with
      | nil => simp
      | cons a pos => simp only [List.dropLast_cons_cons, List.mem_cons, not_or] at hb ⊢; exact hb.2)
    intro o path
    cases o with
    | val x => simp [setOpt, addressed_val]
    | obj cls fields =>
      unfold setOpt
      cases hp : parse path with
      | error e =>
        dsimp only
        exact ⟨fun _ => rfl, (fun h => nomatch h), Or.inl rfl⟩
      | ok r =>
        obtain ⟨star, n, rest⟩ := r
        obtain ⟨looks, hstar⟩ := parse_looks hp
        have hlook : Looks path n rest := (looks n rest).2 ⟨rfl, rfl⟩
        dsimp only
        by_cases hhas : hasProp cls fields n = true
        · rw [if_pos hhas]
          have hhas' := (hasProp_iff _ _ _).1 hhas
          by_cases hobj : isObj (PyDict.get? fields n) = true
          · rw [if_pos hobj]
            obtain ⟨c, fs, hget⟩ := (isObj_iff _).1 hobj
            by_cases hrest : rest = []
            · rw [if_pos hrest]
              exact ⟨fun _ => rfl, (fun h => nomatch h), Or.inl rfl⟩
            · rw [if_neg hrest]
              dsimp only
              rw [valueAt_cons, valueAt_cons, get?_setAt, setAt_error hget]
              by_cases hm : m = n
              · subst hm
                rw [if_pos rfl, hget]
                obtain ⟨i1, i2, i3⟩ := ih (.obj c fs) rest
                refine ⟨fun h => i1 fun ha => h (.into hlook hrest hget ha), fun he ha => i2 he ?_, i3⟩
                cases ha with
                | here hl hv hs => exact absurd ((looks _ _).1 hl).2.symm hrest
                | switch hl hs hn hv => exact absurd ((looks _ _).1 hl).2.symm hrest
                | into hl hr hv h =>
                  obtain ⟨-, e⟩ := (looks _ _).1 hl
                  rw [hget] at hv; cases hv; rw [e] at h; exact h
                | descend hl hr hn hv h =>
                  obtain ⟨e, -⟩ := (looks _ _).1 hl
                  exact absurd (e ▸ hhas') hn
              · rw [if_neg hm]
                refine ⟨fun _ => rfl, fun _ ha => ?_, Or.inl rfl⟩
                cases ha with
                | here hl hv hs => exact absurd ((looks _ _).1 hl).1 hm
                | switch hl hs hn hv => exact absurd ((looks _ _).1 hl).2.symm hrest
                | into hl hr hv h => exact absurd ((looks _ _).1 hl).1 hm
                | descend hl hr hn hv h =>
                  obtain ⟨e, -⟩ := (looks _ _).1 hl
                  exact absurd (e ▸ hhas') hn
          · rw [if_neg hobj]
            by_cases hrest : rest = []
            · rw [if_neg (by simpa using hrest)]
              subst hrest
              dsimp only
              rw [valueAt_cons, valueAt_cons]
              unfold assign
              by_cases hc : computed cls n = true
              · rw [if_pos hc, get?_switch]
                have hsw := (computed_iff _ _).1 hc
                by_cases hms : m ∈ switched cls
                · rw [if_pos hms]
                  have hst := (switched_iff hsw.2 m).1 hms
                  cases hgm : PyDict.get? fields m with
                  | none =>
                    refine ⟨fun _ => rfl, fun _ ha => ?_, Or.inl rfl⟩
                    cases ha with
                    | here hl hv hs => rw [hv] at hgm; cases hgm
                    | switch hl hs hn hv => rw [hv] at hgm; cases hgm
                    | into hl hr hv h => rw [hv] at hgm; cases hgm
                    | descend hl hr hn hv h => rw [hv] at hgm; cases hgm
                  | some om =>
                    cases om with
                    | val x =>
                      refine ⟨fun _ => rfl, fun _ ha => ?_, Or.inl rfl⟩
                      cases ha with
                      | here hl hv hs =>
                        obtain ⟨e, -⟩ := (looks _ _).1 hl
                        exact absurd (e ▸ hsw) hs
                      | switch hl hs hn hv => rw [hv] at hgm; cases hgm
                      | into hl hr hv h => rw [hv] at hgm; cases hgm
                      | descend hl hr hn hv h => rw [hv] at hgm; cases hgm
                    | obj c fs =>
                      change (_ → valueAt (.obj c (PyDict.set fs "is_enabled" (.val v))) pos = valueAt (.obj c fs) pos) ∧
                        (_ → _ → valueAt (.obj c (PyDict.set fs "is_enabled" (.val v))) pos = _) ∧
                        (valueAt (.obj c (PyDict.set fs "is_enabled" (.val v))) pos = valueAt (.obj c fs) pos ∨
                          valueAt (.obj c (PyDict.set fs "is_enabled" (.val v))) pos = _)
                      have hadd : Addressed (.obj cls fields) path (m :: pos) → pos = ["is_enabled"] := by
                        intro ha
                        cases ha with
                        | here hl hv hs => rw [hv] at hgm; cases hgm
                        | switch hl hs hn hv => rfl
                        | into hl hr hv h => exact absurd ((looks _ _).1 hl).2 hr
                        | descend hl hr hn hv h =>
                          obtain ⟨e, -⟩ := (looks _ _).1 hl
                          exact absurd (e ▸ hhas') hn
                      cases pos with
                      | nil => exact ⟨fun _ => rfl, (fun _ ha => nomatch hadd ha), Or.inl rfl⟩
                      | cons a pos =>
                        rw [valueAt_cons, valueAt_cons, PyDict.get?_set]
                        by_cases hae : a = "is_enabled"
                        · subst hae
                          rw [if_pos rfl]
                          cases pos with
                          | nil =>
                            refine ⟨fun h => absurd (Addressed.switch hlook hsw hst hgm) h, fun _ _ => rfl, Or.inr rfl⟩
                          | cons b pos =>
                            simp at hb
                        · rw [if_neg (fun e => hae e.symm)]
                          refine ⟨fun _ => rfl, fun _ ha => ?_, Or.inl rfl⟩
                          have := hadd ha
                          cases this; exact absurd rfl hae
                · rw [if_neg hms]
                  refine ⟨fun _ => rfl, fun _ ha => ?_, Or.inl rfl⟩
                  cases ha with
                  | here hl hv hs =>
                    obtain ⟨e, -⟩ := (looks _ _).1 hl
                    exact absurd (e ▸ hsw) hs
                  | switch hl hs hn hv => exact absurd ((switched_iff hsw.2 m).2 hn) hms
                  | into hl hr hv h => exact absurd ((looks _ _).1 hl).2 hr
                  | descend hl hr hn hv h =>
                    obtain ⟨e, -⟩ := (looks _ _).1 hl
                    exact absurd (e ▸ hhas') hn
              · rw [if_neg hc, PyDict.get?_set]
                have hsw : ¬ Switch cls n := fun h => hc ((computed_iff _ _).2 h)
                have hmem : n ∈ PyDict.keys fields := hhas'.resolve_right hsw
                obtain ⟨on, hon⟩ := (PyDict.mem_keys_iff _ _).1 hmem
                have hval : ∃ x, on = .val x := by
                  cases on with
                  | val x => exact ⟨x, rfl⟩
                  | obj c fs => rw [hon] at hobj; exact absurd rfl hobj
                obtain ⟨x, rfl⟩ := hval
                by_cases hm : n = m
                · subst hm
                  rw [if_pos rfl, hon]
                  cases pos with
                  | nil => exact ⟨fun h => absurd (Addressed.here hlook hon hsw) h, fun _ _ => rfl, Or.inr rfl⟩
                  | cons a pos =>
                    refine ⟨fun _ => rfl, fun _ ha => ?_, Or.inl rfl⟩
                    cases ha with
                    | switch hl hs hn hv => rw [hv] at hon; cases hon
                    | into hl hr hv h => rw [hv] at hon; cases hon
                    | descend hl hr hn hv h => rw [hv] at hon; cases hon
                · rw [if_neg hm]
                  refine ⟨fun _ => rfl, fun _ ha => ?_, Or.inl rfl⟩
                  cases ha with
                  | here hl hv hs => exact absurd ((looks _ _).1 hl).1.symm hm
                  | switch hl hs hn hv =>
                    obtain ⟨e, -⟩ := (looks _ _).1 hl
                    exact absurd (e ▸ hs) hsw
                  | into hl hr hv h => exact absurd ((looks _ _).1 hl).2 hr
                  | descend hl hr hn hv h =>
                    obtain ⟨e, -⟩ := (looks _ _).1 hl
                    exact absurd (e ▸ hhas') hn
            · rw [if_pos (by simpa using hrest)]
              exact ⟨fun _ => rfl, (fun h => nomatch h), Or.inl rfl⟩
        · rw [if_neg hhas]
          have hhas' : ¬ Has cls fields n := fun h => hhas ((hasProp_iff _ _ _).2 h)
          by_cases hd : rest ≠ [] ∨ star = true
          · rw [if_pos hd]
            have hd' : rest ≠ [] ∨ path = "*" :: n :: rest := hd.imp id hstar.2
            dsimp only
            rw [valueAt_cons, valueAt_cons]
            have hinv : Addressed (.obj cls fields) path (m :: pos) →
                ∃ c fs, PyDict.get? fields m = some (.obj c fs) ∧ Addressed (.obj c fs) path pos := by
              intro ha
              cases ha with
              | here hl hv hs =>
                obtain ⟨e, -⟩ := (looks _ _).1 hl
                exact absurd (Or.inl ((PyDict.mem_keys_iff _ _).2 ⟨_, e ▸ hv⟩)) hhas'
              | switch hl hs hn hv =>
                obtain ⟨e, -⟩ := (looks _ _).1 hl
                exact absurd (Or.inr (e ▸ hs)) hhas'
              | into hl hr hv h =>
                obtain ⟨e, -⟩ := (looks _ _).1 hl
                exact absurd (Or.inl ((PyDict.mem_keys_iff _ _).2 ⟨_, e ▸ hv⟩)) hhas'
              | descend hl hr hn hv h => exact ⟨_, _, hv, h⟩
            rcases get?_setAll path v fields m with hg | ⟨hg, he⟩
            · rw [hg]
              cases hgm : PyDict.get? fields m with
              | none =>
                refine ⟨fun _ => rfl, fun _ ha => ?_, Or.inl rfl⟩
                obtain ⟨c, fs, h, -⟩ := hinv ha
                rw [h] at hgm; cases hgm
              | some om =>
                obtain ⟨i1, i2, i3⟩ := ih om path
                refine ⟨fun h => ?_, fun he ha => ?_, i3⟩
                · cases om with
                  | val x => simp [setOpt]
                  | obj c fs => exact i1 fun ha => h (.descend hlook hd' hhas' hgm ha)
                · obtain ⟨c, fs, h, ha⟩ := hinv ha
                  rw [hgm] at h; cases h
                  exact i2 (setAll_ok he hgm) ha
            · rw [hg]
              exact ⟨fun _ => rfl, fun h => absurd h he, Or.inl rfl⟩
          · rw [if_neg hd]
            exact ⟨fun _ => rfl, (fun h => nomatch h), Or.inl rfl⟩

theorem kindAt_cons (cls : Cls) (fields : Fields) (m : String) (position : List String) :
    kindAt (.obj cls fields) (m :: position) = (PyDict.get? fields m).bind fun o => kindAt o position := rfl

theorem flagged_child {cls : Cls} {fields : Fields} (h : Flagged (.obj cls fields)) {m : String} {o : Opt}
    (hm : PyDict.get? fields m = some o) : Flagged o := by
  intro position c n c' h1 h2 h3 h4
  have e : ∀ p, kindAt (.obj cls fields) (m :: p) = kindAt o p := fun p => by rw [kindAt_cons, hm]; rfl
  have := h (m :: position) c n c' (by rw [e]; exact h1) h2 h3 (by rw [List.cons_append, e]; exact h4)
  rwa [List.cons_append, e] at this

/-- Setting changes no kind. -/
theorem set_kind (v : PV) (position : List String) : ∀ (o : Opt) (path : List String), Flagged o →
    kindAt (setOpt path v o).1 position = kindAt o position := by
  induction position with
  | nil =>
    intro o path _
    cases o with
    | val x => simp [setOpt]
    | obj cls fields =>
      unfold setOpt
      split
      · rfl
      · split_ifs <;> rfl
  | cons m pos ih =>
    intro o path hf
    cases o with
    | val x => simp [setOpt]
    | obj cls fields =>
      have child : ∀ path', ((PyDict.get? fields m).map fun o => (setOpt path' v o).1).bind (fun o => kindAt o pos) =
          (PyDict.get? fields m).bind fun o => kindAt o pos := by
        intro path'
        cases hm : PyDict.get? fields m with
        | none => rfl
        | some om => exact ih om path' (flagged_child hf hm)
      unfold setOpt
      cases hp : parse path with
      | error e => rfl
      | ok r =>
        obtain ⟨star, n, rest⟩ := r
        dsimp only
        split_ifs with h1 h2 h3 h4 h5
        · rfl
        · rw [kindAt_cons, kindAt_cons, get?_setAt]
          split_ifs with hm
          · exact child rest
          · rfl
        · rfl
        · rw [kindAt_cons, kindAt_cons]
          unfold assign
          split_ifs with hc
          · have hsw := (computed_iff _ _).1 hc
            rw [get?_switch]
            split_ifs with hms
            · have hst := (switched_iff hsw.2 m).1 hms
              cases hm : PyDict.get? fields m with
              | none => rfl
              | some om =>
                cases om with
                | val x => rfl
                | obj c fs =>
                  have hk := hf [] cls m c rfl hsw.2 hst (by
                    change kindAt (.obj cls fields) [m] = _
                    rw [kindAt_cons, hm]; rfl)
                  change kindAt (.obj cls fields) [m, "is_enabled"] = _ at hk
                  rw [kindAt_cons, hm] at hk
                  change kindAt (.obj c fs) ["is_enabled"] = _ at hk
                  rw [kindAt_cons] at hk
                  change kindAt (.obj c (PyDict.set fs "is_enabled" (.val v))) pos = kindAt (.obj c fs) pos
                  cases pos with
                  | nil => rfl
                  | cons a pos =>
                    rw [kindAt_cons, kindAt_cons, PyDict.get?_set]
                    split_ifs with ha
                    · subst ha
                      cases hg : PyDict.get? fs "is_enabled" with
                      | none => rw [hg] at hk; cases hk
                      | some og =>
                        rw [hg] at hk
                        cases og with
                        | val x => cases pos <;> rfl
                        | obj c fs => cases hk
                    · rfl
            · rfl
          · rw [PyDict.get?_set]
            split_ifs with hm
            · subst hm
              have hsw : ¬ Switch cls n := fun h => hc ((computed_iff _ _).2 h)
              have hmem : n ∈ PyDict.keys fields := ((hasProp_iff _ _ _).1 h1).resolve_right hsw
              obtain ⟨on, hon⟩ := (PyDict.mem_keys_iff _ _).1 hmem
              cases on with
              | val x => rw [hon]; cases pos <;> rfl
              | obj c fs => rw [hon] at h2; exact absurd rfl h2
            · rfl
        · rw [kindAt_cons, kindAt_cons]
          rcases get?_setAll path v fields m with hg | ⟨hg, -⟩
          · rw [hg]; exact child path
          · rw [hg]
        · rfl

theorem kind_obj {o : Opt} {c : Cls} (h : kindAt o [] = some (some c)) : ∃ fs, o = .obj c fs := by
  cases o with
  | val x => cases h
  | obj c' fs => cases h; exact ⟨fs, rfl⟩

theorem kind_val {o : Opt} (h : kindAt o [] = some none) : ∃ x, o = .val x := by
  cases o with
  | val x => exact ⟨x, rfl⟩
  | obj c' fs => cases h

theorem keys_kind {cls : Cls} {fields : Fields} (n : String) :
    n ∈ PyDict.keys fields ↔ kindAt (.obj cls fields) [n] ≠ none := by
  rw [PyDict.mem_keys_iff, kindAt_cons]
  cases PyDict.get? fields n with
  | none => simp
  | some o => cases o <;> simp [kindAt]

/-- Which positions a path addresses depends only on kinds. -/
theorem addressed_congr {o o' : Opt} {path position : List String} (h : ∀ p, kindAt o p = kindAt o' p)
    (ha : Addressed o path position) : Addressed o' path position := by
  induction ha generalizing o' with
  | @here cls fields path n v hl hv hs =>
    obtain ⟨fs', rfl⟩ := kind_obj (h []).symm
    have := h [n]
    rw [kindAt_cons, kindAt_cons, hv] at this
    cases hg : PyDict.get? fs' n with
    | none => rw [hg] at this; cases this
    | some og =>
      rw [hg] at this
      obtain ⟨x, rfl⟩ := kind_val this.symm
      exact .here hl hg hs
  | @switch cls c fields fs path s n hl hs hn hv =>
    obtain ⟨fs', rfl⟩ := kind_obj (h []).symm
    have := h [n]
    rw [kindAt_cons, kindAt_cons, hv] at this
    cases hg : PyDict.get? fs' n with
    | none => rw [hg] at this; cases this
    | some og =>
      rw [hg] at this
      obtain ⟨x, rfl⟩ := kind_obj this.symm
      exact .switch hl hs hn hg
  | @into cls c fields fs path rest position n hl hr hv _ ih =>
    obtain ⟨fs', rfl⟩ := kind_obj (h []).symm
    have e := fun p => h (n :: p)
    simp only [kindAt_cons, hv] at e
    cases hg : PyDict.get? fs' n with
    | none => have := e []; rw [hg] at this; cases this
    | some og =>
      rw [hg] at e
      obtain ⟨x, rfl⟩ := kind_obj (e []).symm
      exact .into hl hr hg (ih e)
  | @descend cls c fields fs path rest position n m hl hr hn hv _ ih =>
    obtain ⟨fs', rfl⟩ := kind_obj (h []).symm
    have e := fun p => h (m :: p)
    simp only [kindAt_cons, hv] at e
    cases hg : PyDict.get? fs' m with
    | none => have := e []; rw [hg] at this; cases this
    | some og =>
      rw [hg] at e
      obtain ⟨x, rfl⟩ := kind_obj (e []).symm
      refine .descend hl hr (fun hh => hn ?_) hg (ih e)
      refine hh.imp (fun hk => ?_) id
      rw [keys_kind (cls := cls)] at hk ⊢
      rwa [h]

theorem flagged_congr {o o' : Opt} (h : ∀ p, kindAt o p = kindAt o' p) (hf : Flagged o) : Flagged o' := by
  intro p cls n c h1 h2 h3 h4
  rw [← h] at h1 h4 ⊢
  exact hf p cls n c h1 h2 h3 h4

/-- Setting several paths. -/
theorem setMany_value (position : List String) (hb : "is_enabled" ∉ position.dropLast) (options : List (List String × PV)) :
    ∀ o, Flagged o →
    ((∀ pv ∈ options, ¬ Addressed o pv.1 position) → valueAt (setMany options o).1 position = valueAt o position) ∧
    ((setMany options o).2 = none → ∀ pre path v post, options = pre ++ (path, v) :: post → Addressed o path position →
      (∀ pv ∈ post, ¬ Addressed o pv.1 position) → valueAt (setMany options o).1 position = some v) ∧
    (∀ p, kindAt (setMany options o).1 p = kindAt o p) := by
  induction options with
  | nil =>
    intro o _
    refine ⟨fun _ => rfl, ?_, fun _ => rfl⟩
    intro _ pre path v post h
    simp at h
  | cons pv rest ih =>
    obtain ⟨path, v⟩ := pv
    intro o hf
    have hk := fun p => set_kind v p o path hf
    obtain ⟨s1, s2, -⟩ := set_value v position hb o path
    unfold setMany
    cases he : (setOpt path v o).2 with
    | some e =>
      dsimp only
      exact ⟨fun h => s1 (h (path, v) (by simp)), (fun h => nomatch h), hk⟩
    | none =>
      dsimp only
      obtain ⟨i1, i2, i3⟩ := ih (setOpt path v o).1 (flagged_congr (fun p => (hk p).symm) hf)
      have back : ∀ {path' pos'}, Addressed (setOpt path v o).1 path' pos' → Addressed o path' pos' :=
        fun h => addressed_congr hk h
      have forth : ∀ {path' pos'}, Addressed o path' pos' → Addressed (setOpt path v o).1 path' pos' :=
        fun h => addressed_congr (fun p => (hk p).symm) h
      refine ⟨fun h => ?_, fun hn pre path' v' post hs ha hp => ?_, fun p => (i3 p).trans (hk p)⟩
      · rw [i1 fun pv hpv hq => h pv (by simp [hpv]) (back hq)]
        exact s1 (h (path, v) (by simp))
      · cases pre with
        | nil =>
          rw [List.nil_append, List.cons.injEq, Prod.mk.injEq] at hs
          obtain ⟨⟨rfl, rfl⟩, rfl⟩ := hs
          rw [i1 fun pv hpv hq => hp pv hpv (back hq)]
          exact s2 he ha
        | cons q pre =>
          rw [List.cons_append, List.cons.injEq] at hs
          exact i2 hn pre path' v' post hs.2 (forth ha) fun pv hpv hq => hp pv hpv (back hq)

end Verif.Lemmas.OptionsSet
