import Verif.Lemmas.PyDict
import Verif.Spec.Validator
import Mathlib.Tactic.SplitIfs
import Mathlib.Tactic.FinCases

/-!
# C46: validation
-/

namespace Verif.Props.Validator

open Verif Verif.Validator Verif.Spec.Validator
open Verif.Schema (Key)

variable {C : Type} {flt : C → Except Err Flt}

theorem le_iff (a b : Flt) : Flt.le a b = true ↔ Below a b := by
  cases a <;> cases b <;> simp [Flt.le, Below]

theorem inRange_iff {p : Param C} {x : C} {b : Bool} (h : inRange flt p x = .ok b) :
    b = true ↔ Holds flt "range" p x := by
  unfold inRange at h
  cases p with
  | list l => cases h
  | dict d =>
    dsimp only at h
    cases hs : PyDict.get? d "start" with
    | none => rw [hs] at h; cases h
    | some s =>
      rw [hs] at h; dsimp only at h
      cases ha : flt s with
      | error e => rw [ha] at h; cases h
      | ok a =>
        cases hv : flt x with
        | error e => rw [ha, hv] at h; cases h
        | ok v =>
          rw [ha, hv] at h; dsimp only at h
          split_ifs at h with hle
          · cases he : PyDict.get? d "end" with
            | none => rw [he] at h; cases h
            | some e =>
              rw [he] at h; dsimp only at h
              cases hb : flt e with
              | error e => rw [hb] at h; cases h
              | ok c =>
                rw [hb] at h; cases h
                rw [le_iff] at hle ⊢
                constructor
                · intro h2
                  exact ⟨v, hv, .inl ⟨rfl, d, s, e, a, c, rfl, hs, he, ha, hb, hle, h2⟩⟩
                · rintro ⟨v', hv', ⟨-, d', s', e', a', c', hd, hs', he', ha', hc', h1, h2⟩ | ⟨h1, -⟩⟩
                  · cases hd; rw [he] at he'; cases he'; rw [hb] at hc'; cases hc'; rw [hv] at hv'; cases hv'
                    exact h2
                  · exact absurd h1 (by decide)
          · cases h
            constructor
            · intro h; cases h
            · rintro ⟨v', hv', ⟨-, d', s', e', a', c', hd, hs', he', ha', hc', h1, h2⟩ | ⟨h1, -⟩⟩
              · cases hd; rw [hs] at hs'; cases hs'; rw [ha] at ha'; cases ha'; rw [hv] at hv'; cases hv'
                exact absurd ((le_iff _ _).2 h1) hle
              · exact absurd h1 (by decide)

theorem inList_iff {p : Param C} {x : C} {b : Bool} (h : inList flt p x = .ok b) :
    b = true ↔ Holds flt "list" p x := by
  unfold inList at h
  cases hv : flt x with
  | error e => rw [hv] at h; cases h
  | ok v =>
    rw [hv] at h; dsimp only at h
    have key : ∀ l : List Item, (l.any (Item.hit v)) = true ↔
        v ≠ .nan ∧ Item.num v ∈ l := by
      intro l
      rw [List.any_eq_true]
      constructor
      · rintro ⟨i, hi, h⟩
        cases i with
        | other => cases h
        | num f => cases v <;> cases f <;> simp_all [Flt.eq, Item.hit]
      · rintro ⟨h1, h2⟩
        refine ⟨_, h2, ?_⟩
        cases v <;> simp_all [Flt.eq, Item.hit]
    cases p with
    | dict d =>
      cases h
      constructor
      · intro h; cases h
      · rintro ⟨v', hv', ⟨h1, -⟩ | ⟨-, l, hl, -⟩⟩
        · exact absurd h1 (by decide)
        · cases hl
    | list l =>
      cases h
      rw [key]
      constructor
      · intro h
        exact ⟨v, hv, .inr ⟨rfl, l, rfl, h⟩⟩
      · rintro ⟨v', hv', ⟨h1, -⟩ | ⟨-, l', hl, h⟩⟩
        · exact absurd h1 (by decide)
        · cases hl; rw [hv] at hv'; cases hv'; exact h

open Classical in
theorem results_ok {f : C → Except Err Bool} {P : C → Prop} (hf : ∀ x b, f x = .ok b → (b = true ↔ P x)) {xs : List C}
    {bs : List Bool} (h : results f xs = .ok bs) : bs = xs.map fun x => decide (P x) := by
  induction xs generalizing bs with
  | nil => cases h; rfl
  | cons x xs ih =>
    simp only [results] at h
    cases hb : f x with
    | error e => rw [hb] at h; cases h
    | ok b =>
      rw [hb] at h; dsimp only at h
      cases hr : results f xs with
      | error e => rw [hr] at h; cases h
      | ok bs' =>
        rw [hr] at h; cases h
        rw [List.map_cons, ← ih hr]
        congr 1
        have := hf x b hb
        cases b <;> simp_all

theorem labels_eq (rows : Column C) (q : C → Bool) :
    labels rows (rows.map fun r => q r.2) = (rows.filter fun r => q r.2).map (·.1) := by
  induction rows with
  | nil => rfl
  | cons r rows ih =>
    obtain ⟨k, x⟩ := r
    rw [List.map_cons, List.filter_cons]
    cases hq : q x with
    | true => simp only [labels, if_true, List.map_cons, ih]
    | false => simp only [labels, Bool.false_eq_true, if_false, ih]

theorem positions_eq (rows : Column C) (q : C → Bool) (i : ℕ) :
    positions i (rows.map fun r => q r.2) =
      (((rows.zipIdx i).map fun x => (Key.int x.2, x.1.2)).filter fun r => q r.2).map (·.1) := by
  induction rows generalizing i with
  | nil => rfl
  | cons r rows ih =>
    obtain ⟨k, x⟩ := r
    rw [List.map_cons, List.zipIdx_cons, List.map_cons, List.filter_cons]
    cases hq : q x with
    | true => simp only [positions, if_true, List.map_cons, ih]
    | false => simp only [positions, Bool.false_eq_true, if_false, ih]

theorem evaluate_ok {dfType : String} {rows : Column C} {check : String} {p : Param C} {ks : List Key}
    (h : evaluate flt dfType rows check p = .ok ks) : ks = satisfying flt dfType rows check p := by
  classical
  have hf : ¬ (check ≠ "range" ∧ check ≠ "list") → ∀ x b, predicate flt check p x = .ok b →
      (b = true ↔ Holds flt check p x) := by
    intro h1 x b hb
    unfold predicate at hb
    by_cases hc : check = "range"
    · rw [if_pos hc] at hb; rw [hc]; exact inRange_iff hb
    · rw [if_neg hc] at hb
      have : check = "list" := by
        by_contra h; exact h1 ⟨hc, h⟩
      rw [this]; exact inList_iff hb
  unfold evaluate at h
  split_ifs at h with h1 h2 h3
  · cases hr : results (predicate flt check p) (rows.map (·.2)) with
    | error e => rw [hr] at h; cases h
    | ok bs =>
      rw [hr] at h; cases h
      have := results_ok (hf h1) hr
      rw [List.map_map] at this
      subst this
      unfold satisfying named
      rw [if_pos h2]; exact positions_eq rows (fun x => decide (Holds flt check p x)) 0
  · cases hr : results (predicate flt check p) (rows.map (·.2)) with
    | error e => rw [hr] at h; cases h
    | ok bs =>
      rw [hr] at h; cases h
      have := results_ok (hf h1) hr
      rw [List.map_map] at this
      subst this
      unfold satisfying named
      rw [if_neg h2]; exact labels_eq rows (fun x => decide (Holds flt check p x))

theorem column_ok {dfType : String} {rows : Column C} {checks : List (String × Param C)} {acc r : PyDict String Entry}
    (hn : (acc.map (·.1) ++ checks.map (·.1)).Nodup) (h : column flt dfType rows acc checks = (r, none)) :
    r = acc ++ checks.map fun c => (c.1, some (satisfying flt dfType rows c.1 c.2)) := by
  induction checks generalizing acc with
  | nil => cases h; simp
  | cons c checks ih =>
    obtain ⟨check, p⟩ := c
    simp only [column] at h
    cases he : evaluate flt dfType rows check p with
    | error e => rw [he] at h; cases h
    | ok ks =>
      rw [he] at h; dsimp only at h
      have hk : check ∉ PyDict.keys acc := by
        intro hm
        rw [List.nodup_append] at hn
        exact hn.2.2 _ hm _ (by simp) rfl
      rw [PyDict.set_of_not_mem hk] at h
      rw [ih (by simpa using hn) h, evaluate_ok he]
      simp

/-- What is known about a report after a successful run: the configured columns are exact, the others as before. -/
theorem columns_ok {dfType : String} {data : PyDict String (Column C)} {checks : List (String × PyDict String (Param C))}
    {acc r : PyDict String (PyDict String Entry)} (hn : (checks.map (·.1)).Nodup)
    (hw : ∀ c ∈ checks, (c.2.map (·.1)).Nodup)
    (h : columns flt dfType data acc checks = (r, none)) :
    (∀ c ∈ checks, ∃ rows entry, PyDict.get? data c.1 = some rows ∧ PyDict.get? r c.1 = some entry ∧
      Exact flt dfType rows c.2 entry) ∧
    (∀ name, name ∉ checks.map (·.1) → PyDict.get? r name = PyDict.get? acc name) := by
  induction checks generalizing acc with
  | nil => cases h; exact ⟨by simp, fun _ _ => rfl⟩
  | cons c checks ih =>
    obtain ⟨name, cs⟩ := c
    simp only [columns] at h
    cases hd : PyDict.get? data name with
    | none => rw [hd] at h; cases h
    | some rows =>
      rw [hd] at h; dsimp only at h
      cases hc : column flt dfType rows [] cs with
      | mk entry e =>
        rw [hc] at h; dsimp only at h
        cases e with
        | some e => cases h
        | none =>
          dsimp only at h
          rw [List.map_cons, List.nodup_cons] at hn
          obtain ⟨i1, i2⟩ := ih hn.2 (fun c hm => hw c (List.mem_cons_of_mem _ hm)) h
          refine ⟨fun c hm => ?_, fun n hm => ?_⟩
          · rcases List.mem_cons.1 hm with rfl | hm
            · refine ⟨rows, entry, hd, ?_, ?_⟩
              · rw [i2 _ hn.1, PyDict.get?_set, if_pos rfl]
              · have hnd := hw _ List.mem_cons_self
                have he := column_ok (by simpa using hnd) hc
                subst he
                constructor
                · simp [Function.comp_def]
                · intro check p hm
                  refine PyDict.get?_of_mem ?_ ?_
                  · simpa [PyDict.WF, PyDict.keys, Function.comp_def] using hnd
                  · simp only [List.nil_append, List.mem_map]; exact ⟨(check, p), hm, rfl⟩
            · exact i1 c hm
          · rw [List.map_cons, List.mem_cons, not_or] at hm
            rw [i2 n hm.2, PyDict.get?_set, if_neg (fun h => hm.1 h.symm)]

/-- C46: after a successful `validate`, `get()` succeeds and holds, for each configured column, exactly the configured
checks with exactly the rows satisfying them, whatever was validated before.

Missing from the full statement: entries of columns that are not configured now are those of earlier runs, including
failed ones (`C46_stale_fails`); for a new validator there are none (`C46_new`). -/
theorem C46_partial (data : PyDict String (Column C)) (config : Config C) (s s' : State)
    (h : validate flt data config s = (s', none)) (hn : PyDict.WF (config.checks.getD []))
    (hw : ∀ c ∈ config.checks.getD [], PyDict.WF c.2) :
    ∃ r, get s' = .ok r ∧
      (∀ c ∈ config.checks.getD [], ∃ rows entry, PyDict.get? data c.1 = some rows ∧ PyDict.get? r c.1 = some entry ∧
        Exact flt (config.dfType.getD "") rows c.2 entry) ∧
      (∀ name, name ∉ (config.checks.getD []).map (·.1) → PyDict.get? r name = PyDict.get? s.report name) := by
  unfold validate at h
  dsimp only at h
  split_ifs at h with h1 h2
  · cases h
  · cases h
  · cases hc : columns flt (config.dfType.getD "") data s.report (config.checks.getD []) with
    | mk r e =>
      rw [hc] at h
      cases e with
      | some e => cases h
      | none =>
        cases h
        exact ⟨r, rfl, columns_ok hn hw hc⟩

/-- C46 for a new validator: the report is about the configured columns only. -/
theorem C46_new (data : PyDict String (Column C)) (config : Config C) (s' : State)
    (h : validate flt data config new = (s', none)) (hn : PyDict.WF (config.checks.getD []))
    (hw : ∀ c ∈ config.checks.getD [], PyDict.WF c.2) :
    ∃ r, get s' = .ok r ∧ ∀ name, (∃ entry, PyDict.get? r name = some entry) ↔
      ∃ checks, (name, checks) ∈ config.checks.getD [] := by
  obtain ⟨r, h1, h2, h3⟩ := C46_partial data config new s' h hn hw
  refine ⟨r, h1, fun name => ⟨?_, ?_⟩⟩
  · rintro ⟨entry, he⟩
    by_contra hne
    rw [h3 name (by rintro hm; obtain ⟨c, hc, rfl⟩ := List.mem_map.1 hm; exact hne ⟨c.2, hc⟩)] at he
    cases he
  · rintro ⟨checks, hm⟩
    obtain ⟨rows, entry, -, h, -⟩ := h2 _ hm
    exact ⟨entry, h⟩

theorem run_of (data : PyDict String (Column C)) (config : Config C) (s : State) :
    (validate flt data config s).1.run = (s.run || (validate flt data config s).2.isNone) := by
  unfold validate
  dsimp only
  split_ifs
  · simp
  · simp
  · cases hc : columns flt (config.dfType.getD "") data s.report (config.checks.getD []) with
    | mk r e => cases e <;> simp

/-- Whether one of a sequence of calls succeeds. -/
def Succeeds (flt : C → Except Err Flt) : List (PyDict String (Column C) × Config C) → State → Prop
  | [], _ => False
  | (data, config) :: rest, s =>
    (validate flt data config s).2 = none ∨ Succeeds flt rest (validate flt data config s).1

/-- `get()` raises exactly as long as no run has succeeded. -/
theorem C46_get (calls : List (PyDict String (Column C) × Config C)) :
    ((∃ r, get (history flt calls new) = .ok r) ↔ Succeeds flt calls new) ∧
      (¬ Succeeds flt calls new → get (history flt calls new) = .error .warning) := by
  have hrun : ∀ s, (history flt calls s).run = true ↔ s.run = true ∨ Succeeds flt calls s := by
    induction calls with
    | nil => intro s; simp [history, Succeeds]
    | cons c calls ih =>
      intro s
      rw [history, ih, run_of, Succeeds, Bool.or_eq_true, Option.isNone_iff_eq_none, or_assoc]
  have hn := hrun new
  simp only [new, Bool.false_eq_true, false_or] at hn
  unfold Verif.Validator.get
  constructor
  · rw [← show _ ↔ Succeeds flt calls new from hn]
    constructor
    · rintro ⟨r, h⟩
      split_ifs at h with hr
      · exact hr
    · intro h
      exact ⟨_, if_pos h⟩
  · intro h
    exact if_neg fun hr => h (hn.1 hr)

/-! ### When validation succeeds -/

theorem results_total {f : C → Except Err Bool} {xs : List C} (h : ∀ x ∈ xs, ∃ b, f x = .ok b) :
    ∃ bs, results f xs = .ok bs := by
  induction xs with
  | nil => exact ⟨_, rfl⟩
  | cons x xs ih =>
    obtain ⟨b, hb⟩ := h x List.mem_cons_self
    obtain ⟨bs, hbs⟩ := ih fun y hy => h y (List.mem_cons_of_mem _ hy)
    exact ⟨b :: bs, by simp only [results, hb, hbs]⟩

/-- Sane configurations never raise. -/
theorem C46_succeeds (data : PyDict String (Column C)) (config : Config C) (s : State)
    (checks : PyDict String (PyDict String (Param C))) (dfType : String) (h1 : config.checks = some checks)
    (h2 : config.dfType = some dfType) (h : Sane flt data checks dfType) : (validate flt data config s).2 = none := by
  have hev : ∀ rows : Column C, (∀ r ∈ rows, ∃ v, flt r.2 = .ok v) → ∀ k : String × Param C,
      ((k.1 = "list" ∧ ∃ l, k.2 = .list l) ∨
        (k.1 = "range" ∧ ∃ d s e a b, k.2 = .dict d ∧ PyDict.get? d "start" = some s ∧ PyDict.get? d "end" = some e ∧
          flt s = .ok a ∧ flt e = .ok b)) → ∃ ks, evaluate flt dfType rows k.1 k.2 = .ok ks := by
    intro rows hrows k hk
    have htot : ∃ bs, results (predicate flt k.1 k.2) (rows.map (·.2)) = .ok bs := by
      refine results_total fun x hx => ?_
      obtain ⟨r, hr, rfl⟩ := List.mem_map.1 hx
      obtain ⟨v, hv⟩ := hrows r hr
      unfold predicate
      rcases hk with ⟨hk, l, hl⟩ | ⟨hk, d, s, e, a, b, hd, hs, he, ha, hb⟩
      · rw [if_neg (by rw [hk]; decide)]
        simp only [inList, hv, hl]
        exact ⟨_, rfl⟩
      · rw [if_pos hk]
        simp only [inRange, hd, hs, ha, hv, he, hb]
        split_ifs <;> exact ⟨_, rfl⟩
    obtain ⟨bs, hbs⟩ := htot
    unfold evaluate
    rw [if_neg (by rcases hk with ⟨hk, -⟩ | ⟨hk, -⟩ <;> simp [hk])]
    rw [hbs]
    rcases h.frame with hf | hf
    · rw [if_neg (by rw [hf]; decide), if_pos hf]; exact ⟨_, rfl⟩
    · rw [if_pos hf]; exact ⟨_, rfl⟩
  have hcol : ∀ rows : Column C, (∀ r ∈ rows, ∃ v, flt r.2 = .ok v) → ∀ (cs : List (String × Param C)) acc,
      (∀ k ∈ cs, ∃ ks, evaluate flt dfType rows k.1 k.2 = .ok ks) → (column flt dfType rows acc cs).2 = none := by
    intro rows hrows cs
    induction cs with
    | nil => intro acc _; rfl
    | cons k cs ih =>
      intro acc hk
      obtain ⟨ks, he⟩ := hk k List.mem_cons_self
      simp only [column, he]
      exact ih _ fun k hm => hk k (List.mem_cons_of_mem _ hm)
  have hcols : ∀ (cs : List (String × PyDict String (Param C))) acc, (∀ c ∈ cs, c ∈ checks) →
      (columns flt dfType data acc cs).2 = none := by
    intro cs
    induction cs with
    | nil => intro acc _; rfl
    | cons c cs ih =>
      intro acc hm
      obtain ⟨rows, hr, hrows⟩ := h.present c (hm c List.mem_cons_self)
      have hnone := hcol rows hrows c.2 [] fun k hk => hev rows hrows k (h.known c (hm c List.mem_cons_self) k hk)
      simp only [columns, hr, hnone]
      exact ih _ fun c hc => hm c (List.mem_cons_of_mem _ hc)
  unfold validate
  rw [if_neg (by simp [h1]), h1, h2]
  dsimp only [Option.getD_some]
  rw [if_neg]
  · rw [hcols checks s.report fun _ h => h]
  · rw [List.any_eq_true]
    rintro ⟨c, hc, he⟩
    exact h.some_check c hc (List.isEmpty_iff.1 he)

/-! ### Non-trivial cases -/

/-- Cells: numbers and text. -/
def cellFlt : Option ℤ → Except Err Flt
  | some n => .ok (.fin n)
  | none => .error .valueError

def frame : PyDict String (Column (Option ℤ)) :=
  [("a", [(.int 5, some 1), (.int 6, some 3), (.int 7, some 9)]), ("b", [(.int 5, none)])]

def conf (dfType : String) : Config (Option ℤ) :=
  ⟨some [("a", [("range", .dict [("start", some 2), ("end", some 9)]), ("list", .list [.num (.fin 1), .other])])],
    some dfType, false⟩

example : Sane cellFlt frame ((conf "pandas").checks.getD []) "pandas" where
  some_check := by simp [conf]
  frame := .inl rfl
  present := by
    intro c hc
    simp only [conf, Option.getD_some, List.mem_singleton] at hc
    subst hc
    refine ⟨_, rfl, fun r hr => ?_⟩
    change r ∈ [(Key.int 5, some (1 : ℤ)), (Key.int 6, some 3), (Key.int 7, some 9)] at hr
    fin_cases hr <;> exact ⟨_, rfl⟩
  known := by
    intro c hc k hk
    simp only [conf, Option.getD_some, List.mem_singleton] at hc
    subst hc
    change k ∈ [("range", Param.dict [("start", some (2 : ℤ)), ("end", some 9)]), ("list", .list [.num (.fin 1), .other])] at hk
    fin_cases hk
    · exact .inr ⟨rfl, _, _, _, _, _, rfl, rfl, rfl, rfl, rfl⟩
    · exact .inl ⟨rfl, _, rfl⟩

example : validate cellFlt frame (conf "pandas") new =
    (⟨true, [("a", [("range", some [.int 6, .int 7]), ("list", some [.int 5])])]⟩, none) := by decide +kernel

example : validate cellFlt frame (conf "dask") new =
    (⟨true, [("a", [("range", some [.int 1, .int 2]), ("list", some [.int 0])])]⟩, none) := by decide +kernel

/-! ### What fails -/

/-- C46 fails: a column validated earlier stays in the report although the last configuration does not mention it. -/
theorem C46_stale_fails : ∃ (calls : List (PyDict String (Column (Option ℤ)) × Config (Option ℤ))) (r : _) ,
    get (history cellFlt calls new) = .ok r ∧ (∀ c ∈ calls.getLast?, ∀ checks, c.2.checks = some checks → "a" ∉ checks.map (·.1)) ∧
    PyDict.get? r "a" = some [("list", some [.int 0])] :=
  ⟨[([("a", [(.int 0, some 1)])], ⟨some [("a", [("list", .list [.num (.fin 1)])])], some "pandas", false⟩),
    ([("b", [(.int 0, some 1)])], ⟨some [("b", [("list", .list [.num (.fin 2)])])], some "pandas", false⟩)],
    [("a", [("list", some [.int 0])]), ("b", [("list", some [])])], rfl, by simp, by decide +kernel⟩

/-- C46 fails: after a run that raised, `get()` returns what the failed run left, here an unevaluated check. -/
theorem C46_failed_fails : ∃ (calls : List (PyDict String (Column (Option ℤ)) × Config (Option ℤ))) (r : _),
    get (history cellFlt calls new) = .ok r ∧ PyDict.get? r "a" = some [("range", none)] :=
  ⟨[(frame, conf "pandas"), (frame, ⟨some [("a", [("range", .dict [("start", none)])])], some "pandas", false⟩)], _, rfl,
    by decide +kernel⟩

/-- C46 fails: a configuration without checks counts as a run. -/
theorem C46_empty_fails (data : PyDict String (Column C)) :
    get (validate flt data ⟨none, some "pandas", false⟩ new).1 = .ok [] := rfl

end Verif.Props.Validator
