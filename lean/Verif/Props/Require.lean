import Verif.Lemmas.Require

/-!
# C114: functions that need optional modules run or say what is missing

For all lists of modules and all histories of a process.
-/

namespace Verif.Props.Require

open Verif.Require Verif.Spec.Require

/-- A warning names the first module that cannot be imported, and there is one exactly if there is such a module. -/
theorem C114_warned (guarded : List String) (s : State) (n : String) :
    (call guarded s).2 = .warned n ↔ FirstMissing s guarded n := by
  have missing : ∀ k, FirstMissing s guarded k → (call guarded s).2 = .warned k := by
    rintro k ⟨pre, post, e, h1, h2⟩
    have := check_missing guarded k pre post e pre s h1 (fun _ h => h) h2
    rw [← e] at this
    unfold call
    generalize check guarded guarded s = x at this ⊢
    obtain ⟨s', _ | m⟩ := x
    · cases this
    · simpa using this
  refine ⟨fun h => ?_, missing n⟩
  rcases first_or_all s guarded with ha | ⟨k, hk⟩
  · obtain ⟨h1, -⟩ := check_all guarded guarded s ha (fun _ h => h)
    unfold call at h
    generalize check guarded guarded s = x at h h1
    obtain ⟨s', _ | m⟩ := x
    · simp only at h
      split at h <;> cases h
    · cases h1
  · have := missing k hk
    rw [h] at this
    cases this
    exact hk

/-- When a function is run, and when it raises a NameError instead. -/
theorem C114_runs (guarded : List String) (s : State) :
    ((call guarded s).2 = .ran ↔
      (∀ m ∈ guarded, Available s m) ∧ ((∃ m ∈ guarded, m ∉ s.sys) ∨ ∀ m ∈ guarded, m ∈ s.bound)) ∧
    ((call guarded s).2 = .nameError ↔ (∀ m ∈ guarded, m ∈ s.sys) ∧ ∃ m ∈ guarded, m ∉ s.bound) := by
  rcases first_or_all s guarded with ha | ⟨k, hk⟩
  · obtain ⟨h1, h2, h3⟩ := check_all guarded guarded s ha (fun _ h => h)
    have e : (call guarded s).2 = if ∀ m ∈ guarded, m ∈ (check guarded guarded s).1.bound then .ran else .nameError := by
      unfold call
      generalize check guarded guarded s = x at h1
      obtain ⟨s', _ | m⟩ := x
      · rfl
      · cases h1
    rw [e]
    by_cases hs : ∀ m ∈ guarded, m ∈ s.sys
    · rw [h2 hs]
      have hno : ¬ ∃ m ∈ guarded, m ∉ s.sys := by push Not; exact hs
      by_cases hb : ∀ m ∈ guarded, m ∈ s.bound
      · have : ¬ ∃ m ∈ guarded, m ∉ s.bound := by push Not; exact hb
        rw [if_pos hb]
        exact ⟨⟨fun _ => ⟨ha, Or.inr hb⟩, fun _ => rfl⟩, ⟨fun h => (by cases h), fun h => absurd h.2 this⟩⟩
      · rw [if_neg hb]
        refine ⟨⟨fun h => (by cases h), fun h => ?_⟩, ⟨fun _ => ⟨hs, by push Not at hb; exact hb⟩, fun _ => rfl⟩⟩
        rcases h.2 with h | h
        · exact absurd h hno
        · exact absurd h hb
    · have hex : ∃ m ∈ guarded, m ∉ s.sys := by push Not at hs; exact hs
      rw [if_pos (fun m hm => (h3 hex m hm).2)]
      exact ⟨⟨fun _ => ⟨ha, Or.inl hex⟩, fun _ => rfl⟩, ⟨fun h => (by cases h), fun h => absurd h.1 hs⟩⟩
  · have hw := (C114_warned guarded s k).mpr hk
    obtain ⟨pre, post, e, _, h2⟩ := hk
    have hmem : k ∈ guarded := by rw [e]; simp
    rw [hw]
    exact ⟨⟨fun h => (by cases h), fun h => absurd (h.1 k hmem) h2⟩, ⟨fun h => (by cases h), fun h => absurd (Or.inl (h.1 k hmem)) h2⟩⟩

/-- What can be imported after a history: what could be before and what was installed. -/
theorem available_run (guarded : List String) (es : List Event) : ∀ (s : State) (m : String),
    Available (run (call guarded) s es) m ↔ Available s m ∨ Installs es m := by
  have hcall : ∀ (s : State) (m : String), Available (call guarded s).1 m ↔ Available s m := by
    intro s m
    have := call_inv (fun q => Available q m ↔ Available s m) guarded (fun q hq => (available_execute guarded q m).trans hq) s Iff.rfl
    exact this
  induction es with
  | nil => intro s m; simp [run, Installs]
  | cons e es ih =>
    intro s m
    have : run (call guarded) s (e :: es) = run (call guarded) (event (call guarded) s e) es := rfl
    rw [this, ih]
    cases e with
    | install x =>
      simp only [event, Available, Installs, List.mem_cons, Event.install.injEq]
      tauto
    | importOther x =>
      simp only [event, Installs, List.mem_cons, reduceCtorEq, false_or]
      split
      · rename_i hx
        simp only [Available, List.mem_cons]
        constructor
        · rintro (((rfl | h) | h) | h)
          · exact Or.inl (Or.inr hx)
          · exact Or.inl (Or.inl h)
          · exact Or.inl (Or.inr h)
          · exact Or.inr h
        · tauto
      · rfl
    | call =>
      simp only [event, Installs, List.mem_cons, reduceCtorEq, false_or]
      rw [hcall]

/-- If nobody else imports the modules after the package, or if all were there when the package was imported: a call runs exactly if all
modules are there by then, whenever they were installed, and otherwise warns of the first that is not. Missing: modules that were
installed later and that somebody else imports before the call. -/
theorem C114_history_partial (guarded installed sys : List String) (es : List Event)
    (h : LeftAlone guarded es ∨ ∀ m ∈ guarded, m ∈ installed ∨ m ∈ sys) :
    let s := run (call guarded) (start guarded installed sys) es
    ((call guarded s).2 = .ran ↔ ∀ m ∈ guarded, m ∈ installed ∨ m ∈ sys ∨ Installs es m) ∧
    ((call guarded s).2 ≠ .ran → ∃ n, (call guarded s).2 = .warned n ∧ n ∈ guarded ∧ ¬ (n ∈ installed ∨ n ∈ sys ∨ Installs es n)) := by
  intro s
  have hav : ∀ m, Available s m ↔ m ∈ installed ∨ m ∈ sys ∨ Installs es m := by
    intro m
    show Available (run (call guarded) (start guarded installed sys) es) m ↔ _
    rw [available_run, start, available_execute]
    simp only [Available]
    tauto
  have hsafe : (∀ m ∈ guarded, m ∈ s.sys) → ∀ m ∈ guarded, m ∈ s.bound := by
    rcases h with h | h
    · -- what is in `sys.modules` is bound, unless the first execution ended before it
      have key : ∀ (es : List Event) (q : State), LeftAlone guarded es →
          ((∀ m ∈ guarded, m ∈ q.sys) → ∀ m ∈ guarded, m ∈ q.bound) →
          ((∀ m ∈ guarded, m ∈ (run (call guarded) q es).sys) → ∀ m ∈ guarded, m ∈ (run (call guarded) q es).bound) := by
        have hex : ∀ q : State, ((∀ m ∈ guarded, m ∈ q.sys) → ∀ m ∈ guarded, m ∈ q.bound) →
            ((∀ m ∈ guarded, m ∈ (execute guarded q).sys) → ∀ m ∈ guarded, m ∈ (execute guarded q).bound) := by
          intro q _ hall
          have ha : ∀ m ∈ guarded, Available q m := fun m hm => (available_execute guarded q m).mp (Or.inl (hall m hm))
          exact fun m hm => (execute_all ha m hm).2
        intro es
        induction es with
        | nil => intro q _ hq; exact hq
        | cons e es ih =>
          intro q hl hq
          have hl' : LeftAlone guarded es := fun m hm x hx => hl m hm x (by simp [hx])
          have : run (call guarded) q (e :: es) = run (call guarded) (event (call guarded) q e) es := rfl
          rw [this]
          refine ih _ hl' ?_
          cases e with
          | install x => exact hq
          | importOther x =>
            simp only [event]
            split
            · intro hall
              refine hq fun m hm => ?_
              have hx := hall m hm
              simp only [List.mem_cons] at hx
              rcases hx with rfl | hx
              · exact absurd rfl (hl m hm _ (by simp))
              · exact hx
            · exact hq
          | call => exact call_inv _ guarded hex q hq
      refine key es (start guarded installed sys) h ?_
      intro hall
      have ha : ∀ m ∈ guarded, Available ⟨installed, sys, []⟩ m := fun m hm =>
        (available_execute guarded _ m).mp (Or.inl (hall m hm))
      exact fun m hm => (execute_all ha m hm).2
    · intro _
      have hb : ∀ m ∈ guarded, m ∈ (start guarded installed sys).bound := fun m hm =>
        (execute_all (s := ⟨installed, sys, []⟩) (fun m hm => (h m hm).symm) m hm).2
      have key : ∀ (es : List Event) (q : State), (∀ m ∈ guarded, m ∈ q.bound) → ∀ m ∈ guarded, m ∈ (run (call guarded) q es).bound := by
        intro es
        induction es with
        | nil => intro q hq; exact hq
        | cons e es ih =>
          intro q hq
          refine ih (event (call guarded) q e) ?_
          cases e with
          | install x => exact hq
          | importOther x =>
            simp only [event]
            split <;> exact hq
          | call => exact call_inv (fun q => ∀ m ∈ guarded, m ∈ q.bound) guarded (fun q hq m hm => (execute_grows guarded q).2 m (hq m hm)) q hq
      exact key es _ hb
  obtain ⟨r1, r2⟩ := C114_runs guarded s
  constructor
  · rw [r1]
    constructor
    · rintro ⟨ha, _⟩ m hm
      exact (hav m).mp (ha m hm)
    · intro ha
      refine ⟨fun m hm => (hav m).mpr (ha m hm), ?_⟩
      by_cases hs : ∀ m ∈ guarded, m ∈ s.sys
      · exact Or.inr (hsafe hs)
      · push Not at hs
        exact Or.inl hs
  · intro hn
    cases hr : (call guarded s).2 with
    | ran => exact absurd hr hn
    | warned n =>
      obtain ⟨pre, post, e, _, h2⟩ := (C114_warned guarded s n).mp hr
      exact ⟨n, rfl, by rw [e]; simp, fun hx => h2 ((hav n).mpr hx)⟩
    | nameError =>
      obtain ⟨h1, m, hm, hb⟩ := r2.mp hr
      exact absurd (hsafe h1 m hm) hb

/-- Once a function has run it always runs. -/
theorem C114_stays (guarded : List String) (s : State) (h : (call guarded s).2 = .ran) (es : List Event) :
    (call guarded (run (call guarded) (call guarded s).1 es)).2 = .ran := by
  have hb : ∀ m ∈ guarded, m ∈ (call guarded s).1.sys ∧ m ∈ (call guarded s).1.bound := by
    obtain ⟨ha, hor⟩ := (C114_runs guarded s).1.mp h
    obtain ⟨h1, h2, h3⟩ := check_all guarded guarded s ha (fun _ h => h)
    have e : (call guarded s).1 = (check guarded guarded s).1 := by
      unfold call
      generalize check guarded guarded s = x
      obtain ⟨s', _ | m⟩ := x <;> rfl
    rw [e]
    by_cases hs : ∀ m ∈ guarded, m ∈ s.sys
    · rw [h2 hs]
      rcases hor with ⟨m, hm, hx⟩ | hb
      · exact absurd (hs m hm) hx
      · exact fun m hm => ⟨hs m hm, hb m hm⟩
    · push Not at hs
      exact h3 hs
  have key : ∀ (es : List Event) (q : State), (∀ m ∈ guarded, m ∈ q.sys ∧ m ∈ q.bound) →
      ∀ m ∈ guarded, m ∈ (run (call guarded) q es).sys ∧ m ∈ (run (call guarded) q es).bound := by
    intro es
    induction es with
    | nil => intro q hq; exact hq
    | cons e es ih =>
      intro q hq
      refine ih (event (call guarded) q e) ?_
      cases e with
      | install x => exact hq
      | importOther x =>
        simp only [event]
        split
        · exact fun m hm => ⟨List.mem_cons_of_mem _ (hq m hm).1, (hq m hm).2⟩
        · exact hq
      | call =>
        exact call_inv (fun q => ∀ m ∈ guarded, m ∈ q.sys ∧ m ∈ q.bound) guarded
          (fun q hq m hm => ⟨(execute_grows guarded q).1 m (hq m hm).1, (execute_grows guarded q).2 m (hq m hm).2⟩) q hq
  have hk := key es _ hb
  exact (C114_runs guarded _).1.mpr ⟨fun m hm => Or.inl (hk m hm).1, Or.inr fun m hm => (hk m hm).2⟩

/-- Once a function raises a NameError it always does: the module is not executed again. -/
theorem C114_stuck (guarded : List String) (es : List Event) : ∀ (s : State), (call guarded s).2 = .nameError →
    (call guarded (run (call guarded) s es)).2 = .nameError := by
  induction es with
  | nil => intro s h; exact h
  | cons e es ih =>
    intro s h
    refine ih (event (call guarded) s e) ?_
    obtain ⟨h1, h2⟩ := (C114_runs guarded s).2.mp h
    refine (C114_runs guarded _).2.mpr ?_
    cases e with
    | install x => exact ⟨h1, h2⟩
    | importOther x =>
      simp only [event]
      split
      · exact ⟨fun m hm => List.mem_cons_of_mem _ (h1 m hm), h2⟩
      · exact ⟨h1, h2⟩
    | call =>
      have : (call guarded s).1 = s := by
        obtain ⟨_, k2, _⟩ := check_all guarded guarded s (fun m hm => Or.inl (h1 m hm)) (fun _ h => h)
        have e : (call guarded s).1 = (check guarded guarded s).1 := by
          unfold call
          generalize check guarded guarded s = x
          obtain ⟨s', _ | m⟩ := x <;> rfl
        rw [e, k2 h1]
      simp only [event]
      rw [this]
      exact ⟨h1, h2⟩

/-- A module that is installed after the import of the package and imported by somebody else makes the function raise a NameError,
although everything is there. -/
theorem C114_fails :
    (call ["matplotlib", "seaborn"] (run (call ["matplotlib", "seaborn"]) (start ["matplotlib", "seaborn"] ["matplotlib"] [])
      [.call, .install "seaborn", .importOther "seaborn"])).2 = .nameError := by decide +kernel

/-- Predictions of column names work exactly if `rapidfuzz` was there when the package was imported. Otherwise they raise a NameError
instead of the warning, whatever is installed or imported later. -/
theorem C114_predict (installed sys : List String) (es : List Event) :
    let s := run predict (start ["rapidfuzz"] installed sys) es
    (("rapidfuzz" ∈ installed ∨ "rapidfuzz" ∈ sys) → (predict s).2 = .ran) ∧
    (¬ ("rapidfuzz" ∈ installed ∨ "rapidfuzz" ∈ sys) → (predict s).2 = .nameError) := by
  intro s
  constructor
  · intro h
    have h0 : "rapidfuzz" ∈ (start ["rapidfuzz"] installed sys).sys ∧ "rapidfuzz" ∈ (start ["rapidfuzz"] installed sys).bound :=
      execute_all (s := ⟨installed, sys, []⟩) (fun m hm => by simp at hm; rw [hm]; exact h.symm) _ (by simp)
    have key : ∀ (es : List Event) (q : State), ("rapidfuzz" ∈ q.sys ∧ "rapidfuzz" ∈ q.bound) →
        "rapidfuzz" ∈ (run predict q es).sys ∧ "rapidfuzz" ∈ (run predict q es).bound := by
      intro es
      induction es with
      | nil => intro q hq; exact hq
      | cons e es ih =>
        intro q hq
        refine ih (event predict q e) ?_
        cases e with
        | install x => exact hq
        | importOther x =>
          simp only [event]
          split
          · exact ⟨List.mem_cons_of_mem _ hq.1, hq.2⟩
          · exact hq
        | call =>
          simp only [event, predict, if_pos hq.2]
          exact call_inv (fun q => "rapidfuzz" ∈ q.sys ∧ "rapidfuzz" ∈ q.bound) _ (fun q hq => ⟨(execute_grows _ q).1 _ hq.1, (execute_grows _ q).2 _ hq.2⟩) q hq
    obtain ⟨k1, k2⟩ := key es _ h0
    simp only [predict]
    rw [if_pos k2]
    exact (C114_runs _ _).1.mpr ⟨fun m hm => by simp at hm; rw [hm]; exact Or.inl k1, Or.inr fun m hm => by simp at hm; rw [hm]; exact k2⟩
  · intro h
    have h0 : "rapidfuzz" ∉ (start ["rapidfuzz"] installed sys).bound := by
      push Not at h
      simp [start, execute, h.1, h.2]
    have key : ∀ (es : List Event) (q : State), "rapidfuzz" ∉ q.bound → "rapidfuzz" ∉ (run predict q es).bound := by
      intro es
      induction es with
      | nil => intro q hq; exact hq
      | cons e es ih =>
        intro q hq
        refine ih (event predict q e) ?_
        cases e with
        | install x => exact hq
        | importOther x =>
          simp only [event]
          split <;> exact hq
        | call =>
          simp only [event, predict, if_neg hq]
          exact hq
    simp only [predict]
    rw [if_neg (key es _ h0)]

/-- The functions for graphs in a process to which both modules are added later. -/
example : (call ["matplotlib", "seaborn"] (start ["matplotlib", "seaborn"] ["seaborn"] [])).2 = .warned "matplotlib" ∧
    (call ["matplotlib", "seaborn"] (run (call ["matplotlib", "seaborn"]) (start ["matplotlib", "seaborn"] [] [])
      [.call, .install "matplotlib", .call, .install "seaborn"])).2 = .ran ∧
    (call ["matplotlib", "seaborn"] (run (call ["matplotlib", "seaborn"]) (start ["matplotlib", "seaborn"] [] [])
      [.call, .install "matplotlib", .call])).2 = .warned "seaborn" := by decide +kernel

example : LeftAlone ["seaborn"] [.call, .install "seaborn", .importOther "matplotlib"] := by
  intro m hm e he
  simp at hm he
  subst hm
  rcases he with rfl | rfl | rfl <;> simp

end Verif.Props.Require
