import Verif.Lemmas.Factory

/-!
# C91: making profilers and labelers

`Profiler(...)` chooses the profiler that fits the data, makes it as the profiler without data and updates it; options given
are the ones used, options not given are not shared; `DataLabeler(...)` and the other ways to a labeler agree.
-/

namespace Verif.Props.Factory

open Verif Verif.Factory Verif.Spec.Factory

variable {L ρ α β : Type} (lib : Lib L ρ α β)

/-- A library for the examples: options are numbers, valid unless 0; a labeler loads from every directory but "bad"
and "wrong", where it is refused with a `ValueError`. -/
def demo : Lib String ℕ ℕ (List ℕ) where
  defaults _ := ⟨true, none, none, 7⟩
  valid o := o.rest ≠ 0
  load _ d := if d = some "bad" then .error .exception else if d = some "wrong" then .error .valueError else .ok (d.getD "default")
  fresh _ _ := []
  size _ n := n
  chunk _ _ b r n _ := .ok (b ++ [r.content, n])
  graphUpdate b r := .ok (b ++ [r.content])
  className f := match f with
    | .text => "<class 'str'>" | .list => "<class 'list'>" | _ => "<class 'pandas.core.frame.DataFrame'>"

/-- **C91 (the type).** Without a type, data gets the profiler that fits it: exactly what asking for that type by name gives;
data that fits no profiler is refused, and nothing is touched. -/
theorem C91_infer (d : Data α) (spu : Option ℕ) (m : MinTrue) (o : OptArg) (h : Heap L ρ) :
    (∀ k, Fits d k → profiler lib d spu m o none h = profiler lib d spu m o (some (nameOf k)) h) ∧
    ((¬∃ k, Fits d k) → profiler lib d spu m o none h = (.error .valueError, h)) := by
  refine ⟨fun k hk => ?_, fun hk => ?_⟩
  · rw [profiler_inferred lib (infer_fits hk), profiler_some lib (kindOf_name k)]
  · unfold profiler
    simp only [infer_unfit hk]

/-- The three kinds all occur, and so does data that fits none. -/
example : Fits (α := ℕ) (.raw ⟨.frame, 3, 5⟩) .structured ∧ Fits (α := ℕ) (.raw ⟨.text, 3, 5⟩) .unstructured ∧
    Fits (α := ℕ) (.raw ⟨.graph, 3, 5⟩) .graph ∧ ¬∃ k, Fits (α := ℕ) (.raw ⟨.other, 3, 5⟩) k :=
  ⟨.frame _ _, .text _ _, .graph _ _, fun ⟨_, h⟩ => nomatch h⟩

/-- **C91 (the type made).** A profiler made is of the kind asked for: the one of the name given, or the one that fits. -/
theorem C91_kind {d : Data α} {spu : Option ℕ} {m : MinTrue} {o : OptArg} {t : TypeArg} {h h' : Heap L ρ} {p : Prof β}
    (hp : profiler lib d spu m o t h = (.ok p, h')) :
    (∀ s, t = some s → s = nameOf p.kind) ∧ (t = none → Fits d p.kind) := by
  have key : ∀ k, make lib k d spu m o h = (.ok p, h') → p.kind = k := by
    intro k hk
    have upd : ∀ (q : Prof β) (x : Opts L ρ), update lib x q d none .absent = .ok p → p.kind = q.kind := by
      intro q x hu
      simp only [update, checkMin, bind, Except.bind] at hu
      split at hu
      · cases hu
      · split at hu
        · cases hu; rfl
        · split at hu
          · cases hu
          · cases hu; rfl
    have con : ∀ k, k ≠ .graph → feed lib d (construct lib k d spu m o h) = (.ok p, h') → p.kind = k := by
      intro k _ hf
      have ck : ∀ q h2, construct lib k d spu m o h = (.ok q, h2) → q.kind = k := by
        intro q h2 hc
        unfold construct at hc
        split at hc
        · cases hc
        · split at hc
          · cases hc
          · split at hc
            · cases hc
            · split at hc
              · cases hc
              · split_ifs at hc
                · split at hc <;> cases hc
                  rfl
                · cases hc
      generalize hc : construct lib k d spu m o h = x at hf
      obtain ⟨q, h2⟩ := x
      cases q with
      | error e => simp [feed] at hf
      | ok q =>
        rw [← ck q h2 hc]
        cases d with
        | missing => simp [feed] at hf; rw [hf.1]
        | raw r =>
          simp only [feed] at hf
          cases ha : at? h2 q.opts with
          | error e => rw [ha] at hf; simp at hf
          | ok x => rw [ha] at hf; simp only [Prod.mk.injEq] at hf; exact upd q x hf.1
        | reader a b c e r =>
          simp only [feed] at hf
          cases ha : at? h2 q.opts with
          | error e => rw [ha] at hf; simp at hf
          | ok x => rw [ha] at hf; simp only [Prod.mk.injEq] at hf; exact upd q x hf.1
    cases k with
    | structured => exact con _ (by simp) hk
    | unstructured => exact con _ (by simp) hk
    | graph =>
      simp only [make, Prod.mk.injEq] at hk
      have hg := hk.1
      unfold graphUpdate at hg
      split at hg
      · split_ifs at hg
        · cases hg; rfl
        · simp only [bind, Except.bind] at hg
          split at hg
          · cases hg
          · cases hg; rfl
      · split_ifs at hg
        · cases hg; rfl
        · simp only [bind, Except.bind] at hg
          split at hg
          · cases hg
          · cases hg; rfl
      · cases hg
  refine ⟨?_, ?_⟩
  · rintro s rfl
    unfold profiler at hp
    split at hp
    · cases hp
    · rename_i k hk
      rw [key k hp]
      exact kindOf_ok hk
  · rintro rfl
    by_cases hf : ∃ k, Fits d k
    · obtain ⟨k, hk⟩ := hf
      unfold profiler at hp
      simp only [infer_fits hk] at hp
      rwa [key k hp]
    · rw [(C91_infer lib d spu m o h).2 hf] at hp
      cases hp

/-- **C91 (unknown type).** A type which is none of the three names is refused, and nothing is touched. -/
theorem C91_unknown {t : String} (ht : ∀ k, t ≠ nameOf k) (d : Data α) (spu : Option ℕ) (m : MinTrue) (o : OptArg) (h : Heap L ρ) :
    profiler lib d spu m o (some t) h = (.error .valueError, h) := by
  have : kindOf t = .error .valueError := by
    unfold kindOf
    rw [if_neg (show ¬t = "graph" from ht .graph), if_neg (show ¬t = "structured" from ht .structured),
      if_neg (show ¬t = "unstructured" from ht .unstructured)]
  unfold profiler
  simp only [this]

/-- Such a type. -/
example : ∀ k, "Structured" ≠ nameOf k := by intro k; cases k <;> decide

/-- A text reader for a structured profiler. -/
def TextToTable (k : Kind) (d : Data α) : Prop := k = .structured ∧ ∃ s e t r, d = .reader .text s e t r

/-- **C91 (with data).** Making a profiler from data is making it without data and updating it with the data. -/
theorem C91_data {k : Kind} (hk : k ≠ .graph) {d : Data α} (hd : d ≠ .missing) (ht : ¬TextToTable k d) (spu : Option ℕ) (m : MinTrue)
    (o : OptArg) (h : Heap L ρ) :
    match profiler lib .missing spu m o (some (nameOf k)) h with
    | (.ok p, h') => ∀ x, h'[p.opts]? = some x → profiler lib d spu m o (some (nameOf k)) h = (update lib x p d none .absent, h')
    | (.error e, h') => profiler lib d spu m o (some (nameOf k)) h = (.error e, h') := by
  have hsame : construct lib k d spu m o h = construct lib k .missing spu m o h := by
    cases k <;> cases d with
    | missing => rfl
    | raw r => rfl
    | reader c s e t r => cases c <;> first | rfl | exact absurd ⟨rfl, _, _, _, _, rfl⟩ ht
  rw [profiler_named lib hk, profiler_named lib hk, hsame]
  generalize construct lib k .missing spu m o h = x
  obtain ⟨p, h'⟩ := x
  cases p with
  | error e => rfl
  | ok p =>
    intro x hx
    have hat : at? h' p.opts = .ok x := by unfold at?; rw [hx]
    cases d with
    | missing => exact absurd rfl hd
    | raw r => simp only [feed, hat]
    | reader a b c e r => simp only [feed, hat]

/-- A table and the options of a user: made, then updated. -/
example : profiler demo (.raw ⟨.frame, 3, 5⟩) none .absent (.structured 0) none [⟨true, none, none, 4⟩] =
    (update demo ⟨true, none, some "default", 4⟩ ⟨.structured, 0, none, .absent, none, none, []⟩ (.raw ⟨.frame, 3, 5⟩) none .absent,
      [⟨true, none, some "default", 4⟩]) := rfl

/-- **C91 (options given).** The options given are the ones of the profiler: it holds their place, only their labeler is
seen to, and the options at every other place are as before. -/
theorem C91_options {k : Kind} {o : OptArg} {r : ℕ} (hg : Given o k r) {h : Heap L ρ} {x : Opts L ρ} (hx : h[r]? = some x)
    (hv : lib.valid x = true) (hr : ¬LabelerRefused lib.load k x) {m : MinTrue} (hm : IntOrNone m) (spu : Option ℕ) :
    ∃ x', Labeled lib.load k x x' ∧
      profiler lib .missing spu m o (some (nameOf k)) h = (.ok ⟨k, r, spu, m, none, none, lib.fresh k x'⟩, h.set r x') := by
  obtain ⟨x', h1, h2, -⟩ := assign_labeled lib hr
  refine ⟨x', h2, ?_⟩
  have hc := construct_ok lib (d := (.missing : Data α)) (spu := spu) (m := m) (resolve_given lib hg h) (by rintro _ _ _ _ _ ⟨⟩) hm hx hv
  have hk : k ≠ .graph := by rintro rfl; cases o <;> exact hg.elim
  rw [profiler_named lib hk, hc, h1]
  rfl

/-- **C91 (labeler refused).** A labeler that is refused with a `ValueError` is not just switched off: no profiler is made, from whatever
data, and the options are as before, but for the ones made if none were given. -/
theorem C91_labeler_refused {k : Kind} (hk : k ≠ .graph) {d : Data α} (ht : ¬TextToTable k d) {o : OptArg} {m : MinTrue} (hm : IntOrNone m)
    (spu : Option ℕ) (h : Heap L ρ) :
    (∀ r x, Given o k r → h[r]? = some x → lib.valid x = true → LabelerRefused lib.load k x →
      profiler lib d spu m o (some (nameOf k)) h = (.error .valueError, h)) ∧
    (NotGiven o → lib.valid (lib.defaults k) = true → LabelerRefused lib.load k (lib.defaults k) →
      profiler lib d spu m o (some (nameOf k)) h = (.error .valueError, h ++ [lib.defaults k])) := by
  have ht' : ∀ s e t x, k = .structured → d ≠ .reader .text s e t x := fun s e t x h1 h2 => ht ⟨h1, s, e, t, x, h2⟩
  refine ⟨fun r x hg hx hv hr => ?_, fun hn hv hr => ?_⟩
  · rw [profiler_named lib hk, construct_ok lib (spu := spu) (m := m) (resolve_given lib hg h) ht' hm hx hv, assign_refused lib hr]
    rfl
  · rw [profiler_named lib hk, construct_ok lib (spu := spu) (m := m) (resolve_none lib (k := k) hn h) ht' hm
      (opts := lib.defaults k) (by simp) hv, assign_refused lib hr]
    rfl

/-- Such options, and ones with which the labeler is switched off. -/
example : LabelerRefused demo.load .structured (⟨true, some "wrong", none, 4⟩ : Opts String ℕ) ∧
    ¬LabelerRefused demo.load .structured (⟨true, some "bad", none, 4⟩ : Opts String ℕ) ∧
    profiler demo (.raw ⟨.frame, 3, 5⟩) none .absent (.structured 0) none [⟨true, some "bad", none, 4⟩] =
      (.ok ⟨.structured, 0, none, .absent, none, some "<class 'pandas.core.frame.DataFrame'>", [5, 3]⟩, [⟨false, some "bad", none, 4⟩]) :=
  ⟨⟨rfl, rfl, rfl⟩, fun h => (by cases h.2.2), rfl⟩

/-- Options given, valid, with a labeler to be loaded. -/
example : Given (.full 1 0) .structured 1 ∧ Given (.full 1 0) .unstructured 0 ∧ IntOrNone (.int 3) ∧
    demo.valid ⟨true, some "dir", none, 4⟩ = true ∧ Labeled demo.load .structured (⟨true, some "dir", none, 4⟩ : Opts String ℕ)
      ⟨true, some "dir", some "dir", 4⟩ :=
  ⟨rfl, rfl, trivial, rfl, rfl, rfl, Or.inr (Or.inr (Or.inl ⟨rfl, rfl, ⟨"dir", rfl, rfl⟩, rfl⟩))⟩

/-- **C91 (options not given).** Without options a profiler gets options of its own, at a place nobody holds, and every other
place is as before. -/
theorem C91_defaults {k : Kind} (hk : k ≠ .graph) {o : OptArg} (hn : NotGiven o) (h : Heap L ρ) (hv : lib.valid (lib.defaults k) = true)
    (hr : ¬LabelerRefused lib.load k (lib.defaults k)) {m : MinTrue} (hm : IntOrNone m) (spu : Option ℕ) :
    ∃ x', Labeled lib.load k (lib.defaults k) x' ∧
      profiler lib .missing spu m o (some (nameOf k)) h = (.ok ⟨k, h.length, spu, m, none, none, lib.fresh k x'⟩, h ++ [x']) := by
  obtain ⟨x', h1, h2, -⟩ := assign_labeled lib hr
  refine ⟨x', h2, ?_⟩
  have hc := construct_ok lib (d := (.missing : Data α)) (spu := spu) (m := m) (resolve_none lib (k := k) hn h) (by rintro _ _ _ _ _ ⟨⟩) hm
    (opts := lib.defaults k) (by simp) hv
  have hs : (h ++ [lib.defaults k]).set h.length x' = h ++ [x'] := by
    rw [List.set_append_right _ _ (Nat.le_refl _)]
    simp
  rw [h1] at hc
  simp only [hs] at hc
  rw [profiler_named lib hk, hc]
  rfl

/-- Options not given: absent, or something empty. -/
example : NotGiven .absent ∧ NotGiven (.other false) ∧ demo.valid (demo.defaults .structured) = true ∧
    ¬LabelerRefused demo.load .structured (demo.defaults .structured) := ⟨trivial, rfl, rfl, fun h => (by cases h.2.2)⟩

/-- **C91 (isolation).** Options are left alone by everything that does not hold them: over any history of profilers made and
options changed, the options at a place stay as they were unless they are given to a profiler or changed. -/
theorem C91_alone {h : Heap L ρ} {r : ℕ} (hr : r < h.length) {steps : List (Step L ρ α)} (ht : ∀ s ∈ steps, ¬Touches r s) :
    (run lib h steps)[r]? = h[r]? := run_frame lib steps hr ht

/-- Such a history: profilers without options and with other options, and a change of other options. -/
example : ∀ s ∈ ([.make (.raw ⟨.frame, 3, 5⟩) none .absent .absent none, .make (.raw ⟨.text, 3, 5⟩) none .absent (.full 1 2) none,
    .change 1 id] : List (Step String ℕ ℕ)), ¬Touches 0 s := by
  intro s hs
  simp only [List.mem_cons, List.not_mem_nil, or_false] at hs
  rcases hs with rfl | rfl | rfl <;> simp [Touches]

/-- **C91 (graphs).** A profiler for graphs starts anew and takes in the graph given, or nothing if the graph is empty; what is refused there is
refused here, and so are other data. Settings and options are not looked at. -/
theorem C91_graph_data (d : Data α) (spu : Option ℕ) (m : MinTrue) (o : OptArg) (h : Heap L ρ) :
    let new : Prof β := ⟨.graph, 0, none, .absent, none, none, lib.fresh .graph (lib.defaults .graph)⟩
    (∀ n c, (d = .raw ⟨.graph, n, c⟩ ∨ ∃ s e t, d = .reader .graph s e t ⟨.graph, n, c⟩) →
      (n = 0 → profiler lib d spu m o (some "graph") h = (.ok new, h)) ∧
      (n ≠ 0 → (∀ b, lib.graphUpdate new.body ⟨.graph, n, c⟩ = .ok b → profiler lib d spu m o (some "graph") h = (.ok { new with body := b }, h)) ∧
        ∀ e, lib.graphUpdate new.body ⟨.graph, n, c⟩ = .error e → profiler lib d spu m o (some "graph") h = (.error e, h))) ∧
    (d = .missing ∨ (∃ f n c, f ≠ .graph ∧ d = .raw ⟨f, n, c⟩) ∨ (∃ k s e t r, k ≠ .graph ∧ d = .reader k s e t r) →
      profiler lib d spu m o (some "graph") h = (.error .notImplemented, h)) := by
  intro new
  have hp : ∀ d, profiler lib d spu m o (some "graph") h = (graphUpdate lib new d, h) := by
    intro d
    exact profiler_some lib (kindOf_name .graph) ..
  constructor
  · intro n c hd
    rw [hp]
    rcases hd with rfl | ⟨s, e, t, rfl⟩
    all_goals
      refine ⟨fun h0 => ?_, fun h0 => ⟨fun b hb => ?_, fun e he => ?_⟩⟩
      · simp [graphUpdate, h0]
      · simp [graphUpdate, h0, hb, bind, Except.bind]
      · simp [graphUpdate, h0, he, bind, Except.bind]
  · rintro (rfl | ⟨f, n, c, hf, rfl⟩ | ⟨k, s, e, t, r, hk, rfl⟩)
    · rw [hp]; rfl
    · rw [hp]; cases f <;> first | rfl | exact absurd rfl hf
    · rw [hp]; cases k <;> first | rfl | exact absurd rfl hk

/-- **C91 (options again).** A second profiler from the same options changes them no more and gets the same labeler. -/
theorem C91_again {k : Kind} {o : OptArg} {r : ℕ} (hg : Given o k r) {h : Heap L ρ} {x : Opts L ρ} (hx : h[r]? = some x)
    (hv : lib.valid x = true) (hr : ¬LabelerRefused lib.load k x) (hl : ∀ x', Labeled lib.load k x x' → lib.valid x' = true)
    {m m' : MinTrue} (hm : IntOrNone m) (hm' : IntOrNone m') (spu spu' : Option ℕ) :
    ∃ x' h', profiler lib .missing spu m o (some (nameOf k)) h = (.ok ⟨k, r, spu, m, none, none, lib.fresh k x'⟩, h') ∧
      profiler lib .missing spu' m' o (some (nameOf k)) h' = (.ok ⟨k, r, spu', m', none, none, lib.fresh k x'⟩, h') := by
  have hlt : r < h.length := (List.getElem?_eq_some_iff.1 hx).1
  have gen : ∀ (h : Heap L ρ) (x x' : Opts L ρ) (spu : Option ℕ) (m : MinTrue), h[r]? = some x → lib.valid x = true → IntOrNone m →
      assignLabeler lib k x = .ok x' →
      profiler lib .missing spu m o (some (nameOf k)) h = (.ok ⟨k, r, spu, m, none, none, lib.fresh k x'⟩, h.set r x') := by
    intro h x x' spu m hx hv hm ha
    have hc := construct_ok lib (d := (.missing : Data α)) (spu := spu) (m := m) (resolve_given lib hg h) (by rintro _ _ _ _ _ ⟨⟩) hm hx hv
    have hk : k ≠ .graph := by rintro rfl; cases o <;> exact hg.elim
    rw [profiler_named lib hk, hc, ha]
    rfl
  obtain ⟨x', h1, h2, h3⟩ := assign_labeled lib hr
  refine ⟨x', h.set r x', gen h x x' spu m hx hv hm h1, ?_⟩
  rw [gen (h.set r x') x' x' spu' m' (by rw [List.getElem?_set_self hlt]) (hl _ h2) hm' h3, List.set_set]

/-- **C91 (refused).** A structured or unstructured profiler is not made from: options of another kind or something else that
is true, a minimum which is no integer, or options that are not valid. -/
theorem C91_refused {k : Kind} (hk : k ≠ .graph) (d : Data α) (spu : Option ℕ) (m : MinTrue) (o : OptArg) (h : Heap L ρ) :
    ((¬NotGiven o ∧ ¬∃ r, Given o k r) → profiler lib d spu m o (some (nameOf k)) h = (.error .valueError, h)) ∧
    (¬IntOrNone m → ¬TextToTable k d → (profiler lib d spu m o (some (nameOf k)) h).1 = .error .valueError) ∧
    (∀ r x, Given o k r → h[r]? = some x → lib.valid x = false → ¬TextToTable k d →
      profiler lib d spu m o (some (nameOf k)) h = (.error .valueError, h)) ∧
    (TextToTable k d → ∀ r, Given o k r → profiler lib d spu m o (some (nameOf k)) h = (.error .typeError, h)) := by
  have herr : ∀ (e : Err) (h' : Heap L ρ), feed lib d (.error e, h') = (.error e, h') := fun _ _ => rfl
  rw [profiler_named lib hk]
  refine ⟨?_, ?_, ?_, ?_⟩
  · rintro ⟨hn, hg⟩
    have : resolve lib k o h = .error .valueError := by
      cases o with
      | absent => exact absurd trivial hn
      | other b => cases b with
        | true => cases k <;> rfl
        | false => exact absurd rfl hn
      | full s u => cases k with
        | graph => rfl
        | structured => exact absurd ⟨s, rfl⟩ hg
        | unstructured => exact absurd ⟨u, rfl⟩ hg
      | structured s => cases k with
        | structured => exact absurd ⟨s, rfl⟩ hg
        | _ => rfl
      | unstructured s => cases k with
        | unstructured => exact absurd ⟨s, rfl⟩ hg
        | _ => rfl
    unfold construct
    rw [this]
    rfl
  · intro hm ht
    have hcm : checkMin m = .error .valueError := by cases m <;> first | rfl | exact absurd trivial hm
    have : (construct lib k d spu m o h).1 = .error .valueError := by
      unfold construct
      split
      · rename_i e he
        cases o with
        | absent => cases he
        | other b => cases b with
          | true => cases k <;> cases he <;> rfl
          | false => cases he
        | full s u => cases k <;> cases he <;> rfl
        | structured s => cases k <;> cases he <;> rfl
        | unstructured s => cases k <;> cases he <;> rfl
      · split
        · exact absurd ⟨rfl, _, _, _, _, rfl⟩ ht
        · rw [hcm]
    generalize construct lib k d spu m o h = x at this
    obtain ⟨p, h'⟩ := x
    subst this
    rfl
  · intro r x hg hx hv ht
    have hat : at? h r = .ok x := by unfold at?; rw [hx]
    have : construct lib k d spu m o h = (.error .valueError, h) := by
      unfold construct
      rw [resolve_given lib hg]
      dsimp only
      split
      · exact absurd ⟨rfl, _, _, _, _, rfl⟩ ht
      · cases hc : checkMin m with
        | error e => cases m <;> first | (cases hc; rfl) | cases hc
        | ok _ =>
          dsimp only
          rw [hat]
          dsimp only
          rw [if_neg (by simp [hv])]
    rw [this, herr]
  · rintro ⟨rfl, s, e, t, r', rfl⟩ r hg
    have : construct lib .structured (.reader .text s e t r') spu m o h = (.error .typeError, h) := by
      unfold construct
      rw [resolve_given lib hg]
    rw [this]
    rfl

/-- The four cases occur. -/
example : (¬NotGiven (.unstructured 0) ∧ ¬∃ r, Given (.unstructured 0) .structured r) ∧ ¬IntOrNone .other ∧
    demo.valid ⟨true, none, none, 0⟩ = false ∧ TextToTable (α := ℕ) .structured (.reader .text true none "text" ⟨.list, 1, 0⟩) :=
  ⟨⟨id, fun ⟨_, h⟩ => h⟩, id, rfl, rfl, _, _, _, _, rfl⟩

/-- **C91 (the update).** A value of a type the profiler does not take is refused with a type error; nothing in it, it leaves
the profile as it was; otherwise the profile tells the type of the data and the encoding of the reader. -/
theorem C91_update (o : Opts L ρ) (p : Prof β) (hk : p.kind ≠ .graph) (d : Data α) (n : Option ℕ) :
    (∀ r, d = .raw r → (r.form = .graph ∨ r.form = .other ∨ (r.form = .text ∧ p.kind = .structured)) →
      update lib o p d n .absent = .error .typeError) ∧
    (∀ k s e t r, d = .reader k s e t r →
      (r.len = 0 → update lib o p d n .absent = .ok p) ∧
      (∀ q, r.len ≠ 0 → update lib o p d n .absent = .ok q → q.fileType = some t ∧ q.encoding = e.or p.encoding ∧
        q.kind = p.kind ∧ q.opts = p.opts ∧ q.samplesPerUpdate = p.samplesPerUpdate ∧
        ∃ c, lib.chunk p.kind o p.body r c p.minTrue = .ok q.body ∧ (∀ c', n = some (c' + 1) → c = c' + 1) ∧
          ((n = none ∨ n = some 0) → c = lib.size p.samplesPerUpdate r.len))) := by
  refine ⟨?_, ?_⟩
  · rintro r rfl hf
    have ha : allowed p.kind r.form = false := by
      cases hp : p.kind with
      | graph => exact absurd hp hk
      | structured => rcases hf with h | h | ⟨h, _⟩ <;> rw [h] <;> rfl
      | unstructured =>
        rcases hf with h | h | ⟨h, h'⟩
        · rw [h]; rfl
        · rw [h]; rfl
        · rw [hp] at h'; cases h'
    simp [update, checkMin, unwrap, ha, bind, Except.bind]
  · rintro k s e t r rfl
    refine ⟨fun h0 => by simp [update, checkMin, unwrap, h0, bind, Except.bind], fun q h0 hq => ?_⟩
    simp only [update, checkMin, unwrap, bind, Except.bind, h0, if_false, chooseMin] at hq
    split at hq
    · cases hq
    · rename_i b hb
      cases hq
      refine ⟨rfl, ?_, rfl, rfl, rfl, _, hb, ?_, ?_⟩
      · cases e <;> rfl
      · rintro c' rfl; rfl
      · rintro (rfl | rfl) <;> rfl

/-- **C91 (plain values).** A list, series or frame is taken by profilers of tables and of texts, a string by the latter, as if a reader had
given it that tells no encoding and the name of its class as the type of the data. -/
theorem C91_plain (o : Opts L ρ) (p : Prof β) (r : Raw α) (n : Option ℕ) (m : MinTrue) (k : Reader) (s : Bool)
    (h : (p.kind ≠ .graph ∧ (r.form = .list ∨ r.form = .series ∨ r.form = .frame)) ∨ (p.kind = .unstructured ∧ r.form = .text)) :
    update lib o p (.raw r) n m = update lib o p (.reader k s none (lib.className r.form) r) n m := by
  have ha : allowed p.kind r.form = true := by
    rcases h with ⟨hk, h | h | h⟩ | ⟨hk, h⟩
    all_goals first
      | (cases hp : p.kind with
          | graph => exact absurd hp hk
          | structured => rw [h]; rfl
          | unstructured => rw [h]; rfl)
      | (rw [hk, h]; rfl)
  unfold update
  simp only [unwrap, ha, if_true]

/-- A profiler of tables takes a list. -/
example (p : Prof ℕ) (hp : p.kind = .structured) (x : ℕ) : (p.kind ≠ .graph ∧ ((⟨.list, 2, x⟩ : Raw ℕ).form = .list)) :=
  ⟨by rw [hp]; exact nofun, rfl⟩

/-- **C91 (given minimum).** The number of true samples given with an update holds for this update; nothing or zero stands for the number of
the profiler. -/
theorem C91_given_min (o : Opts L ρ) (p : Prof β) (k : Reader) (s : Bool) (e : Option String) (t : String) (r : Raw α) (n : Option ℕ)
    (m : MinTrue) (hr : r.len ≠ 0) (q : Prof β) (hq : update lib o p (.reader k s e t r) n m = .ok q) :
    q.minTrue = p.minTrue ∧ ∃ c, lib.chunk p.kind o p.body r c (effective m p.minTrue) = .ok q.body := by
  unfold update at hq
  cases hm : checkMin m with
  | error x => rw [hm] at hq; cases hq
  | ok u =>
    rw [hm] at hq
    simp only [unwrap, bind, Except.bind, hr, if_false] at hq
    split at hq
    · cases hq
    · rename_i b hb
      cases hq
      have he : chooseMin m p.minTrue = effective m p.minTrue := by
        cases m with
        | absent => rfl
        | other => rfl
        | int i =>
          by_cases hi : i = 0
          · subst hi; rfl
          · unfold effective
            dsimp only
            rw [if_neg hi]
            unfold chooseMin
            split
            · rename_i h; cases h
            · rename_i h; exact absurd (by injection h) hi
            · rfl
      rw [he] at hb
      exact ⟨rfl, _, hb⟩

/-- A reader updates a profile; an empty one does not. -/
example : update demo ⟨true, none, none, 4⟩ ⟨.structured, 0, none, .absent, none, none, []⟩
      (.reader .table true (some "utf-8") "csv" ⟨.frame, 3, 5⟩) none .absent =
        .ok ⟨.structured, 0, none, .absent, some "utf-8", some "csv", [5, 3]⟩ ∧
    update demo ⟨true, none, none, 4⟩ ⟨.structured, 0, none, .absent, none, none, []⟩
      (.reader .table true (some "utf-8") "csv" ⟨.frame, 0, 5⟩) none .absent =
        .ok ⟨.structured, 0, none, .absent, none, none, []⟩ := ⟨rfl, rfl⟩

/-- **C91 (graphs).** A graph profiler takes graphs only, and touches no options. -/
theorem C91_graph (d : Data α) (spu : Option ℕ) (m : MinTrue) (o : OptArg) (h : Heap L ρ) :
    (profiler lib d spu m o (some "graph") h).2 = h ∧
    (¬Fits d .graph → profiler lib d spu m o (some "graph") h = (.error .notImplemented, h)) := by
  refine ⟨rfl, fun hf => ?_⟩
  show (graphUpdate lib _ d, h) = _
  congr 1
  cases d with
  | missing => rfl
  | raw r =>
    obtain ⟨f, n, c⟩ := r
    cases f <;> first | rfl | exact absurd (.graph n c) hf
  | reader k s e t r => cases k <;> first | rfl | exact absurd (.graphReader s e t r) hf

/-- **C91 (graphs, full statement fails).** One would expect options that are none to be refused by every profiler; a graph
profiler takes anything: options, minimum and sample size make no difference at all. -/
theorem C91_graph_fails (d : Data α) (spu spu' : Option ℕ) (m m' : MinTrue) (o o' : OptArg) (h : Heap L ρ) :
    profiler lib d spu m o (some "graph") h = profiler lib d spu' m' o' (some "graph") h := rfl

/-- **C91 (directory, full statement fails).** Options with a directory for the labeler: after the first profiler, changing the
directory has no effect on the second, which gets the labeler of the first directory. -/
theorem C91_directory_fails : ∃ (h : Heap String ℕ) (p q : Prof (List ℕ)) (h' : Heap String ℕ),
    profiler demo .missing none .absent (.structured 0) (some "structured") h = (.ok p, h') ∧
    ∃ h'', profiler demo .missing none .absent (.structured 0) (some "structured") (h'.modify 0 fun x => { x with dirpath := some "b" }) =
      (.ok q, h'') ∧ (h''[0]?.map fun x => (x.dirpath, x.object)) = some (some "b", some "a") ∧
      demo.load .structured (some "b") = .ok "b" :=
  ⟨[⟨true, some "a", none, 4⟩], _, _, _, rfl, _, rfl, rfl, rfl⟩

/-- **C91 (lost labeler, full statement fails).** If the labeler cannot be loaded, it is switched off in the options of the user
for good: setting a good directory later does not bring it back. -/
theorem C91_lost_fails : ∃ (h : Heap String ℕ) (p q : Prof (List ℕ)) (h' : Heap String ℕ),
    profiler demo .missing none .absent (.structured 0) (some "structured") h = (.ok p, h') ∧
    ∃ h'', profiler demo .missing none .absent (.structured 0) (some "structured") (h'.modify 0 fun x => { x with dirpath := some "b" }) =
      (.ok q, h'') ∧ (h''[0]?.map fun x => (x.enabled, x.object)) = some (false, none) ∧
      demo.load .structured (some "b") = .ok "b" :=
  ⟨[⟨true, some "bad", none, 4⟩], _, _, _, rfl, _, rfl, rfl, rfl⟩

/-- **C91 (failed with a trace, full statement fails).** Making a profiler fails because of the data, and still the options of
the user are changed. -/
theorem C91_trace_fails : ∃ (h : Heap String ℕ) (h' : Heap String ℕ),
    profiler demo (.raw ⟨.text, 3, 5⟩) none .absent (.structured 0) (some "structured") h = (.error .typeError, h') ∧
      (h[0]?.map (·.object)) ≠ (h'[0]?.map (·.object)) :=
  ⟨[⟨true, some "a", none, 4⟩], _, rfl, by decide⟩

/-- **C91 (labelers).** `DataLabeler("structured")` and `DataLabeler("unstructured")` read what `load_from_library` reads under
the same name; a directory given is read instead; every other type is refused. -/
theorem C91_labeler {P : Type} (join : String → String) (read : String → Except Err P) (trainable : Bool) :
    (∀ t, t = "structured" ∨ t = "unstructured" →
      (newLabeler join read t none trainable).map (fun x => (x.dir, x.parts)) =
        (fromLibrary join read t trainable).map (fun x => (x.dir, x.parts)) ∧
      (newLabeler join read t none trainable).map (·.dir) = (read (join (t ++ "_model"))).map (fun _ => join (t ++ "_model")) ∧
      ∀ d, (newLabeler join read t (some d) trainable).map (fun x => (x.dir, x.parts)) = (read d).map fun p => (d, p)) ∧
    (∀ t dir, t ≠ "structured" → t ≠ "unstructured" → newLabeler join read t dir trainable = .error .valueError) ∧
    (∀ n, n ≠ "structured" → n ≠ "unstructured" → (fromLibrary join read n trainable).map (fun x => (x.dir, x.parts)) =
      (read (join n)).map fun p => (join n, p)) := by
  refine ⟨?_, ?_, ?_⟩
  · rintro t (rfl | rfl)
    · have e : "structured" ++ "_model" = "structured_model" := by decide +kernel
      rw [e]
      refine ⟨?_, ?_, fun d => ?_⟩
      · show ((read (join "structured_model")).map _).map _ = ((read (join "structured_model")).map _).map _
        cases read (join "structured_model") <;> rfl
      · show ((read (join "structured_model")).map _).map _ = _
        cases read (join "structured_model") <;> rfl
      · show ((read d).map _).map _ = _
        cases read d <;> rfl
    · have e : "unstructured" ++ "_model" = "unstructured_model" := by decide +kernel
      rw [e]
      refine ⟨?_, ?_, fun d => ?_⟩
      · show ((read (join "unstructured_model")).map _).map _ = ((read (join "unstructured_model")).map _).map _
        cases read (join "unstructured_model") <;> rfl
      · show ((read (join "unstructured_model")).map _).map _ = _
        cases read (join "unstructured_model") <;> rfl
      · show ((read d).map _).map _ = _
        cases read d <;> rfl
  · intro t dir h1 h2
    unfold newLabeler defaultLoc
    rw [if_neg h1, if_neg h2]
  · intro n h1 h2
    unfold fromLibrary libraryName
    simp only [h1, h2, if_false]
    cases read (join n) <;> rfl

/-- **C91 (the class).** A labeler is trainable exactly if that was asked for, whichever way it is made. -/
theorem C91_trainable {P : Type} {join : String → String} {read : String → Except Err P} {trainable : Bool} {x : Made P} :
    (∀ t dir, newLabeler join read t dir trainable = .ok x → (x.cls = .trainable ↔ trainable = true)) ∧
    (∀ n, fromLibrary join read n trainable = .ok x → (x.cls = .trainable ↔ trainable = true)) := by
  refine ⟨fun t dir h => ?_, fun n h => ?_⟩
  · unfold newLabeler at h
    cases hd : defaultLoc t with
    | none => rw [hd] at h; cases h
    | some c =>
      obtain ⟨c, loc⟩ := c
      have hc : c ≠ .trainable := by
        unfold defaultLoc at hd
        split_ifs at hd <;> cases hd <;> decide
      rw [hd] at h
      dsimp only at h
      generalize read _ = y at h
      cases y <;> simp only [Except.map] at h <;> cases h
      cases trainable <;> simp [hc]
  · unfold fromLibrary at h
    generalize read _ = y at h
    cases y <;> simp only [Except.map] at h <;> cases h
    cases trainable <;> simp

/-- Such labelers, read from every directory. -/
example : newLabeler ("lib/" ++ ·) (fun d => .ok d) "structured" none true =
    .ok ⟨.trainable, "lib/" ++ "structured_model", "lib/" ++ "structured_model"⟩ ∧
    fromLibrary ("lib/" ++ ·) (fun d => .ok d) "regex_model" false = .ok ⟨.base, "lib/" ++ "regex_model", "lib/" ++ "regex_model"⟩ :=
  ⟨rfl, rfl⟩

/-- **C91 (components).** A labeler is made of components exactly if each is of its sort, and the model of a trainable one can
be fitted; then it has these components, in these places. -/
theorem C91_components {Q : Type} (pre model post : Part Q) (trainable : Bool) (x : Q × Q × Q) :
    withComponents pre model post trainable = .ok x ↔
      pre.isPre = true ∧ model.isModel = true ∧ post.isPost = true ∧ (trainable = true → model.hasFit = true) ∧
        x = (pre.value, model.value, post.value) := by
  unfold withComponents
  cases h1 : pre.isPre <;> cases h2 : model.isModel <;> cases h3 : post.isPost <;> cases h4 : model.hasFit <;> cases trainable <;>
    simp [eq_comm]

/-- Components that make a labeler, and the same with a model that cannot be fitted. -/
example : withComponents (⟨true, false, false, false, 1⟩ : Part ℕ) ⟨false, true, false, true, 2⟩ ⟨false, false, true, false, 3⟩ true =
    .ok (1, 2, 3) ∧
    withComponents (⟨true, false, false, false, 1⟩ : Part ℕ) ⟨false, true, false, false, 2⟩ ⟨false, false, true, false, 3⟩ true =
    .error .valueError := ⟨rfl, rfl⟩

end Verif.Props.Factory
