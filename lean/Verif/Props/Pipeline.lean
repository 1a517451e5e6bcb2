import Verif.Model.Pipeline
import Verif.Spec.Pipeline
import Verif.Lemmas.PyDict
import Verif.Lemmas.LabelMap
import Mathlib.Tactic.SplitIfs

/-!
# Parameters of a data labeler (C65)
-/

namespace Verif.Pipeline

open Verif Verif.Spec.Pipeline

variable {V : Type} [DecidableEq V]

theorem mismatches_nil (d e : PyDict String V) (hd : PyDict.WF d) (he : PyDict.WF e) : mismatches d e = [] ↔ Agree d e := by
  unfold mismatches
  rw [List.filter_eq_nil_iff]
  constructor
  · intro h k v w hv hw
    have := h k (List.mem_map_of_mem hv)
    simp only [decide_eq_true_eq, not_and, not_not] at this
    have h2 := this ((PyDict.has_iff e k).2 (List.mem_map_of_mem hw))
    rw [PyDict.get?_of_mem hd hv, PyDict.get?_of_mem he hw] at h2
    injection h2
  · intro h k hk
    simp only [decide_eq_true_eq, not_and, not_not]
    intro hk2
    obtain ⟨x, hx, rfl⟩ := List.mem_map.mp hk
    obtain ⟨y, hy, hyk⟩ := List.mem_map.mp ((PyDict.has_iff e _).1 hk2)
    have hy' : (x.1, y.2) ∈ e := by rw [← hyk]; exact hy
    rw [PyDict.get?_of_mem hd (v := x.2) hx, PyDict.get?_of_mem he hy', h x.1 x.2 y.2 hx hy']

/-- Checking a whole pipeline passes in silence exactly if parameters of the same name agree in all three components; otherwise it
raises or warns, as asked. -/
theorem C65_check (p m q : Component V) (err : Bool) (hp : PyDict.WF p.get) (hm : PyDict.WF m.get) (hq : PyDict.WF q.get) :
    let P : Pipeline V := ⟨some p, some m, some q⟩
    let agree := Agree m.get p.get ∧ Agree m.get q.get ∧ Agree p.get q.get
    (agree → check P false err = .ok []) ∧
    (¬ agree → if err then check P false err = .error .exception else ∃ msgs, msgs ≠ [] ∧ check P false err = .ok msgs) := by
  intro P agree
  have h : check P false err = if (mismatches m.get p.get ++ mismatches m.get q.get ++ mismatches p.get q.get) ≠ [] ∧ err then
      .error .exception else .ok (mismatches m.get p.get ++ mismatches m.get q.get ++ mismatches p.get q.get) := rfl
  have hag : (mismatches m.get p.get ++ mismatches m.get q.get ++ mismatches p.get q.get) = [] ↔ agree := by
    rw [List.append_eq_nil_iff, List.append_eq_nil_iff, mismatches_nil _ _ hm hp, mismatches_nil _ _ hm hq, mismatches_nil _ _ hp hq]
    exact and_assoc
  rw [h]
  refine ⟨fun ha => ?_, fun ha => ?_⟩
  · rw [hag.2 ha]; simp
  · have hne : (mismatches m.get p.get ++ mismatches m.get q.get ++ mismatches p.get q.get) ≠ [] := fun hc => ha (hag.1 hc)
    cases err with
    | true => rw [if_pos (show true = true from rfl), if_pos (And.intro hne rfl)]
    | false => exact ⟨_, hne, by simp⟩

/-- The parameters warned about are the ones that differ. -/
theorem C65_warned (d e : PyDict String V) (hd : PyDict.WF d) (he : PyDict.WF e) (k : String) :
    k ∈ mismatches d e ↔ ∃ v w, (k, v) ∈ d ∧ (k, w) ∈ e ∧ v ≠ w := by
  unfold mismatches
  rw [List.mem_filter]
  simp only [decide_eq_true_eq]
  constructor
  · rintro ⟨h1, h2, h3⟩
    obtain ⟨x, hx, rfl⟩ := List.mem_map.mp h1
    obtain ⟨y, hy, hyk⟩ := List.mem_map.mp ((PyDict.has_iff e _).1 h2)
    have hy' : (x.1, y.2) ∈ e := by rw [← hyk]; exact hy
    refine ⟨x.2, y.2, hx, hy', fun h => h3 ?_⟩
    rw [PyDict.get?_of_mem hd (v := x.2) hx, PyDict.get?_of_mem he hy', h]
  · rintro ⟨v, w, hv, hw, hne⟩
    refine ⟨List.mem_map_of_mem hv, (PyDict.has_iff e _).2 (List.mem_map_of_mem hw), fun h => hne ?_⟩
    rw [PyDict.get?_of_mem hd hv, PyDict.get?_of_mem he hw] at h
    injection h

omit [DecidableEq V] in
theorem fold_updated (d kw : PyDict String V) (hd : PyDict.WF d) (hk : PyDict.WF kw) :
    Updated d kw (kw.foldl (fun d x => PyDict.set d x.1 x.2) d) ∧ PyDict.WF (kw.foldl (fun d x => PyDict.set d x.1 x.2) d) := by
  induction kw using List.reverseRecOn with
  | nil => exact ⟨fun k v => by simp, hd⟩
  | append_singleton l x ih =>
    have hk' : PyDict.WF l ∧ x.1 ∉ PyDict.keys l := by
      unfold PyDict.WF PyDict.keys at hk ⊢
      rw [List.map_append, List.nodup_append] at hk
      exact ⟨hk.1, fun hx => hk.2.2 _ hx x.1 (by simp) rfl⟩
    obtain ⟨h1, h2⟩ := ih hk'.1
    rw [List.foldl_append, List.foldl_cons, List.foldl_nil]
    refine ⟨fun k v => ?_, PyDict.WF_set h2 _ _⟩
    rw [LabelMap.mem_set h2, h1]
    simp only [List.mem_append, List.mem_singleton, not_or]
    constructor
    · rintro (h | ⟨hne, h | ⟨h3, h4⟩⟩)
      · exact .inl (.inr h)
      · exact .inl (.inl h)
      · refine .inr ⟨fun w => ⟨h3 w, fun h => hne ?_⟩, h4⟩
        rw [← h]
    · rintro ((h | h) | ⟨h3, h4⟩)
      · right
        refine ⟨fun hx => hk'.2 ?_, .inl h⟩
        rw [← hx]; exact List.mem_map_of_mem h
      · exact .inl h
      · right
        refine ⟨fun hx => (h3 x.2).2 ?_, .inr ⟨fun w => (h3 w).1, h4⟩⟩
        rw [hx]

/-- The parameters `set_params` is about: those of the component, or of the processor it hands them on to. -/
def settings (c : Component V) : PyDict String V :=
  match c.inner with
  | none => c.params
  | some i => i.params

/-- The component accepts the parameters: it, or the processor it hands them on to, finds them valid; the latter gets the generator only. -/
def Accepts (c : Component V) (kw : PyDict String V) : Prop :=
  match c.inner with
  | none => c.valid kw = true
  | some i => (∀ x ∈ kw, x.1 = "random_state") ∧ i.valid kw = true

/-- Everything about the component that `set_params` should leave alone is as it was. -/
def Kept (c c' : Component V) : Prop :=
  c'.mapping = c.mapping ∧ c'.valid = c.valid ∧ (c.inner = none ↔ c'.inner = none) ∧
  ∀ i, c.inner = some i → c'.params = c.params ∧ ∃ j, c'.inner = some j ∧ j.valid = i.valid ∧ j.value = i.value

omit [DecidableEq V] in
/-- A component takes all parameters given or, if it does not accept them, none. -/
theorem C65_component (c : Component V) (kw : PyDict String V) (hd : PyDict.WF (settings c)) (hk : PyDict.WF kw) :
    (Accepts c kw → (c.set kw).2 = .ok () ∧ Updated (settings c) kw (settings (c.set kw).1) ∧ Kept c (c.set kw).1) ∧
    (¬ Accepts c kw → c.set kw = (c, .error .valueError)) := by
  obtain ⟨ps, mp, va, inn⟩ := c
  cases inn with
  | none =>
    refine ⟨fun h => ?_, fun h => ?_⟩
    · have h : va kw = true := h
      simp only [Component.set, h, if_true]
      exact ⟨trivial, (fold_updated _ _ hd hk).1, rfl, rfl, Iff.rfl, nofun⟩
    · have h : ¬ va kw = true := h
      simp [Component.set, h]
  | some i =>
    refine ⟨fun h => ?_, fun h => ?_⟩
    · obtain ⟨h1, h2⟩ : (∀ x ∈ kw, x.1 = "random_state") ∧ i.valid kw = true := h
      have h3 : ¬ ∃ k ∈ PyDict.keys kw, k ∉ ["random_state"] := by
        rintro ⟨k, hk, hn⟩
        obtain ⟨x, hx, rfl⟩ := List.mem_map.1 hk
        exact hn (by rw [h1 x hx]; exact List.mem_singleton.2 rfl)
      simp only [Component.set, if_neg h3, h2, if_true]
      refine ⟨trivial, (fold_updated _ _ hd hk).1, rfl, rfl, ⟨nofun, nofun⟩, fun k hk => ?_⟩
      injection hk with hk
      subst hk
      exact ⟨rfl, _, rfl, rfl, rfl⟩
    · have h : ¬ ((∀ x ∈ kw, x.1 = "random_state") ∧ i.valid kw = true) := h
      by_cases h3 : ∃ k ∈ PyDict.keys kw, k ∉ ["random_state"]
      · simp only [Component.set, if_pos h3]
      · have h4 : ¬ i.valid kw = true := fun h4 => h ⟨fun x hx => by
          by_contra hn
          exact h3 ⟨x.1, List.mem_map_of_mem hx, by simpa using hn⟩, h4⟩
        simp only [Component.set, if_neg h3, if_neg h4]

/-- A processor around another one takes a generator, and nothing else even if the other would. -/
example : let i : Inner ℕ := ⟨[("aggregation_func", 1), ("random_state", 2)], fun _ => true, fun _ => 0⟩
    let c : Component ℕ := ⟨[], none, fun _ => true, some i⟩
    Accepts c [("random_state", 7)] ∧ settings (c.set [("random_state", 7)]).1 = [("aggregation_func", 1), ("random_state", 7)] ∧
    ¬ Accepts c [("aggregation_func", 3)] ∧ (c.set [("aggregation_func", 3)]).2 = .error .valueError :=
  ⟨⟨fun _ hx => by rw [List.mem_singleton.1 hx], rfl⟩, rfl, fun h => absurd (h.1 _ (List.mem_singleton.2 rfl)) (by decide), rfl⟩

omit [DecidableEq V] in
/-- The parameters a component shows: its own, with the label mapping of a model and the processor others are handed on to. -/
theorem C65_get (c : Component V) (hd : PyDict.WF c.params) :
    (∀ v, c.mapping = some v → Updated c.params [("label_mapping", v)] c.get) ∧
    (∀ i, c.mapping = none → c.inner = some i → Updated c.params [("regex_processor", i.value (settings c))] c.get) ∧
    (c.mapping = none → c.inner = none → c.get = c.params) := by
  obtain ⟨ps, mp, va, inn⟩ := c
  have h1 : ∀ k v, PyDict.WF [((k : String), (v : V))] := fun k v => List.nodup_singleton k
  refine ⟨?_, ?_, ?_⟩
  · rintro v rfl
    exact (fold_updated ps [("label_mapping", v)] hd (h1 _ _)).1
  · rintro i rfl rfl
    exact (fold_updated ps [("regex_processor", _)] hd (h1 _ _)).1
  · rintro rfl rfl
    rfl

/-- Parameters for unknown or missing components, or none at all, are refused and change nothing. -/
theorem C65_refused (P : Pipeline V) (kw : PyDict String (PyDict String V))
    (h : kw = [] ∨ (∃ k ∈ PyDict.keys kw, k ≠ "preprocessor" ∧ k ≠ "model" ∧ k ≠ "postprocessor") ∨
      (P.pre = none ∧ "preprocessor" ∈ PyDict.keys kw) ∨ (P.model = none ∧ "model" ∈ PyDict.keys kw) ∨
      (P.post = none ∧ "postprocessor" ∈ PyDict.keys kw)) :
    setParams P kw = (P, .error .valueError) := by
  unfold setParams
  by_cases h1 : kw.isEmpty = true ∨ ∃ k ∈ PyDict.keys kw, k ∉ ["preprocessor", "model", "postprocessor"]
  · rw [if_pos h1]
  · rw [if_neg h1, if_pos]
    rcases h with h | ⟨k, hk, hne⟩ | h
    · exact absurd (.inl (by rw [h]; rfl)) h1
    · exact absurd (.inr ⟨k, hk, by simp [hne]⟩) h1
    · rcases h with ⟨h2, h3⟩ | ⟨h2, h3⟩ | ⟨h2, h3⟩
      · exact .inl ⟨by rw [h2]; rfl, (PyDict.has_iff _ _).2 h3⟩
      · exact .inr (.inl ⟨by rw [h2]; rfl, (PyDict.has_iff _ _).2 h3⟩)
      · exact .inr (.inr ⟨by rw [h2]; rfl, (PyDict.has_iff _ _).2 h3⟩)

/-- What becomes of a component. -/
def PartSet (old new : Option (Component V)) (kw : Option (PyDict String V)) : Prop :=
  match old, kw with
  | some c, some kw => ∃ c', new = some c' ∧ Updated (settings c) kw (settings c') ∧ Kept c c'
  | c, _ => new = c

omit [DecidableEq V] in
theorem setPart_spec (c : Option (Component V)) (kw : Option (PyDict String V)) (hc : ∀ x, c = some x → PyDict.WF (settings x))
    (hk : ∀ x, kw = some x → PyDict.WF x) (h : (setPart c kw).2 = .ok ()) : PartSet c (setPart c kw).1 kw := by
  cases c with
  | none => cases kw <;> exact rfl
  | some c =>
    cases kw with
    | none => exact rfl
    | some kw =>
      have hcomp := C65_component c kw (hc c rfl) (hk kw rfl)
      by_cases hv : Accepts c kw
      · obtain ⟨-, h2, h3⟩ := hcomp.1 hv
        exact ⟨(c.set kw).1, rfl, h2, h3⟩
      · have := hcomp.2 hv
        rw [show (setPart (some c) (some kw)).2 = (c.set kw).2 from rfl, this] at h
        exact nomatch h

/-- If setting parameters succeeds, every component named has the parameters given and keeps its others, and the rest are as they
were. -/
theorem C65_set (P P' : Pipeline V) (kw : PyDict String (PyDict String V)) (msgs : List String)
    (hP : ∀ c, P.pre = some c ∨ P.model = some c ∨ P.post = some c → PyDict.WF (settings c))
    (hk : ∀ k x, PyDict.get? kw k = some x → PyDict.WF x) (h : setParams P kw = (P', .ok msgs)) :
    PartSet P.pre P'.pre (PyDict.get? kw "preprocessor") ∧ PartSet P.model P'.model (PyDict.get? kw "model") ∧
    PartSet P.post P'.post (PyDict.get? kw "postprocessor") := by
  unfold setParams at h
  split_ifs at h
  · exact nomatch (Prod.mk.inj h).2
  · exact nomatch (Prod.mk.inj h).2
  · dsimp only at h
    cases h1 : (setPart P.pre (PyDict.get? kw "preprocessor")).2 with
    | error e => rw [h1] at h; injection h with _ h; exact nomatch h
    | ok u =>
      rw [h1] at h
      cases h2 : (setPart P.model (PyDict.get? kw "model")).2 with
      | error e => rw [h2] at h; injection h with _ h; exact nomatch h
      | ok u2 =>
        rw [h2] at h
        cases h3 : (setPart P.post (PyDict.get? kw "postprocessor")).2 with
        | error e => rw [h3] at h; injection h with _ h; exact nomatch h
        | ok u3 =>
          rw [h3] at h
          injection h with h _
          subst h
          exact ⟨setPart_spec _ _ (fun x hx => hP x (.inl hx)) (hk _) h1,
            setPart_spec _ _ (fun x hx => hP x (.inr (.inl hx))) (hk _) h2,
            setPart_spec _ _ (fun x hx => hP x (.inr (.inr hx))) (hk _) h3⟩

/-- What is warned about after setting parameters are the ones in which the components now differ: nothing exactly if they agree. -/
theorem C65_set_check (P : Pipeline V) (kw : PyDict String (PyDict String V)) (msgs : List String) (p m : Component V)
    (post : Option (Component V)) (hp : PyDict.WF p.get) (hm : PyDict.WF m.get) (hq : ∀ q, post = some q → PyDict.WF q.get)
    (h : setParams P kw = (⟨some p, some m, post⟩, .ok msgs)) :
    msgs = [] ↔ Agree m.get p.get ∧ ∀ q, post = some q → Agree m.get q.get ∧ Agree p.get q.get := by
  unfold setParams at h
  split_ifs at h
  · exact nomatch (Prod.mk.inj h).2
  · exact nomatch (Prod.mk.inj h).2
  · dsimp only at h
    cases h1 : (setPart P.pre (PyDict.get? kw "preprocessor")).2 with
    | error e => rw [h1] at h; injection h with _ h; exact nomatch h
    | ok u =>
      rw [h1] at h
      cases h2 : (setPart P.model (PyDict.get? kw "model")).2 with
      | error e => rw [h2] at h; injection h with _ h; exact nomatch h
      | ok u =>
        rw [h2] at h
        cases h3 : (setPart P.post (PyDict.get? kw "postprocessor")).2 with
        | error e => rw [h3] at h; injection h with _ h; exact nomatch h
        | ok u =>
          rw [h3] at h
          dsimp only at h
          obtain ⟨ha, hb⟩ := Prod.mk.inj h
          injection ha with ha1 ha2 ha3
          rw [ha1, ha2, ha3] at hb
          cases post with
          | none =>
            have hb' : mismatches m.get p.get = msgs := by
              simpa [check] using hb
            rw [← hb', mismatches_nil _ _ hm hp]
            simp
          | some q =>
            have hb' : mismatches m.get p.get ++ mismatches m.get q.get ++ mismatches p.get q.get = msgs := by
              simpa [check] using hb
            rw [← hb', List.append_eq_nil_iff, List.append_eq_nil_iff, mismatches_nil _ _ hm hp,
              mismatches_nil _ _ hm (hq q rfl), mismatches_nil _ _ hp (hq q rfl)]
            simp [and_assoc]

/-- If the model does not accept its parameters, those of the preprocessor are set already. -/
theorem C65_atomic_fails : ∃ (P : Pipeline ℕ) (kw : PyDict String (PyDict String ℕ)),
    (setParams P kw).2 = .error .valueError ∧ P.pre.map (·.params) = some [("max_length", 10)] ∧
    (setParams P kw).1.pre.map (·.params) = some [("max_length", 20)] :=
  ⟨⟨some ⟨[("max_length", 10)], none, fun _ => true, none⟩, some ⟨[], some 0, fun _ => false, none⟩, none⟩,
    [("preprocessor", [("max_length", 20)]), ("model", [("x", 1)])], rfl, rfl, rfl⟩

/-- With a model or preprocessor still missing, parameters are set and then an error is raised. -/
theorem C65_missing_fails : ∃ (P : Pipeline ℕ) (kw : PyDict String (PyDict String ℕ)),
    (setParams P kw).2 = .error .attributeError ∧ P.pre.map (·.params) = some [("max_length", 10)] ∧
    (setParams P kw).1.pre.map (·.params) = some [("max_length", 20)] :=
  ⟨⟨some ⟨[("max_length", 10)], none, fun _ => true, none⟩, none, none⟩, [("preprocessor", [("max_length", 20)])], rfl, rfl, rfl⟩

end Verif.Pipeline
