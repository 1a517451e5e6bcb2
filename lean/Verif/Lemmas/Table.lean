import Mathlib.Data.List.Nodup
import Mathlib.Data.List.Forall2
import Mathlib.Tactic.SplitIfs
import Verif.Spec.Table
import Verif.Lemmas.PyDict

namespace Verif.Table

open Verif Verif.Schema Verif.Nulls

variable {σ η : Type}

/-! ## Slots -/

theorem getSlot_slots {α β : Type} [DecidableEq α] (s : Sched α) (hs : s.Fair) (task : α → Except Err β) (sub : List α)
    (a : α) (ha : a ∈ sub) :
    getSlot (slots s task sub) a = if s.loses a then .error .exception else task a := by
  have key : ∀ (l : List α) (d : PyDict α (Except Err β)), PyDict.get? (l.foldl
      (fun d a => PyDict.set d a (if s.loses a then .error .exception else task a)) d) a =
      if a ∈ l then some (if s.loses a then .error .exception else task a) else PyDict.get? d a := by
    intro l
    induction l with
    | nil => simp
    | cons b l ih =>
      intro d
      rw [List.foldl_cons, ih, PyDict.get?_set]
      by_cases h1 : a ∈ l
      · simp [h1]
      · by_cases h2 : b = a
        · subst h2; simp
        · simp [h1, h2, Ne.symm h2]
  unfold getSlot slots
  rw [key, if_pos ((hs sub).symm.subset ha)]

/-! ## Compilers -/

/-- The effect of `updateWhere` on one entry. -/
def One (ops : Ops σ) (vals : List String) (sel : String → Prof σ → Bool) (x y : String × Prof σ) : Prop :=
  y.1 = x.1 ∧ y.2.safe = x.2.safe ∧
    if sel x.1 x.2 = true then ops.update x.1 x.2.state vals = .ok y.2.state else y.2.state = x.2.state

theorem updateWhere_iff (ops : Ops σ) (vals : List String) (sel : String → Prof σ → Bool) (ps ps' : PyDict String (Prof σ)) :
    updateWhere ops vals sel ps = .ok ps' ↔ List.Forall₂ (One ops vals sel) ps ps' := by
  induction ps generalizing ps' with
  | nil =>
    rw [updateWhere, List.forall₂_nil_left_iff]
    constructor
    · intro h; cases h; rfl
    · rintro rfl; rfl
  | cons x ps ih =>
    obtain ⟨t, p⟩ := x
    rw [updateWhere, List.forall₂_cons_left_iff]
    by_cases hsel : sel t p = true
    · rw [if_pos hsel]
      cases hu : ops.update t p.state vals with
      | error e =>
        simp only [One, hsel, if_true, hu]
        constructor
        · intro h; cases h
        · rintro ⟨_, _, ⟨_, _, h⟩, _⟩; cases h
      | ok s =>
        simp only
        cases hr : updateWhere ops vals sel ps with
        | error e =>
          constructor
          · intro h; cases h
          · rintro ⟨b, u', _, h2, _⟩
            rw [← ih, hr] at h2; cases h2
        | ok rest =>
          constructor
          · intro h
            cases h
            exact ⟨(t, { p with state := s }), rest, ⟨rfl, rfl, by rw [if_pos hsel]; exact hu⟩, (ih rest).1 hr, rfl⟩
          · rintro ⟨⟨t', p'⟩, u', ⟨h1, h2, h3⟩, h4, rfl⟩
            rw [← ih, hr] at h4
            cases h4
            rw [if_pos hsel, hu] at h3
            simp only at h1 h2
            cases h3
            subst h1
            cases p'
            simp only at h2
            subst h2
            rfl
    · rw [if_neg hsel]
      cases hr : updateWhere ops vals sel ps with
      | error e =>
        constructor
        · intro h; cases h
        · rintro ⟨b, u', _, h2, _⟩
          rw [← ih, hr] at h2; cases h2
      | ok rest =>
        constructor
        · intro h
          cases h
          exact ⟨(t, p), rest, ⟨rfl, rfl, by rw [if_neg hsel]⟩, (ih rest).1 hr, rfl⟩
        · rintro ⟨⟨t', p'⟩, u', ⟨h1, h2, h3⟩, h4, rfl⟩
          rw [← ih, hr] at h4
          cases h4
          rw [if_neg hsel] at h3
          simp only at h1 h2 h3
          subst h1
          cases p'
          cases p
          simp_all

/-- What one entry goes through in a pool run. -/
def poolEntry (sub : List String) (sl : PyDict String (Except Err σ)) (s : Sched String) (ops : Ops σ) (vals : List String)
    (x y : String × Prof σ) : Prop :=
  ∃ z, One ops vals (fun _ p => !p.safe)
      (x.1, if x.2.safe && s.refuses x.1 then { x.2 with safe := false } else x.2) z ∧
    One ops vals (fun t _ => failedSlot sub sl t) (collectOne sub sl z) y

theorem updatePool_iff (ops : Ops σ) (s : Sched String) (vals : List String) (c d : Compiler σ) :
    updatePool ops s vals c = .ok d ↔ d.kind = c.kind ∧ d.name = c.name ∧
      List.Forall₂ (poolEntry (submitted s c.profs)
        (slots s (profTask ops vals (flagRefused s c.profs)) (submitted s c.profs)) s ops vals) c.profs d.profs := by
  unfold updatePool
  dsimp only
  generalize hsub : submitted s c.profs = sub
  generalize hsl : slots s (profTask ops vals (flagRefused s c.profs)) sub = sl
  have hcomp : List.Forall₂ (poolEntry sub sl s ops vals) c.profs d.profs ↔
      ∃ ps2, updateWhere ops vals (fun _ p => !p.safe) (flagRefused s c.profs) = .ok ps2 ∧
        updateWhere ops vals (fun t _ => failedSlot sub sl t) (ps2.map (collectOne sub sl)) = .ok d.profs := by
    simp only [updateWhere_iff, flagRefused, List.forall₂_map_left_iff]
    generalize c.profs = xs
    generalize d.profs = ys
    constructor
    · intro h
      induction h with
      | nil => exact ⟨[], .nil, .nil⟩
      | cons h _ ih =>
        obtain ⟨z, h1, h2⟩ := h
        obtain ⟨zs, h3, h4⟩ := ih
        exact ⟨z :: zs, .cons h1 h3, .cons h2 h4⟩
    · rintro ⟨zs, h1, h2⟩
      induction h1 generalizing ys with
      | nil => cases h2; exact .nil
      | cons h _ ih =>
        cases h2 with
        | cons h2 h3 => exact .cons ⟨_, h, h2⟩ (ih _ h3)
  rw [hcomp]
  cases h1 : updateWhere ops vals (fun _ p => !p.safe) (flagRefused s c.profs) with
  | error e => simp
  | ok ps2 =>
    simp only [Except.ok.injEq, exists_eq_left']
    cases h2 : updateWhere ops vals (fun t _ => failedSlot sub sl t) (ps2.map (collectOne sub sl)) with
    | error e => simp
    | ok ps3 =>
      simp only [Except.ok.injEq]
      constructor
      · rintro rfl; exact ⟨rfl, rfl, rfl⟩
      · rintro ⟨h3, h4, h5⟩
        cases d
        simp only at h3 h4 h5
        subst h3 h4 h5
        rfl

theorem updateSerial_iff (ops : Ops σ) (vals : List String) (c d : Compiler σ) :
    updateSerial ops vals c = .ok d ↔ d.kind = c.kind ∧ d.name = c.name ∧
      List.Forall₂ (One ops vals (fun _ _ => true)) c.profs d.profs := by
  unfold updateSerial
  rw [← updateWhere_iff]
  cases h2 : updateWhere ops vals (fun _ _ => true) c.profs with
  | error e => simp
  | ok ps3 =>
    simp only [Except.ok.injEq]
    constructor
    · rintro rfl; exact ⟨rfl, rfl, rfl⟩
    · rintro ⟨h3, h4, h5⟩
      cases d
      simp only at h3 h4 h5
      subst h3 h4 h5
      rfl

/-- Only the state of the entry matters, and it is updated once. -/
theorem poolEntry_iff (ops : Ops σ) (s : Sched String) (hs : s.Fair) (vals : List String) (ps : PyDict String (Prof σ))
    (hwf : PyDict.WF ps) (x y : String × Prof σ) (hx : x ∈ ps) :
    (∃ b, poolEntry (submitted s ps) (slots s (profTask ops vals (flagRefused s ps)) (submitted s ps)) s ops vals x
      (y.1, ⟨y.2.state, b⟩)) ↔ y.1 = x.1 ∧ ops.update x.1 x.2.state vals = .ok y.2.state := by
  obtain ⟨t, p⟩ := x
  obtain ⟨t', q⟩ := y
  have hget := (PyDict.mem_iff_get? hwf t p).1 hx
  have hsub : t ∈ submitted s ps ↔ (p.safe && !s.refuses t) = true := by
    unfold submitted
    rw [List.mem_map]
    constructor
    · rintro ⟨⟨t2, p2⟩, h1, h2⟩
      rw [List.mem_filter] at h1
      simp only at h1 h2
      subst h2
      have := (PyDict.mem_iff_get? hwf t2 p2).1 h1.1
      rw [hget] at this
      cases this
      exact h1.2
    · intro h
      exact ⟨(t, p), List.mem_filter.2 ⟨hx, h⟩, rfl⟩
  have hwf1 : PyDict.WF (flagRefused s ps) := by
    unfold PyDict.WF PyDict.keys flagRefused
    rw [List.map_map]
    exact hwf
  have hx1 : (t, if p.safe && s.refuses t then { p with safe := false } else p) ∈ flagRefused s ps :=
    List.mem_map.2 ⟨(t, p), hx, rfl⟩
  have hget1 := (PyDict.mem_iff_get? hwf1 _ _).1 hx1
  have htask : profTask ops vals (flagRefused s ps) t = ops.update t p.state vals := by
    unfold profTask
    rw [hget1]
    dsimp only
    split_ifs <;> rfl
  by_cases hin : t ∈ submitted s ps
  · have hslot := getSlot_slots s hs (profTask ops vals (flagRefused s ps)) _ t hin
    rw [htask] at hslot
    have hsafe : p.safe = true ∧ s.refuses t = false := by simpa using hsub.1 hin
    have hp1 : (if p.safe && s.refuses t then { p with safe := false } else p) = p := by simp [hsafe.2]
    unfold poolEntry
    dsimp only
    rw [hp1]
    constructor
    · rintro ⟨b, ⟨t2, p2⟩, ⟨h1, h2, h3⟩, h4, h5, h6⟩
      simp only [hsafe.1, Bool.not_true, Bool.false_eq_true, if_false] at h3
      dsimp only at h1 h2 h3 h4
      subst h1
      simp only [collectOne, if_pos hin] at h4 h6
      cases hg : getSlot (slots s (profTask ops vals (flagRefused s ps)) (submitted s ps)) t2 with
      | ok st =>
        rw [hg] at hslot
        simp [failedSlot, hg] at h4 h6
        split_ifs at hslot with hl
        exact ⟨h4, by rw [← hslot, h6]⟩
      | error e =>
        simp [failedSlot, hin, hg] at h4 h6
        rw [h3] at h6
        exact ⟨h4, h6⟩
    · rintro ⟨h1, h2⟩
      subst h1
      cases hg : getSlot (slots s (profTask ops vals (flagRefused s ps)) (submitted s ps)) t' with
      | ok st =>
        rw [hg] at hslot
        split_ifs at hslot with hl
        rw [h2] at hslot
        cases hslot
        refine ⟨p.safe, (t', p), ⟨rfl, rfl, by simp [hsafe.1]⟩, ?_⟩
        simp [One, collectOne, hin, hg, failedSlot]
      | error e =>
        refine ⟨false, (t', p), ⟨rfl, rfl, by simp [hsafe.1]⟩, ?_⟩
        simp [One, collectOne, hin, hg, failedSlot, h2]
  · have hp1 : (if p.safe && s.refuses t then { p with safe := false } else p) = ⟨p.state, false⟩ := by
      rw [hsub] at hin
      cases p with
      | mk st sf =>
        cases sf <;> simp_all
    unfold poolEntry
    dsimp only
    rw [hp1]
    constructor
    · rintro ⟨b, ⟨t2, p2⟩, ⟨h1, h2, h3⟩, h4, h5, h6⟩
      simp only [Bool.not_false, if_true] at h3
      dsimp only at h1 h2 h3 h4
      subst h1
      simp only [collectOne, if_neg hin] at h4 h6
      simp only [failedSlot, hin, decide_false, Bool.false_and, Bool.false_eq_true, if_false] at h6
      exact ⟨h4, by rw [h3, h6]⟩
    · rintro ⟨h1, h2⟩
      subst h1
      refine ⟨false, (t', ⟨q.state, false⟩), ⟨rfl, rfl, by simpa using h2⟩, ?_⟩
      simp [One, collectOne, hin, failedSlot]

/-! ## Forgetting flags -/

theorem forall₂_congr_mem {α β : Type} {R S : α → β → Prop} (xs : List α) (ys : List β)
    (h : ∀ x ∈ xs, ∀ y, R x y ↔ S x y) : List.Forall₂ R xs ys ↔ List.Forall₂ S xs ys := by
  induction xs generalizing ys with
  | nil => simp
  | cons x xs ih =>
    rw [List.forall₂_cons_left_iff, List.forall₂_cons_left_iff]
    simp only [h x (by simp), fun ys => ih ys (fun x' hx' => h x' (by simp [hx']))]

theorem forall₂_image {α β γ : Type} {R : α → β → Prop} (f : β → γ) (xs : List α) (ys : List γ) :
    (∃ zs, List.Forall₂ R xs zs ∧ zs.map f = ys) ↔ List.Forall₂ (fun x y => ∃ z, R x z ∧ f z = y) xs ys := by
  constructor
  · rintro ⟨zs, h, rfl⟩
    rw [List.forall₂_map_right_iff]
    exact h.imp fun x z hz => ⟨z, hz, rfl⟩
  · intro h
    induction h with
    | nil => exact ⟨[], .nil, rfl⟩
    | cons h _ ih =>
      obtain ⟨z, h1, h2⟩ := h
      obtain ⟨zs, h3, h4⟩ := ih
      exact ⟨z :: zs, .cons h1 h3, by simp [h2, h4]⟩

/-- Every profile updated once. -/
def Updated (ops : Ops σ) (vals : List String) (x y : String × Prof σ) : Prop :=
  y.1 = x.1 ∧ y.2.safe = true ∧ ops.update x.1 x.2.state vals = .ok y.2.state

theorem compiler_norm_iff (ops : Ops σ) (pool : Option (Sched String)) (hp : ∀ s ∈ pool, s.Fair) (vals : List String)
    (c e : Compiler σ) (hwf : PyDict.WF c.profs) :
    (∃ d, updateCompiler ops pool vals c = .ok d ∧ d.norm = e) ↔
      e.kind = c.kind ∧ e.name = c.name ∧ List.Forall₂ (Updated ops vals) c.profs e.profs := by
  have key : ∀ (R : String × Prof σ → String × Prof σ → Prop),
      (∀ d, updateCompiler ops pool vals c = .ok d ↔ d.kind = c.kind ∧ d.name = c.name ∧
        List.Forall₂ R c.profs d.profs) →
      (∀ x ∈ c.profs, ∀ y : String × Prof σ, (∃ b, R x (y.1, ⟨y.2.state, b⟩)) ↔
        y.1 = x.1 ∧ ops.update x.1 x.2.state vals = .ok y.2.state) →
      ((∃ d, updateCompiler ops pool vals c = .ok d ∧ d.norm = e) ↔
      e.kind = c.kind ∧ e.name = c.name ∧ List.Forall₂ (Updated ops vals) c.profs e.profs) := by
    intro R h1 h2
    have h3 : (∃ zs, List.Forall₂ R c.profs zs ∧ zs.map (fun tp => (tp.1, tp.2.norm)) = e.profs) ↔
        List.Forall₂ (Updated ops vals) c.profs e.profs := by
      rw [forall₂_image]
      apply forall₂_congr_mem
      intro x hx y
      obtain ⟨t', q⟩ := y
      constructor
      · rintro ⟨⟨t2, p2⟩, h4, h5⟩
        simp only [Prod.mk.injEq] at h5
        obtain ⟨rfl, rfl⟩ := h5
        have := (h2 x hx (t2, p2)).1 ⟨p2.safe, h4⟩
        exact ⟨this.1, rfl, this.2⟩
      · rintro ⟨h4, h5, h6⟩
        obtain ⟨b, hb⟩ := (h2 x hx (t', q)).2 ⟨h4, h6⟩
        refine ⟨_, hb, ?_⟩
        cases q
        simp only at h5
        subst h5
        rfl
    rw [← h3]
    constructor
    · rintro ⟨d, hd, rfl⟩
      have := (h1 d).1 hd
      exact ⟨this.1, this.2.1, d.profs, this.2.2, rfl⟩
    · rintro ⟨h4, h5, zs, h6, h7⟩
      refine ⟨⟨c.kind, c.name, zs⟩, (h1 _).2 ⟨rfl, rfl, h6⟩, ?_⟩
      cases e
      simp only at h4 h5 h7
      subst h4 h5 h7
      rfl
  cases pool with
  | none =>
    refine key _ (updateSerial_iff ops vals c) ?_
    intro x _ y
    simp [One]
  | some s =>
    exact key _ (updatePool_iff ops s vals c)
      (fun x hx y => poolEntry_iff ops s (hp s rfl) vals c.profs hwf x y hx)

/-- The profile dictionaries of the compilers have distinct keys. -/
def CompsWF (cs : PyDict String (Compiler σ)) : Prop := ∀ kc ∈ cs, PyDict.WF kc.2.profs

theorem updateCompilers_iff (ops : Ops σ) (pool : Option (Sched String)) (vals : List String)
    (cs ds : PyDict String (Compiler σ)) : updateCompilers ops pool vals cs = .ok ds ↔
      List.Forall₂ (fun x y => y.1 = x.1 ∧ updateCompiler ops pool vals x.2 = .ok y.2) cs ds := by
  induction cs generalizing ds with
  | nil =>
    rw [updateCompilers, List.forall₂_nil_left_iff]
    constructor
    · intro h; cases h; rfl
    · rintro rfl; rfl
  | cons x cs ih =>
    obtain ⟨k, c⟩ := x
    rw [updateCompilers, List.forall₂_cons_left_iff]
    cases hu : updateCompiler ops pool vals c with
    | error e => simp
    | ok c' =>
      simp only
      cases hr : updateCompilers ops pool vals cs with
      | error e =>
        simp only [reduceCtorEq, false_iff, not_exists, not_and]
        intro _ u _ h
        rw [← ih, hr] at h
        cases h
      | ok rest =>
        simp only [← ih, hr, Except.ok.injEq]
        constructor
        · rintro rfl
          exact ⟨(k, c'), rest, ⟨rfl, rfl⟩, rfl, rfl⟩
        · rintro ⟨⟨k', c''⟩, u, ⟨h1, h2⟩, h3, rfl⟩
          simp only at h1 h2
          subst h1 h2 h3
          rfl

/-- The compilers after an update, flags forgotten: independent of the pool. -/
theorem compilers_norm_iff (ops : Ops σ) (pool : Option (Sched String)) (hp : ∀ s ∈ pool, s.Fair) (vals : List String)
    (cs es : PyDict String (Compiler σ)) (hwf : CompsWF cs) :
    (∃ ds, updateCompilers ops pool vals cs = .ok ds ∧ ds.map (fun kc => (kc.1, kc.2.norm)) = es) ↔
      List.Forall₂ (fun x y => y.1 = x.1 ∧ y.2.kind = x.2.kind ∧ y.2.name = x.2.name ∧
        List.Forall₂ (Updated ops vals) x.2.profs y.2.profs) cs es := by
  simp only [updateCompilers_iff]
  rw [forall₂_image]
  apply forall₂_congr_mem
  intro x hx y
  obtain ⟨k', e⟩ := y
  rw [show (∃ z : String × Compiler σ, (z.1 = x.1 ∧ updateCompiler ops pool vals x.2 = .ok z.2) ∧ (z.1, z.2.norm) = (k', e)) ↔
      k' = x.1 ∧ ∃ d, updateCompiler ops pool vals x.2 = .ok d ∧ d.norm = e by
    constructor
    · rintro ⟨⟨k2, c2⟩, ⟨h1, h2⟩, h3⟩
      simp only [Prod.mk.injEq] at h3
      exact ⟨h3.1.symm.trans h1, c2, h2, h3.2⟩
    · rintro ⟨rfl, d, h1, rfl⟩
      exact ⟨(x.1, d), ⟨rfl, h1⟩, rfl⟩]
  rw [compiler_norm_iff ops pool hp vals x.2 e (hwf x hx)]

theorem createProfs_wf (ops : Ops σ) (name : Key) (types : List String) : PyDict.WF (createProfs ops name types) := by
  unfold createProfs
  have : ∀ (l : List String) (d : PyDict String (Prof σ)), PyDict.WF d → PyDict.WF (l.foldl (fun d t =>
      match ops.init t name with
      | .ok s => PyDict.set d t ⟨s, ops.safe t⟩
      | .error _ => d) d) := by
    intro l
    induction l with
    | nil => exact fun d h => h
    | cons t l ih =>
      intro d h
      rw [List.foldl_cons]
      apply ih
      cases ops.init t name with
      | ok s => exact PyDict.WF_set h _ _
      | error e => exact h
  exact this types [] PyDict.WF_nil

theorem updated_norm_left (ops : Ops σ) (vals : List String) (ps es : PyDict String (Prof σ)) :
    List.Forall₂ (Updated ops vals) (ps.map fun tp => (tp.1, tp.2.norm)) es ↔
      List.Forall₂ (Updated ops vals) ps es := by
  rw [List.forall₂_map_left_iff]
  rfl

theorem updateCol_norm_iff (ops : Ops σ) (kinds : Kinds) (pool : Option (Sched String)) (hp : ∀ s ∈ pool, s.Fair)
    (name : Key) (vals : List String) (c e : Col σ) (hwf : CompsWF c.compilers) :
    (∃ d, updateCol ops kinds pool name vals c = .ok d ∧ d.norm = e) ↔
      (c.name = none ∨ c.name = some name) ∧ e.name = some name ∧ e.base = c.base ∧ e.shift = c.shift ∧
      e.lastBatch = c.lastBatch ∧
      List.Forall₂ (fun x y => y.1 = x.1 ∧ y.2.kind = x.2.kind ∧ y.2.name = x.2.name ∧
        List.Forall₂ (Updated ops vals) x.2.profs y.2.profs) (startComps ops kinds name c.compilers) e.compilers := by
  have hwf' : CompsWF (startComps ops kinds name c.compilers) := by
    unfold startComps
    split_ifs
    · intro kc hkc
      obtain ⟨kt, _, rfl⟩ := List.mem_map.1 hkc
      exact createProfs_wf _ _ _
    · exact hwf
  rw [← compilers_norm_iff ops pool hp vals _ e.compilers hwf']
  unfold updateCol
  by_cases hn : c.name = none ∨ c.name = some name
  · rw [if_neg (by rcases hn with h | h <;> simp [h])]
    cases hu : updateCompilers ops pool vals (startComps ops kinds name c.compilers) with
    | error e => simp
    | ok cs =>
      simp only [Except.ok.injEq, exists_eq_left', hn, true_and]
      constructor
      · rintro rfl
        exact ⟨rfl, rfl, rfl, rfl, rfl⟩
      · rintro ⟨h1, h2, h3, h4, h5⟩
        cases e
        simp only at h1 h2 h3 h4 h5
        subst h1 h2 h3 h4 h5
        rfl
  · have hn' : c.name ≠ none ∧ c.name ≠ some name := ⟨fun h => hn (.inl h), fun h => hn (.inr h)⟩
    rw [if_pos hn']
    simp [hn]

theorem startComps_norm (ops : Ops σ) (kinds : Kinds) (name : Key) (vals : List String) (cs es : PyDict String (Compiler σ)) :
    List.Forall₂ (fun x y => y.1 = x.1 ∧ y.2.kind = x.2.kind ∧ y.2.name = x.2.name ∧
        List.Forall₂ (Updated ops vals) x.2.profs y.2.profs)
        (startComps ops kinds name (cs.map fun kc => (kc.1, kc.2.norm))) es ↔
    List.Forall₂ (fun x y => y.1 = x.1 ∧ y.2.kind = x.2.kind ∧ y.2.name = x.2.name ∧
        List.Forall₂ (Updated ops vals) x.2.profs y.2.profs) (startComps ops kinds name cs) es := by
  unfold startComps
  by_cases h : cs = []
  · simp [h]
  · rw [if_neg h, if_neg (by simpa using h), List.forall₂_map_left_iff]
    apply forall₂_congr_mem
    intro x _ y
    rw [Compiler.norm, updated_norm_left]

/-- Updating a column: the pool does not matter, and neither do earlier flags. -/
theorem updateCol_same (ops : Ops σ) (kinds : Kinds) (pool pool' : Option (Sched String)) (hp : ∀ s ∈ pool, s.Fair)
    (hp' : ∀ s ∈ pool', s.Fair) (name : Key) (vals : List String) (c c' e : Col σ) (hwf : CompsWF c.compilers)
    (hwf' : CompsWF c'.compilers) (hc : c.norm = c'.norm) :
    (∃ d, updateCol ops kinds pool name vals c = .ok d ∧ d.norm = e) ↔
    (∃ d, updateCol ops kinds pool' name vals c' = .ok d ∧ d.norm = e) := by
  rw [updateCol_norm_iff _ _ _ hp _ _ _ _ hwf, updateCol_norm_iff _ _ _ hp' _ _ _ _ hwf']
  rw [← startComps_norm ops kinds name vals c.compilers, ← startComps_norm ops kinds name vals c'.compilers]
  have h1 : c.name = c'.name := by simpa [Col.norm] using congrArg Col.name hc
  have h2 : c.base = c'.base := by simpa [Col.norm] using congrArg Col.base hc
  have h3 : c.shift = c'.shift := by simpa [Col.norm] using congrArg Col.shift hc
  have h4 : c.lastBatch = c'.lastBatch := by simpa [Col.norm] using congrArg Col.lastBatch hc
  have h5 : (c.compilers.map fun kc => (kc.1, kc.2.norm)) = c'.compilers.map fun kc => (kc.1, kc.2.norm) :=
    by simpa only [Col.norm] using congrArg Col.compilers hc
  rw [h1, h2, h3, h4, h5]

theorem forall₂_keys {α β : Type} {R : String × α → String × β → Prop} (hR : ∀ x y, R x y → y.1 = x.1) {xs : List (String × α)}
    {ys : List (String × β)} (h : List.Forall₂ R xs ys) : ys.map Prod.fst = xs.map Prod.fst := by
  induction h with
  | nil => rfl
  | cons h _ ih => simp [hR _ _ h, ih]

theorem forall₂_mem_right {α β : Type} {R : α → β → Prop} {xs : List α} {ys : List β} (h : List.Forall₂ R xs ys) {y : β}
    (hy : y ∈ ys) : ∃ x ∈ xs, R x y := by
  induction h with
  | nil => simp at hy
  | cons h _ ih =>
    rcases List.mem_cons.1 hy with rfl | hy
    · exact ⟨_, by simp, h⟩
    · obtain ⟨x, hx, hxy⟩ := ih hy
      exact ⟨x, by simp [hx], hxy⟩

theorem norm_wf (cs : PyDict String (Compiler σ)) : CompsWF (cs.map fun kc => (kc.1, kc.2.norm)) ↔ CompsWF cs := by
  unfold CompsWF
  rw [List.forall_mem_map]
  apply forall₂_congr
  intro kc _
  simp only [Compiler.norm, PyDict.WF, PyDict.keys, List.map_map]
  rfl

theorem updateCol_wf (ops : Ops σ) (kinds : Kinds) (pool : Option (Sched String)) (hp : ∀ s ∈ pool, s.Fair)
    (name : Key) (vals : List String) (c d : Col σ) (hwf : CompsWF c.compilers)
    (h : updateCol ops kinds pool name vals c = .ok d) : CompsWF d.compilers := by
  have := ((updateCol_norm_iff ops kinds pool hp name vals c d.norm hwf).1 ⟨d, h, rfl⟩).2.2.2.2.2
  rw [← norm_wf]
  change CompsWF d.norm.compilers
  have hwf' : CompsWF (startComps ops kinds name c.compilers) := by
    unfold startComps
    split_ifs
    · intro kc hkc
      obtain ⟨kt, _, rfl⟩ := List.mem_map.1 hkc
      exact createProfs_wf _ _ _
    · exact hwf
  intro kc hkc
  obtain ⟨x, hx, hxy⟩ := forall₂_mem_right this hkc
  have := forall₂_keys (fun _ _ h => h.1) hxy.2.2.2
  unfold PyDict.WF PyDict.keys
  rw [this]
  exact hwf' x hx

/-! ## Second phase -/

/-- The update of profile column `p`. -/
def Step2 (env : Env σ η) (pool : Option (Sched String)) (src : ℕ → Option Key) (cleaned : PyDict ℕ (List String))
    (cols : List (Col σ)) (p : ℕ) (c' : Col σ) : Prop :=
  ∃ c vals name, cols[p]? = some c ∧ PyDict.get? cleaned p = some vals ∧ src p = some name ∧
    updateCol env.ops env.kinds pool name vals c = .ok c'

theorem phase2_iff (env : Env σ η) (pool : Option (Sched String)) (src : ℕ → Option Key) (cleaned : PyDict ℕ (List String))
    (cols : List (Col σ)) (ps : List ℕ) (hps : ps.Nodup) (cols' : List (Col σ)) :
    phase2 env pool src cleaned cols ps = .ok cols' ↔ cols'.length = cols.length ∧
      (∀ p, p ∉ ps → cols'[p]? = cols[p]?) ∧ ∀ p ∈ ps, ∃ c', Step2 env pool src cleaned cols p c' ∧ cols'[p]? = some c' := by
  induction ps generalizing cols with
  | nil =>
    simp only [phase2, Except.ok.injEq, List.not_mem_nil, not_false_eq_true, forall_const, false_implies, and_true]
    constructor
    · rintro rfl; exact ⟨rfl, fun _ => rfl⟩
    · rintro ⟨_, h⟩
      exact (List.ext_getElem? h).symm
  | cons p ps ih =>
    have hp : p ∉ ps := (List.nodup_cons.1 hps).1
    have ih := fun cols => ih cols (List.nodup_cons.1 hps).2
    rw [phase2]
    by_cases hstep : ∃ c', Step2 env pool src cleaned cols p c'
    · obtain ⟨c', c, vals, name, h1, h2, h3, h4⟩ := hstep
      simp only [h1, h2, h3, h4]
      have hlt : p < cols.length := (List.getElem?_eq_some_iff.1 h1).1
      have hset : ∀ q, q ≠ p → (cols.set p c')[q]? = cols[q]? := by
        intro q hq
        rw [List.getElem?_set_ne (Ne.symm hq)]
      rw [ih]
      constructor
      · rintro ⟨l1, l2, l3⟩
        refine ⟨by simpa using l1, ?_, ?_⟩
        · intro q hq
          simp only [List.mem_cons, not_or] at hq
          rw [l2 q hq.2, hset q hq.1]
        · intro q hq
          rcases List.mem_cons.1 hq with rfl | hq'
          · refine ⟨c', ⟨c, vals, name, h1, h2, h3, h4⟩, ?_⟩
            rw [l2 q hp, List.getElem?_set_self hlt]
          · obtain ⟨d', ⟨d, vs, nm, g1, g2, g3, g4⟩, g5⟩ := l3 q hq'
            have hne : q ≠ p := fun e => hp (e ▸ hq')
            rw [hset q hne] at g1
            exact ⟨d', ⟨d, vs, nm, g1, g2, g3, g4⟩, g5⟩
      · rintro ⟨l1, l2, l3⟩
        refine ⟨by simpa using l1, ?_, ?_⟩
        · intro q hq
          by_cases hqp : q = p
          · subst hqp
            obtain ⟨d', ⟨d, vs, nm, g1, g2, g3, g4⟩, g5⟩ := l3 q (by simp)
            rw [h1] at g1; cases g1
            rw [h2] at g2; cases g2
            rw [h3] at g3; cases g3
            rw [h4] at g4; cases g4
            rw [g5, List.getElem?_set_self hlt]
          · rw [l2 q (by simp [hqp, hq]), hset q hqp]
        · intro q hq
          obtain ⟨d', ⟨d, vs, nm, g1, g2, g3, g4⟩, g5⟩ := l3 q (by simp [hq])
          have hne : q ≠ p := fun e => hp (e ▸ hq)
          refine ⟨d', ⟨d, vs, nm, ?_, g2, g3, g4⟩, g5⟩
          rw [hset q hne, g1]
    · have hl : ¬ (cols'.length = cols.length ∧ (∀ q, q ∉ p :: ps → cols'[q]? = cols[q]?) ∧
          ∀ q ∈ p :: ps, ∃ c', Step2 env pool src cleaned cols q c' ∧ cols'[q]? = some c') := by
        rintro ⟨_, _, l3⟩
        obtain ⟨c', h, _⟩ := l3 p (by simp)
        exact hstep ⟨c', h⟩
      rw [iff_false_intro hl, iff_false]
      intro h
      cases h1 : cols[p]? with
      | none => simp [h1] at h
      | some c =>
        cases h2 : PyDict.get? cleaned p with
        | none => simp [h1, h2] at h
        | some vals =>
          cases h3 : src p with
          | none => simp [h1, h2, h3] at h
          | some name =>
            simp only [h1, h2, h3] at h
            cases h4 : updateCol env.ops env.kinds pool name vals c with
            | error e => simp [h4] at h
            | ok c' => exact hstep ⟨c', c, vals, name, h1, h2, h3, h4⟩

theorem phase2_ok (env : Env σ η) (pool : Option (Sched String)) (src : ℕ → Option Key) (cleaned : PyDict ℕ (List String))
    (cols : List (Col σ)) (ps : List ℕ) (hps : ps.Nodup) (h : ∀ p ∈ ps, ∃ c', Step2 env pool src cleaned cols p c') :
    ∃ cols', phase2 env pool src cleaned cols ps = .ok cols' := by
  induction ps generalizing cols with
  | nil => exact ⟨cols, rfl⟩
  | cons p ps ih =>
    have hp : p ∉ ps := (List.nodup_cons.1 hps).1
    obtain ⟨c', c, vals, name, h1, h2, h3, h4⟩ := h p (by simp)
    rw [phase2]
    simp only [h1, h2, h3, h4]
    apply ih _ (List.nodup_cons.1 hps).2
    intro q hq
    obtain ⟨d', d, vs, nm, g1, g2, g3, g4⟩ := h q (by simp [hq])
    have hne : q ≠ p := fun e => hp (e ▸ hq)
    exact ⟨d', d, vs, nm, by rw [List.getElem?_set_ne (Ne.symm hne), g1], g2, g3, g4⟩

/-- All profile dictionaries have distinct keys. -/
def ColsWF (cols : List (Col σ)) : Prop := ∀ c ∈ cols, CompsWF c.compilers

theorem phase2_same_aux (env : Env σ η) (pool pool' : Option (Sched String)) (hp : ∀ s ∈ pool, s.Fair)
    (hp' : ∀ s ∈ pool', s.Fair) (src : ℕ → Option Key) (cl cl' : PyDict ℕ (List String))
    (hcl : ∀ p, PyDict.get? cl p = PyDict.get? cl' p) (cols cols' : List (Col σ)) (hwf : ColsWF cols) (hwf' : ColsWF cols')
    (hc : cols.map Col.norm = cols'.map Col.norm) (ps ps' : List ℕ) (hps : ps.Nodup) (hps' : ps'.Nodup)
    (hmem : ∀ p, p ∈ ps ↔ p ∈ ps') (ds : List (Col σ)) (h : phase2 env pool src cl cols ps = .ok ds) :
    ∃ ds', phase2 env pool' src cl' cols' ps' = .ok ds' ∧ ds'.map Col.norm = ds.map Col.norm := by
  obtain ⟨l1, l2, l3⟩ := (phase2_iff env pool src cl cols ps hps ds).1 h
  have hget : ∀ (p : ℕ) (c : Col σ), cols[p]? = some c → ∃ c' : Col σ, cols'[p]? = some c' ∧ c.norm = c'.norm := by
    intro p c hpc
    have := congrArg (·[p]?) hc
    simp only [List.getElem?_map, hpc, Option.map_some] at this
    cases hq : cols'[p]? with
    | none => simp [hq] at this
    | some c' => exact ⟨c', rfl, by simpa [hq] using this⟩
  have key : ∀ p ∈ ps, ∃ d d', ds[p]? = some d ∧ Step2 env pool' src cl' cols' p d' ∧ d'.norm = d.norm := by
    intro p hpp
    obtain ⟨d, ⟨c, vals, name, h1, h2, h3, h4⟩, h5⟩ := l3 p hpp
    obtain ⟨c', h6, h7⟩ := hget p c h1
    obtain ⟨d', h8, h9⟩ := (updateCol_same env.ops env.kinds pool pool' hp hp' name vals c c' d.norm
      (hwf c (List.mem_of_getElem? h1)) (hwf' c' (List.mem_of_getElem? h6)) h7).1 ⟨d, h4, rfl⟩
    exact ⟨d, d', h5, ⟨c', vals, name, h6, by rw [← hcl, h2], h3, h8⟩, h9⟩
  obtain ⟨ds', hds'⟩ := phase2_ok env pool' src cl' cols' ps' hps' (by
    intro p hp
    obtain ⟨_, d', _, h, _⟩ := key p ((hmem p).2 hp)
    exact ⟨d', h⟩)
  refine ⟨ds', hds', ?_⟩
  obtain ⟨m1, m2, m3⟩ := (phase2_iff env pool' src cl' cols' ps' hps' ds').1 hds'
  apply List.ext_getElem?
  intro p
  simp only [List.getElem?_map]
  by_cases hpp : p ∈ ps
  · obtain ⟨d, d', k1, ⟨c', vals, name, k2, k3, k4, k5⟩, k6⟩ := key p hpp
    obtain ⟨d2, ⟨c2, vals2, name2, g2, g3, g4, g5⟩, g6⟩ := m3 p ((hmem p).1 hpp)
    rw [k2] at g2; cases g2
    rw [k3] at g3; cases g3
    rw [k4] at g4; cases g4
    rw [k5] at g5; cases g5
    rw [g6, k1, Option.map_some, Option.map_some, k6]
  · rw [l2 p hpp, m2 p (fun h => hpp ((hmem p).2 h))]
    have := congrArg (·[p]?) hc
    simpa only [List.getElem?_map] using this.symm

theorem phase2_wf (env : Env σ η) (pool : Option (Sched String)) (hp : ∀ s ∈ pool, s.Fair)
    (src : ℕ → Option Key) (cl : PyDict ℕ (List String)) (cols ds : List (Col σ)) (ps : List ℕ) (hps : ps.Nodup)
    (hwf : ColsWF cols) (h : phase2 env pool src cl cols ps = .ok ds) : ColsWF ds := by
  obtain ⟨l1, l2, l3⟩ := (phase2_iff env pool src cl cols ps hps ds).1 h
  intro d hd
  obtain ⟨p, hp1⟩ := List.mem_iff_getElem?.1 hd
  by_cases hpp : p ∈ ps
  · obtain ⟨d', ⟨c, vals, name, h1, h2, h3, h4⟩, h5⟩ := l3 p hpp
    rw [hp1] at h5
    cases h5
    exact updateCol_wf _ _ _ hp _ _ _ _ (hwf c (List.mem_of_getElem? h1)) h4
  · rw [l2 p hpp] at hp1
    exact hwf d (List.mem_of_getElem? hp1)

/-! ## First phase -/

/-- The effect of data column `j`: profile column, new column profile, cleaned values. -/
def Step1 (env : Env σ η) (u : Upd) (m : PyDict ℕ ℕ) (cols : List (Col σ)) (j p : ℕ) (c' : Col σ) (vals : List String) : Prop :=
  ∃ r c b, target m j = .ok p ∧ cleanCol env u p j = .ok r ∧ cols[p]? = some c ∧ updateBase c.base r.2 = .ok b ∧
    c' = c.withBase b r.2 ∧ vals = r.1

theorem Step1.unique {env : Env σ η} {u : Upd} {m : PyDict ℕ ℕ} {cols : List (Col σ)} {j p p2 : ℕ} {c c2 : Col σ}
    {v v2 : List String} (h : Step1 env u m cols j p c v) (h2 : Step1 env u m cols j p2 c2 v2) :
    p = p2 ∧ c = c2 ∧ v = v2 := by
  obtain ⟨r, d, b, h1, h2', h3, h4, rfl, rfl⟩ := h
  obtain ⟨r', d', b', g1, g2, g3, g4, rfl, rfl⟩ := h2
  rw [h1] at g1; cases g1
  rw [h2'] at g2; cases g2
  rw [h3] at g3; cases g3
  rw [h4] at g4; cases g4
  exact ⟨rfl, rfl, rfl⟩

/-- Distinct data columns have distinct targets. -/
def Inj (m : PyDict ℕ ℕ) (js : List ℕ) : Prop := ∀ i ∈ js, ∀ j ∈ js, ∀ p, target m i = .ok p → target m j = .ok p → i = j

theorem Step1.congr {env : Env σ η} {u : Upd} {m : PyDict ℕ ℕ} {cols cols2 : List (Col σ)} {j p : ℕ} {c : Col σ}
    {v : List String} (h : Step1 env u m cols j p c v) (hc : cols2[p]? = cols[p]?) : Step1 env u m cols2 j p c v := by
  obtain ⟨r, d, b, h1, h2', h3, h4, h5, h6⟩ := h
  exact ⟨r, d, b, h1, h2', by rw [hc, h3], h4, h5, h6⟩

theorem oneCol_iff (env : Env σ η) (u : Upd) (m : PyDict ℕ ℕ) (st st' : Phase1 σ) (j : ℕ) :
    oneCol env u m st j = .ok st' ↔ ∃ p c vals, Step1 env u m st.cols j p c vals ∧
      st' = ⟨st.cols.set p c, PyDict.set st.cleaned p vals⟩ := by
  unfold oneCol
  cases h1 : target m j with
  | error e =>
    simp only [reduceCtorEq, false_iff, not_exists, not_and]
    rintro p c vals ⟨r, d, b, g1, _⟩
    rw [h1] at g1; cases g1
  | ok p =>
    simp only
    cases h2 : cleanCol env u p j with
    | error e =>
      simp only [reduceCtorEq, false_iff, not_exists, not_and]
      rintro p c vals ⟨r, d, b, g1, g2, _⟩
      rw [h1] at g1; cases g1
      rw [h2] at g2; cases g2
    | ok r =>
      simp only [useClean]
      cases h3 : st.cols[p]? with
      | none =>
        simp only [reduceCtorEq, false_iff, not_exists, not_and]
        rintro p c vals ⟨r, d, b, g1, g2, g3, _⟩
        rw [h1] at g1; cases g1
        rw [h3] at g3; cases g3
      | some c =>
        simp only
        cases h4 : updateBase c.base r.2 with
        | error e =>
          simp only [reduceCtorEq, false_iff, not_exists, not_and]
          rintro p c vals ⟨r, d, b, g1, g2, g3, g4, _⟩
          rw [h1] at g1; cases g1
          rw [h2] at g2; cases g2
          rw [h3] at g3; cases g3
          rw [h4] at g4; cases g4
        | ok b =>
          simp only [Except.ok.injEq]
          constructor
          · rintro rfl
            exact ⟨p, _, r.1, ⟨r, c, b, h1, h2, h3, h4, rfl, rfl⟩, rfl⟩
          · rintro ⟨p2, c2, vals, ⟨r2, d2, b2, g1, g2, g3, g4, rfl, rfl⟩, rfl⟩
            rw [h1] at g1; cases g1
            rw [h2] at g2; cases g2
            rw [h3] at g3; cases g3
            rw [h4] at g4; cases g4
            rfl

/-- What a loop over data columns achieves: each is accounted for once, in its profile column. -/
structure Done1 (env : Env σ η) (u : Upd) (m : PyDict ℕ ℕ) (st st' : Phase1 σ) (js : List ℕ) : Prop where
  len : st'.cols.length = st.cols.length
  other : ∀ p, (∀ j ∈ js, target m j ≠ .ok p) → st'.cols[p]? = st.cols[p]?
  otherC : ∀ p, (∀ j ∈ js, target m j ≠ .ok p) → PyDict.get? st'.cleaned p = PyDict.get? st.cleaned p
  each : ∀ j ∈ js, ∃ p c vals, Step1 env u m st.cols j p c vals ∧ st'.cols[p]? = some c ∧
    PyDict.get? st'.cleaned p = some vals

theorem allCols_done (env : Env σ η) (u : Upd) (m : PyDict ℕ ℕ) (st st' : Phase1 σ) (js : List ℕ) (hn : js.Nodup)
    (hi : Inj m js) (h : allCols env u m st js = .ok st') : Done1 env u m st st' js := by
  induction js generalizing st with
  | nil =>
    rw [allCols] at h
    cases h
    exact ⟨rfl, fun _ _ => rfl, fun _ _ => rfl, by simp⟩
  | cons j js ih =>
    have hj : j ∉ js := (List.nodup_cons.1 hn).1
    rw [allCols] at h
    cases h1 : oneCol env u m st j with
    | error e => simp [h1] at h
    | ok st1 =>
      simp only [h1] at h
      obtain ⟨p, c, vals, hs, rfl⟩ := (oneCol_iff env u m st st1 j).1 h1
      have ht : target m j = .ok p := by obtain ⟨_, _, _, g1, _⟩ := hs; exact g1
      have hlt : p < st.cols.length := by
        obtain ⟨_, _, _, _, _, g3, _⟩ := hs
        exact (List.getElem?_eq_some_iff.1 g3).1
      have hp : ∀ i ∈ js, target m i ≠ .ok p := by
        intro i hi' hti
        exact hj (hi j (by simp) i (by simp [hi']) p ht hti ▸ hi')
      have d := ih _ (List.nodup_cons.1 hn).2 (fun i hi1 k hk => hi i (by simp [hi1]) k (by simp [hk])) h
      have hset : ∀ q, q ≠ p → (st.cols.set p c)[q]? = st.cols[q]? := fun q hq => by
        rw [List.getElem?_set_ne (Ne.symm hq)]
      constructor
      · simpa using d.len
      · intro q hq
        have hqp : q ≠ p := by rintro rfl; exact hq j (by simp) ht
        rw [d.other q (fun i hi' => hq i (by simp [hi'])), hset q hqp]
      · intro q hq
        have hqp : q ≠ p := by rintro rfl; exact hq j (by simp) ht
        rw [d.otherC q (fun i hi' => hq i (by simp [hi'])), PyDict.get?_set, if_neg (Ne.symm hqp)]
      · intro i hi'
        rcases List.mem_cons.1 hi' with rfl | hi'
        · refine ⟨p, c, vals, hs, ?_, ?_⟩
          · rw [d.other p hp, List.getElem?_set_self hlt]
          · rw [d.otherC p hp, PyDict.get?_set, if_pos rfl]
        · obtain ⟨q, c', vals', hs', g1, g2⟩ := d.each i hi'
          have htq : target m i = .ok q := by obtain ⟨_, _, _, g1, _⟩ := hs'; exact g1
          have hqp : q ≠ p := by rintro rfl; exact hp i hi' htq
          exact ⟨q, c', vals', hs'.congr (hset q hqp).symm, g1, g2⟩

theorem allCols_ok (env : Env σ η) (u : Upd) (m : PyDict ℕ ℕ) (st : Phase1 σ) (js : List ℕ) (hn : js.Nodup)
    (hi : Inj m js) (h : ∀ j ∈ js, ∃ p c vals, Step1 env u m st.cols j p c vals) :
    ∃ st', allCols env u m st js = .ok st' := by
  induction js generalizing st with
  | nil => exact ⟨st, rfl⟩
  | cons j js ih =>
    have hj : j ∉ js := (List.nodup_cons.1 hn).1
    obtain ⟨p, c, vals, hs⟩ := h j (by simp)
    have ht : target m j = .ok p := by obtain ⟨_, _, _, g1, _⟩ := hs; exact g1
    rw [allCols, (oneCol_iff env u m st _ j).2 ⟨p, c, vals, hs, rfl⟩]
    apply ih _ (List.nodup_cons.1 hn).2 (fun i hi1 k hk => hi i (by simp [hi1]) k (by simp [hk]))
    intro i hi'
    obtain ⟨q, d, vals', hs'⟩ := h i (by simp [hi'])
    have htq : target m i = .ok q := by obtain ⟨_, _, _, g1, _⟩ := hs'; exact g1
    have hqp : q ≠ p := by
      rintro rfl
      exact hj (hi j (by simp) i (by simp [hi']) q ht htq ▸ hi')
    exact ⟨q, d, vals', hs'.congr (by rw [List.getElem?_set_ne (Ne.symm hqp)])⟩

theorem useClean_iff (env : Env σ η) (u : Upd) (m : PyDict ℕ ℕ) (st st' : Phase1 σ) (j p : ℕ) (r : List String × Base)
    (h1 : target m j = .ok p) (h2 : cleanCol env u p j = .ok r) :
    useClean st p r = .ok st' ↔ oneCol env u m st j = .ok st' := by
  unfold oneCol
  rw [h1]
  simp only
  rw [h2]

/-- What collecting the pool's results achieves. -/
structure Collected (env : Env σ η) (u : Upd) (m : PyDict ℕ ℕ) (st : Phase1 σ) (sub : List ℕ) (q : Phase1 σ × List ℕ) : Prop where
  sublist : q.2.Sublist sub
  len : q.1.cols.length = st.cols.length
  other : ∀ p, (∀ j ∈ sub, j ∉ q.2 → target m j ≠ .ok p) → q.1.cols[p]? = st.cols[p]?
  otherC : ∀ p, (∀ j ∈ sub, target m j ≠ .ok p) → PyDict.get? q.1.cleaned p = PyDict.get? st.cleaned p
  each : ∀ j ∈ sub, j ∉ q.2 → ∃ p c vals, Step1 env u m st.cols j p c vals ∧ q.1.cols[p]? = some c ∧
    PyDict.get? q.1.cleaned p = some vals
  wf : PyDict.WF st.cleaned → PyDict.WF q.1.cleaned

theorem collect_spec (env : Env σ η) (u : Upd) (m : PyDict ℕ ℕ) (sl : PyDict ℕ (Except Err (List String × Base)))
    (st : Phase1 σ) (sub : List ℕ) (hn : sub.Nodup) (hi : Inj m sub)
    (hsl : ∀ j ∈ sub, ∀ r, getSlot sl j = .ok r → cleanTask env u m j = .ok r) :
    Collected env u m st sub (collect m sl st sub) := by
  induction sub generalizing st with
  | nil => exact ⟨List.Sublist.slnil, rfl, fun _ _ => rfl, fun _ _ => rfl, by simp, id⟩
  | cons j js ih =>
    have hj : j ∉ js := (List.nodup_cons.1 hn).1
    have ih := fun st => ih st (List.nodup_cons.1 hn).2 (fun i hi1 k hk => hi i (by simp [hi1]) k (by simp [hk]))
      (fun i hi' => hsl i (by simp [hi']))
    -- the column is left for later; at most the cleaned values of its target change
    have skip : ∀ st1 : Phase1 σ, st1.cols = st.cols →
        (∀ p, target m j ≠ .ok p → PyDict.get? st1.cleaned p = PyDict.get? st.cleaned p) →
        (PyDict.WF st.cleaned → PyDict.WF st1.cleaned) →
        Collected env u m st (j :: js) ((collect m sl st1 js).1, j :: (collect m sl st1 js).2) := by
      intro st1 hc hcl hw
      have d := ih st1
      constructor
      · exact d.sublist.cons_cons j
      · rw [d.len, hc]
      · intro p hp
        rw [d.other p (fun i hi1 hi2 => hp i (by simp [hi1]) (by
          simp only [List.mem_cons, not_or]
          exact ⟨fun e => hj (e ▸ hi1), hi2⟩)), hc]
      · intro p hp
        rw [d.otherC p (fun i hi1 => hp i (by simp [hi1])), hcl p (hp j (by simp))]
      · intro i hi1 hi2
        simp only [List.mem_cons, not_or] at hi1 hi2
        obtain ⟨p, c, vals, k1, k2, k3⟩ := d.each i (hi1.resolve_left hi2.1) hi2.2
        rw [hc] at k1
        exact ⟨p, c, vals, k1, k2, k3⟩
      · exact fun h => d.wf (hw h)
    rw [collect]
    cases ht : target m j with
    | error e => exact skip st rfl (fun _ _ => rfl) id
    | ok p =>
      cases hg : getSlot sl j with
      | error e => exact skip st rfl (fun _ _ => rfl) id
      | ok r =>
        simp only
        have hclean : cleanCol env u p j = .ok r := by
          have := hsl j (by simp) r hg
          unfold cleanTask at this
          rw [ht] at this
          exact this
        cases hu : useClean st p r with
        | error e =>
          simp only
          refine skip _ rfl ?_ (fun h => PyDict.WF_set h _ _)
          intro q hq
          rw [PyDict.get?_set, if_neg]
          rintro rfl
          exact hq ht
        | ok st1 =>
          simp only
          have hone := (useClean_iff env u m st st1 j p r ht hclean).1 hu
          obtain ⟨p', c, vals, hs, rfl⟩ := (oneCol_iff env u m st st1 j).1 hone
          have hpp : p' = p := by
            obtain ⟨_, _, _, g1, _⟩ := hs
            rw [ht] at g1; cases g1; rfl
          subst hpp
          have hlt : p' < st.cols.length := by
            obtain ⟨_, _, _, _, _, g3, _⟩ := hs
            exact (List.getElem?_eq_some_iff.1 g3).1
          have hp : ∀ i ∈ js, target m i ≠ .ok p' := by
            intro i hi' hti
            exact hj (hi j (by simp) i (by simp [hi']) p' ht hti ▸ hi')
          have hset : ∀ q, q ≠ p' → (st.cols.set p' c)[q]? = st.cols[q]? := fun q hq => by
            rw [List.getElem?_set_ne (Ne.symm hq)]
          have d := ih ⟨st.cols.set p' c, PyDict.set st.cleaned p' vals⟩
          have hjF : j ∉ (collect m sl ⟨st.cols.set p' c, PyDict.set st.cleaned p' vals⟩ js).2 :=
            fun h => hj (d.sublist.subset h)
          constructor
          · exact d.sublist.cons j
          · simpa using d.len
          · intro q hq
            have hqp : q ≠ p' := by
              rintro rfl
              exact hq j (by simp) hjF ht
            rw [d.other q (fun i hi1 hi2 => hq i (by simp [hi1]) hi2), hset q hqp]
          · intro q hq
            have hqp : q ≠ p' := by
              rintro rfl
              exact hq j (by simp) ht
            rw [d.otherC q (fun i hi1 => hq i (by simp [hi1])), PyDict.get?_set, if_neg (Ne.symm hqp)]
          · intro i hi1 hi2
            rcases List.mem_cons.1 hi1 with rfl | hi1
            · refine ⟨p', c, vals, hs, ?_, ?_⟩
              · rw [d.other p' (fun k hk _ => hp k hk), List.getElem?_set_self hlt]
              · rw [d.otherC p' hp, PyDict.get?_set, if_pos rfl]
            · obtain ⟨q, c', vals', hs', g1, g2⟩ := d.each i hi1 hi2
              have htq : target m i = .ok q := by obtain ⟨_, _, _, g1, _⟩ := hs'; exact g1
              have hqp : q ≠ p' := by rintro rfl; exact hp i hi1 htq
              exact ⟨q, c', vals', hs'.congr (hset q hqp).symm, g1, g2⟩
          · exact fun h => d.wf (PyDict.WF_set h _ _)

theorem allCols_wf (env : Env σ η) (u : Upd) (m : PyDict ℕ ℕ) (st st' : Phase1 σ) (js : List ℕ)
    (h : allCols env u m st js = .ok st') (hw : PyDict.WF st.cleaned) : PyDict.WF st'.cleaned := by
  induction js generalizing st with
  | nil => cases h; exact hw
  | cons j js ih =>
    rw [allCols] at h
    cases h1 : oneCol env u m st j with
    | error e => simp [h1] at h
    | ok st1 =>
      simp only [h1] at h
      obtain ⟨p, c, vals, hs, rfl⟩ := (oneCol_iff env u m st st1 j).1 h1
      exact ih _ h (PyDict.WF_set hw _ _)

theorem target_of_step {env : Env σ η} {u : Upd} {m : PyDict ℕ ℕ} {cols : List (Col σ)} {j p : ℕ} {c : Col σ}
    {v : List String} (h : Step1 env u m cols j p c v) : target m j = .ok p := by
  obtain ⟨_, _, _, g1, _⟩ := h
  exact g1

/-- The first phase, with or without pool: succeeds iff every column can be processed, and then each was, once. -/
theorem phase1_spec (env : Env σ η) (pool : Option TableSched) (hp : ∀ s ∈ pool, s.Fair) (u : Upd) (m : PyDict ℕ ℕ)
    (cols : List (Col σ)) (hi : Inj m (List.range u.data.names.length)) :
    ((∀ j < u.data.names.length, ∃ p c vals, Step1 env u m cols j p c vals) → ∃ st, phase1 env pool u m cols = .ok st) ∧
    ∀ st, phase1 env pool u m cols = .ok st →
      Done1 env u m ⟨cols, []⟩ st (List.range u.data.names.length) ∧ PyDict.WF st.cleaned := by
  cases pool with
  | none =>
    refine ⟨fun h => ?_, fun st h => ⟨?_, ?_⟩⟩
    · exact allCols_ok env u m ⟨cols, []⟩ _ List.nodup_range hi (fun j hj => h j (List.mem_range.1 hj))
    · exact allCols_done env u m _ st _ List.nodup_range hi h
    · exact allCols_wf env u m _ _ _ h PyDict.WF_nil
  | some s =>
    have hf := hp s rfl
    unfold phase1
    dsimp only
    generalize hjs : List.range u.data.names.length = js at hi ⊢
    have hn : js.Nodup := hjs ▸ List.nodup_range
    have hmemr : ∀ j, j ∈ js ↔ j < u.data.names.length := fun j => by rw [← hjs, List.mem_range]
    generalize hsub : js.filter (fun j => !s.clean.refuses j) = sub
    have hsubn : sub.Nodup := hsub ▸ hn.filter _
    have hsubm : ∀ j, j ∈ sub ↔ j ∈ js ∧ s.clean.refuses j = false := fun j => by
      rw [← hsub, List.mem_filter]; simp
    have d := collect_spec env u m (slots s.clean (cleanTask env u m) sub) ⟨cols, []⟩ sub hsubn
      (fun i hi1 k hk => hi i ((hsubm i).1 hi1).1 k ((hsubm k).1 hk).1) (by
        intro j hj r hr
        rw [getSlot_slots s.clean hf.clean _ sub j hj] at hr
        split_ifs at hr
        exact hr)
    generalize hq : collect m (slots s.clean (cleanTask env u m) sub) ⟨cols, []⟩ sub = q at d ⊢
    generalize hR : s.retry (js.filter (fun j => s.clean.refuses j) ++ q.2) = R
    have hRp : R.Perm (js.filter (fun j => s.clean.refuses j) ++ q.2) := hR ▸ hf.retry _
    have hRm : ∀ j, j ∈ R ↔ (j ∈ js ∧ s.clean.refuses j = true) ∨ j ∈ q.2 := fun j => by
      rw [hRp.mem_iff, List.mem_append, List.mem_filter]
    have hRjs : ∀ j ∈ R, j ∈ js := by
      intro j hj
      rcases (hRm j).1 hj with h | h
      · exact h.1
      · exact ((hsubm j).1 (d.sublist.subset h)).1
    have hRn : R.Nodup := by
      rw [hRp.nodup_iff, List.nodup_append]
      refine ⟨hn.filter _, d.sublist.nodup hsubn, ?_⟩
      rintro a ha b hb rfl
      have h1 := (List.mem_filter.1 ha).2
      have h2 := ((hsubm a).1 (d.sublist.subset hb)).2
      rw [h1] at h2
      cases h2
    have hRi : Inj m R := fun i hi1 k hk => hi i (hRjs i hi1) k (hRjs k hk)
    -- done ones are not retried
    have hsplit : ∀ j ∈ js, j ∈ R ∨ (j ∈ sub ∧ j ∉ q.2) := by
      intro j hj
      by_cases hr : s.clean.refuses j = true
      · exact .inl ((hRm j).2 (.inl ⟨hj, hr⟩))
      · have hs : j ∈ sub := (hsubm j).2 ⟨hj, by simpa using hr⟩
        by_cases hF : j ∈ q.2
        · exact .inl ((hRm j).2 (.inr hF))
        · exact .inr ⟨hs, hF⟩
    have hdisj : ∀ j, j ∈ sub → j ∉ q.2 → j ∉ R := by
      intro j h1 h2 h3
      rcases (hRm j).1 h3 with h | h
      · have := ((hsubm j).1 h1).2
        rw [h.2] at this; cases this
      · exact h2 h
    -- targets of retried columns are untouched by the collection
    have hunt : ∀ j ∈ R, ∀ p, target m j = .ok p → q.1.cols[p]? = cols[p]? := by
      intro j hj p ht
      apply d.other p
      intro i hi1 hi2 hti
      have : i = j := hi i ((hsubm i).1 hi1).1 j (hRjs j hj) p hti ht
      exact hdisj i hi1 hi2 (this ▸ hj)
    refine ⟨fun h => ?_, fun st h => ⟨?_, ?_⟩⟩
    · apply allCols_ok env u m q.1 R hRn hRi
      intro j hj
      obtain ⟨p, c, vals, hs⟩ := h j ((hmemr j).1 (hRjs j hj))
      exact ⟨p, c, vals, hs.congr (hunt j hj p (target_of_step hs))⟩
    · have e := allCols_done env u m q.1 st R hRn hRi h
      constructor
      · rw [e.len, d.len]
      · intro p hp
        rw [e.other p (fun j hj => hp j (hRjs j hj)), d.other p (fun j hj _ => hp j ((hsubm j).1 hj).1)]
      · intro p hp
        rw [e.otherC p (fun j hj => hp j (hRjs j hj)), d.otherC p (fun j hj => hp j ((hsubm j).1 hj).1)]
      · intro j hj
        rcases hsplit j hj with hjR | ⟨hjs', hjF⟩
        · obtain ⟨p, c, vals, hs, g1, g2⟩ := e.each j hjR
          exact ⟨p, c, vals, hs.congr (hunt j hjR p (target_of_step hs)).symm, g1, g2⟩
        · obtain ⟨p, c, vals, hs, g1, g2⟩ := d.each j hjs' hjF
          have hno : ∀ i ∈ R, target m i ≠ .ok p := by
            intro i hiR hti
            have : i = j := hi i (hRjs i hiR) j hj p hti (target_of_step hs)
            exact hdisj j hjs' hjF (this ▸ hiR)
          exact ⟨p, c, vals, hs, by rw [e.other p hno, g1], by rw [e.otherC p hno, g2]⟩
    · exact allCols_wf env u m _ _ _ h (d.wf PyDict.WF_nil)

theorem step1_norm {env : Env σ η} {u : Upd} {m : PyDict ℕ ℕ} {cols cols' : List (Col σ)}
    (hc : cols.map Col.norm = cols'.map Col.norm) {j p : ℕ} {c : Col σ} {v : List String}
    (h : Step1 env u m cols j p c v) : ∃ c', Step1 env u m cols' j p c' v ∧ c'.norm = c.norm := by
  obtain ⟨r, d, b, h1, h2, h3, h4, rfl, rfl⟩ := h
  have := congrArg (·[p]?) hc
  simp only [List.getElem?_map, h3, Option.map_some] at this
  cases hq : cols'[p]? with
  | none => simp [hq] at this
  | some d' =>
    have hd : d.norm = d'.norm := by simpa [hq] using this
    have hb : d.base = d'.base := by simpa [Col.norm] using congrArg Col.base hd
    have hs : d.shift = d'.shift := by simpa [Col.norm] using congrArg Col.shift hd
    refine ⟨d'.withBase b r.2, ⟨r, d', b, h1, h2, hq, hb ▸ h4, rfl, rfl⟩, ?_⟩
    have e : ∀ x : Col σ, (x.withBase b r.2).norm = x.norm.withBase b r.2 := fun _ => rfl
    rw [e, e, hd]

/-- The first phase does not depend on the pool, nor on earlier flags. -/
theorem phase1_same_aux (env : Env σ η) (pool pool' : Option TableSched) (hp : ∀ s ∈ pool, s.Fair)
    (hp' : ∀ s ∈ pool', s.Fair) (u : Upd) (m : PyDict ℕ ℕ) (cols cols' : List (Col σ))
    (hi : Inj m (List.range u.data.names.length)) (hc : cols.map Col.norm = cols'.map Col.norm) (st : Phase1 σ)
    (h : phase1 env pool u m cols = .ok st) :
    ∃ st', phase1 env pool' u m cols' = .ok st' ∧ st'.cols.map Col.norm = st.cols.map Col.norm ∧
      (∀ p, PyDict.get? st'.cleaned p = PyDict.get? st.cleaned p) ∧ PyDict.WF st.cleaned ∧ PyDict.WF st'.cleaned := by
  obtain ⟨d, w⟩ := (phase1_spec env pool hp u m cols hi).2 st h
  obtain ⟨st', h'⟩ := (phase1_spec env pool' hp' u m cols' hi).1 (by
    intro j hj
    obtain ⟨p, c, vals, hs, _⟩ := d.each j (List.mem_range.2 hj)
    obtain ⟨c', hs', _⟩ := step1_norm hc hs
    exact ⟨p, c', vals, hs'⟩)
  obtain ⟨d', w'⟩ := (phase1_spec env pool' hp' u m cols' hi).2 st' h'
  refine ⟨st', h', ?_, ?_, w, w'⟩
  · apply List.ext_getElem?
    intro p
    simp only [List.getElem?_map]
    by_cases ht : ∃ j ∈ List.range u.data.names.length, target m j = .ok p
    · obtain ⟨j, hj, htp⟩ := ht
      obtain ⟨q, c, vals, hs, g1, _⟩ := d.each j hj
      obtain ⟨q', c', vals', hs', g1', _⟩ := d'.each j hj
      have e1 := target_of_step hs
      have e2 := target_of_step hs'
      rw [htp] at e1 e2
      cases e1; cases e2
      obtain ⟨c2, hs2, hn2⟩ := step1_norm hc hs
      obtain ⟨_, rfl, _⟩ := hs'.unique hs2
      rw [g1, g1', Option.map_some, Option.map_some, hn2]
    · have hno : ∀ j ∈ List.range u.data.names.length, target m j ≠ .ok p := fun j hj e => ht ⟨j, hj, e⟩
      rw [d.other p hno, d'.other p hno]
      have := congrArg (·[p]?) hc
      simpa only [List.getElem?_map] using this.symm
  · intro p
    by_cases ht : ∃ j ∈ List.range u.data.names.length, target m j = .ok p
    · obtain ⟨j, hj, htp⟩ := ht
      obtain ⟨q, c, vals, hs, _, g1⟩ := d.each j hj
      obtain ⟨q', c', vals', hs', _, g1'⟩ := d'.each j hj
      have e1 := target_of_step hs
      have e2 := target_of_step hs'
      rw [htp] at e1 e2
      cases e1; cases e2
      obtain ⟨c2, hs2, hn2⟩ := step1_norm hc hs
      obtain ⟨_, _, rfl⟩ := hs'.unique hs2
      rw [g1, g1']
    · have hno : ∀ j ∈ List.range u.data.names.length, target m j ≠ .ok p := fun j hj e => ht ⟨j, hj, e⟩
      rw [d.otherC p hno, d'.otherC p hno]

theorem phase1_wf (env : Env σ η) (pool : Option TableSched) (hp : ∀ s ∈ pool, s.Fair) (u : Upd) (m : PyDict ℕ ℕ)
    (cols : List (Col σ)) (hi : Inj m (List.range u.data.names.length)) (st : Phase1 σ)
    (h : phase1 env pool u m cols = .ok st) (hw : ColsWF cols) : ColsWF st.cols := by
  obtain ⟨d, _⟩ := (phase1_spec env pool hp u m cols hi).2 st h
  intro c hc
  obtain ⟨p, hpc⟩ := List.mem_iff_getElem?.1 hc
  by_cases ht : ∃ j ∈ List.range u.data.names.length, target m j = .ok p
  · obtain ⟨j, hj, htp⟩ := ht
    obtain ⟨q, c', vals, hs, g1, _⟩ := d.each j hj
    have e1 := target_of_step hs
    rw [htp] at e1
    cases e1
    rw [hpc] at g1
    cases g1
    obtain ⟨r, c0, b, _, _, h3, _, rfl, _⟩ := hs
    exact hw c0 (List.mem_of_getElem? h3)
  · have hno : ∀ j ∈ List.range u.data.names.length, target m j ≠ .ok p := fun j hj e => ht ⟨j, hj, e⟩
    rw [d.other p hno] at hpc
    exact hw c (List.mem_of_getElem? hpc)

end Verif.Table
