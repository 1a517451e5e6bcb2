import Verif.Spec.Registry
import Mathlib.Data.List.Basic

/-! Lemmas for `Verif.Props.Registry`. -/

namespace Verif.Registry

open Verif Verif.Spec.Registry

variable {F : Type}

theorem get_put {α : Type} (d : List (String × α)) (k k' : String) (v : α) :
    get (put d k v) k' = if k = k' then some v else get d k' := by
  induction d with
  | nil => simp [put, get]
  | cons x d ih =>
    obtain ⟨a, b⟩ := x
    by_cases h : a = k
    · subst h
      by_cases h' : a = k' <;> simp [put, get, h']
    · by_cases h' : a = k'
      · subst h'
        simp [put, get, h, Ne.symm h]
      · simp [put, get, h, h', ih]

theorem keys_put {α : Type} (d : List (String × α)) (k : String) (v : α) (h : (d.map Prod.fst).Nodup) :
    ((put d k v).map Prod.fst).Nodup ∧ ∀ x, x ∈ (put d k v).map Prod.fst ↔ x = k ∨ x ∈ d.map Prod.fst := by
  induction d with
  | nil => simp [put]
  | cons y d ih =>
    obtain ⟨a, b⟩ := y
    simp only [List.map_cons, List.nodup_cons] at h
    obtain ⟨h1, h2⟩ := ih h.2
    by_cases e : a = k
    · subst e
      rw [put, if_pos rfl]
      exact ⟨by simpa using h, by simp⟩
    · rw [put, if_neg e]
      refine ⟨?_, fun x => ?_⟩
      · simp only [List.map_cons, List.nodup_cons]
        refine ⟨fun hm => ?_, h1⟩
        rcases (h2 a).mp hm with hk | hd
        · exact e hk
        · exact h.1 hd
      · simp only [List.map_cons, List.mem_cons, h2 x]
        constructor
        · rintro (hx | hx | hx) <;> simp [hx]
        · rintro (hx | hx | hx) <;> simp [hx]

theorem mem_iff_get {α : Type} (d : List (String × α)) (h : (d.map Prod.fst).Nodup) (k : String) (v : α) :
    (k, v) ∈ d ↔ get d k = some v := by
  induction d with
  | nil => simp [get]
  | cons y d ih =>
    obtain ⟨a, b⟩ := y
    simp only [List.map_cons, List.nodup_cons] at h
    by_cases e : a = k
    · subst e
      have : (a, v) ∉ d := fun hm => h.1 (List.mem_map.mpr ⟨_, hm, rfl⟩)
      simp [get, this, eq_comm]
    · have e' : k ≠ a := fun x => e x.symm
      simp [get, e, e', ih h.2]

/-- The last element that meets a test. -/
def lastWith {α : Type} (p : α → Bool) (l : List α) : Option α := l.reverse.find? p

theorem lastWith_snoc {α : Type} (p : α → Bool) (l : List α) (a : α) :
    lastWith p (l ++ [a]) = if p a then some a else lastWith p l := by
  unfold lastWith
  rw [List.reverse_append]
  simp only [List.reverse_cons, List.reverse_nil, List.nil_append, List.singleton_append, List.find?_cons]
  cases p a <;> rfl

theorem isLast_iff {α : Type} (p : α → Bool) (q : α → Prop) (hpq : ∀ a, p a = true ↔ q a) (l : List α) (a : α) :
    IsLast q l a ↔ lastWith p l = some a := by
  unfold lastWith IsLast
  rw [List.find?_eq_some_iff_append]
  constructor
  · rintro ⟨pre, post, rfl, ha, hb⟩
    refine ⟨(hpq a).mpr ha, post.reverse, pre.reverse, by simp, ?_⟩
    intro b hm
    have := hb b (by simpa using hm)
    rw [← hpq] at this
    simpa using this
  · rintro ⟨ha, as, bs, hl, hb⟩
    refine ⟨bs.reverse, as.reverse, ?_, (hpq a).mp ha, ?_⟩
    · have := congrArg List.reverse hl
      simpa using this
    · intro b hm
      have := hb b (by simpa using hm)
      rw [← hpq]
      simpa using this

theorem lastWith_none {α : Type} (p : α → Bool) (l : List α) : lastWith p l = none ↔ ∀ a ∈ l, p a = false := by
  simp [lastWith]

/-- The test of a class by name. -/
def named (lower : String → String) (k : String) (c : Cls) : Bool := !c.abstract && decide (lower c.name = k)

/-- The registered models are the latest of the log. -/
def Holds (lower : String → String) (s : State F) (log : List Cls) (seen : List Mod) : Prop :=
  (∀ m, m ∈ s.imported ↔ m ∈ seen) ∧ ∀ k, get s.models k = lastWith (named lower k) log

theorem holds_define {lower : String → String} {s : State F} {log : List Cls} {seen : List Mod} (h : Holds lower s log seen) (c : Cls) :
    Holds lower (defineModel lower s c) (log ++ [c]) seen := by
  unfold defineModel
  refine ⟨by split <;> exact h.1, fun k => ?_⟩
  rw [lastWith_snoc]
  cases hc : c.abstract with
  | true => simp [named, hc, h.2 k]
  | false =>
    simp only [named, hc]
    simp [get_put, h.2 k]

/-- The modules one after the other, up to the first that cannot be imported. -/
def importAll (lower : String → String) (ml : Bool) (s : State F) : List Mod → State F
  | [] => s
  | m :: ms => match importMod lower ml s m with | .error _ => s | .ok s' => importAll lower ml s' ms

theorem holds_congr {lower : String → String} {s : State F} {log : List Cls} {seen seen' : List Mod} (h : Holds lower s log seen)
    (e : ∀ m, m ∈ seen ↔ m ∈ seen') : Holds lower s log seen' := ⟨fun m => (h.1 m).trans (e m), h.2⟩

theorem needsMl_iff (m : Mod) (ml : Bool) : (m.needsMl && !ml) = true ↔ (m = .cnn ∨ m = .charLoad) ∧ ml = false := by
  cases m <;> cases ml <;> simp [Mod.needsMl]

theorem holds_importAll (lower : String → String) (ml : Bool) (ms : List Mod) : ∀ {s : State F} {log : List Cls} {seen : List Mod},
    Holds lower s log seen →
    Holds lower (importAll lower ml s ms) (log ++ (arriving ml seen ms).map Mod.cls) (arriving ml seen ms ++ seen) := by
  induction ms with
  | nil => intro s log seen h; simpa [importAll, arriving] using h
  | cons m ms ih =>
    intro s log seen h
    unfold importAll arriving importMod
    by_cases hm : m ∈ seen
    · rw [if_pos ((h.1 m).mpr hm), if_pos hm]
      exact ih h
    · rw [if_neg (fun x => hm ((h.1 m).mp x)), if_neg hm]
      by_cases hn : (m = .cnn ∨ m = .charLoad) ∧ ml = false
      · rw [if_pos ((needsMl_iff m ml).mpr hn), if_pos hn]
        simpa using h
      · rw [if_neg (fun x => hn ((needsMl_iff m ml).mp x)), if_neg hn]
        have h1 : Holds lower { s with imported := s.imported ++ [m] } log (m :: seen) :=
          ⟨fun x => by simp [h.1 x, or_comm], h.2⟩
        have h2 := ih (holds_define h1 m.cls)
        have h3 := holds_congr (seen' := m :: arriving ml (m :: seen) ms ++ seen) h2 (fun x => by
          simp only [List.mem_append, List.mem_cons]
          constructor
          · rintro (a | a | a) <;> simp [a]
          · rintro ((a | a) | a) <;> simp [a])
        simpa using h3

theorem getModel_state (lower : String → String) (ml : Bool) (s : State F) (n : String) :
    (getModel lower ml s n).1 = importAll lower ml s [.cnn, .columnName, .regex] := by
  unfold getModel importAll
  cases importMod lower ml s .cnn with
  | error e => rfl
  | ok s1 =>
    simp only [importAll]
    cases importMod lower ml s1 .columnName with
    | error e => rfl
    | ok s2 =>
      simp only
      cases importMod lower ml s2 .regex <;> rfl

theorem holds_step {lower : String → String} {ml : Bool} {s : State F} {log : List Cls} {seen : List Mod} (h : Holds lower s log seen)
    (op : Op F) (hop : ∀ c, op ≠ .model c) :
    Holds lower (step lower ml s op) (log ++ (arriving ml seen (asked op)).map Mod.cls) (arriving ml seen (asked op) ++ seen) := by
  cases op with
  | importMod m =>
    have := holds_importAll lower ml [m] h
    have e : importAll lower ml s [m] = step lower ml s (.importMod m) := by
      simp only [importAll, step]
      cases importMod lower ml s m <;> rfl
    rw [e] at this
    exact this
  | model c => exact absurd rfl (hop c)
  | proc c =>
    simp only [step, defineProc, asked, arriving, List.map_nil, List.append_nil, List.nil_append]
    split <;> exact h
  | lookup n =>
    simp only [step, getModel_state]
    exact holds_importAll lower ml _ h
  | plugin t n f =>
    simp only [asked, arriving, List.map_nil, List.append_nil, List.nil_append]
    exact h

theorem holds_foldl (lower : String → String) (ml : Bool) (ops : List (Op F)) : ∀ {s : State F} {log : List Cls} {seen : List Mod},
    Holds lower s log seen → ∃ seen', Holds lower (ops.foldl (step lower ml) s) (log ++ modelLog ml seen ops) seen' := by
  induction ops with
  | nil => intro s log seen h; exact ⟨seen, by simpa [modelLog] using h⟩
  | cons op ops ih =>
    intro s log seen h
    by_cases hop : ∃ c, op = .model c
    · obtain ⟨c, rfl⟩ := hop
      obtain ⟨seen', h'⟩ := ih (holds_define h c)
      exact ⟨seen', by simpa [modelLog, step] using h'⟩
    · have hop' : ∀ c, op ≠ .model c := fun c e => hop ⟨c, e⟩
      obtain ⟨seen', h'⟩ := ih (holds_step (ml := ml) h op hop')
      refine ⟨seen', ?_⟩
      have e : modelLog ml seen (op :: ops) =
          (arriving ml seen (asked op)).map Mod.cls ++ modelLog ml (arriving ml seen (asked op) ++ seen) ops := by
        cases op <;> first | rfl | exact absurd rfl (hop' _)
      rw [e, ← List.append_assoc]
      exact h'

theorem start_procs (lower : String → String) (l : List Cls) : ∀ (s : State F),
    (l.foldl (defineProc lower) s).imported = s.imported ∧ (l.foldl (defineProc lower) s).models = s.models ∧
    (l.foldl (defineProc lower) s).plugins = s.plugins := by
  induction l with
  | nil => intro s; exact ⟨rfl, rfl, rfl⟩
  | cons c l ih =>
    intro s
    obtain ⟨a, b, d⟩ := ih (defineProc lower s c)
    refine ⟨a.trans ?_, b.trans ?_, d.trans ?_⟩ <;> (unfold defineProc; split <;> rfl)

theorem holds_start (lower : String → String) : Holds lower (start (F := F) lower) [] [] := by
  obtain ⟨a, b, _⟩ := start_procs (F := F) lower packageProcs ⟨[], [], [], []⟩
  refine ⟨fun m => ?_, fun k => ?_⟩
  · show m ∈ (start (F := F) lower).imported ↔ _
    rw [show (start (F := F) lower).imported = [] from a]
  · rw [show (start (F := F) lower).models = [] from b]
    rfl

theorem getModel_ok (lower : String → String) (s : State F) (n : String) :
    (getModel lower true s n).2 = .ok (get (getModel lower true s n).1.models (lower n)) := by
  have ok : ∀ (s : State F) (m : Mod), ∃ s', importMod lower true s m = .ok s' := by
    intro s m
    unfold importMod
    split
    · exact ⟨_, rfl⟩
    · simp
  obtain ⟨s1, h1⟩ := ok s .cnn
  obtain ⟨s2, h2⟩ := ok s1 .columnName
  obtain ⟨s3, h3⟩ := ok s2 .regex
  simp only [getModel, h1, h2, h3]

/-- The test of a processor by name. -/
def procNamed (lower : String → String) (k : String) (c : Cls) : Bool := c.auto && !c.abstract && decide (lower c.name = k)

theorem procs_define {lower : String → String} {s : State F} {log : List Cls} (h : ∀ k, get s.procs k = lastWith (procNamed lower k) log)
    (c : Cls) (k : String) : get (defineProc lower s c).procs k = lastWith (procNamed lower k) (log ++ [c]) := by
  rw [lastWith_snoc]
  unfold defineProc
  cases hc : (c.auto && !c.abstract) with
  | true => simp [procNamed, hc, get_put, h k]
  | false => simp [procNamed, hc, h k]

theorem importMod_rest {lower : String → String} {ml : Bool} {s s' : State F} {m : Mod} (h : importMod lower ml s m = .ok s') :
    s'.procs = s.procs ∧ s'.plugins = s.plugins := by
  unfold importMod at h
  split at h
  · cases h; exact ⟨rfl, rfl⟩
  · split at h
    · cases h
    · cases h
      unfold defineModel
      split <;> exact ⟨rfl, rfl⟩

theorem importAll_rest (lower : String → String) (ml : Bool) (ms : List Mod) : ∀ (s : State F),
    (importAll lower ml s ms).procs = s.procs ∧ (importAll lower ml s ms).plugins = s.plugins := by
  induction ms with
  | nil => intro s; exact ⟨rfl, rfl⟩
  | cons m ms ih =>
    intro s
    unfold importAll
    cases h : importMod lower ml s m with
    | error e => exact ⟨rfl, rfl⟩
    | ok s' =>
      obtain ⟨a, b⟩ := importMod_rest h
      obtain ⟨c, d⟩ := ih s'
      exact ⟨c.trans a, d.trans b⟩

theorem procs_foldl (lower : String → String) (ml : Bool) (ops : List (Op F)) : ∀ {s : State F} {log : List Cls},
    (∀ k, get s.procs k = lastWith (procNamed lower k) log) →
    ∀ k, get (ops.foldl (step lower ml) s).procs k = lastWith (procNamed lower k) (log ++ procLog ops) := by
  induction ops with
  | nil => intro s log h k; simpa [procLog] using h k
  | cons op ops ih =>
    intro s log h
    have same : ∀ s' : State F, s'.procs = s.procs → ∀ k, get (ops.foldl (step lower ml) s').procs k =
        lastWith (procNamed lower k) (log ++ procLog ops) := by
      intro s' e
      exact ih (by rw [e]; exact h)
    cases op with
    | importMod m =>
      refine same _ ?_
      simp only [step]
      cases hm : importMod lower ml s m with
      | error e => rfl
      | ok s' => exact (importMod_rest hm).1
    | model c =>
      refine same _ ?_
      simp only [step, defineModel]
      split <;> rfl
    | proc c =>
      intro k
      have := ih (procs_define h c) k
      simpa [procLog, step] using this
    | lookup n =>
      refine same _ ?_
      simp only [step, getModel_state]
      exact (importAll_rest lower ml _ s).1
    | plugin t n f => exact same _ rfl

theorem start_procs_get (lower : String → String) (l : List Cls) : ∀ {s : State F} {log : List Cls},
    (∀ k, get s.procs k = lastWith (procNamed lower k) log) →
    ∀ k, get (l.foldl (defineProc lower) s).procs k = lastWith (procNamed lower k) (log ++ l) := by
  induction l with
  | nil => intro s log h k; simpa using h k
  | cons c l ih =>
    intro s log h k
    have := ih (procs_define h c) k
    simpa using this

theorem procs_run (lower : String → String) (ml : Bool) (ops : List (Op F)) (k : String) :
    get (run lower ml ops).procs k = lastWith (procNamed lower k) (packageProcs ++ procLog ops) := by
  refine procs_foldl lower ml ops (fun k => ?_) k
  have := start_procs_get (F := F) lower packageProcs (s := ⟨[], [], [], []⟩) (log := []) (fun _ => rfl) k
  simpa [start] using this

/-- The plugins of each type. -/
def Plugged (s : State F) (log : String → List (String × F)) : Prop :=
  ∀ t, match get s.plugins t with
    | none => log t = []
    | some d => log t ≠ [] ∧ (d.map Prod.fst).Nodup ∧ ∀ n, get d n = (lastWith (fun x => decide (x.1 = n)) (log t)).map Prod.snd

theorem plugged_plugin {s : State F} {log : String → List (String × F)} (h : Plugged s log) (t n : String) (f : F) :
    Plugged (plugin s t n f) (fun u => if t = u then log u ++ [(n, f)] else log u) := by
  intro u
  unfold plugin
  simp only [get_put]
  by_cases e : t = u
  · subst e
    simp only [if_true]
    have ht := h t
    refine ⟨by simp, ?_, ?_⟩
    · cases hd : get s.plugins t with
      | none => exact (keys_put [] n f (by simp)).1
      | some d => rw [hd] at ht; exact (keys_put d n f ht.2.1).1
    · intro m
      rw [get_put, lastWith_snoc]
      by_cases hm : n = m
      · simp [hm]
      · simp only [hm, if_false, decide_false]
        cases hd : get s.plugins t with
        | none =>
          rw [hd] at ht
          simp only at ht
          rw [ht]
          rfl
        | some d => rw [hd] at ht; simpa using ht.2.2 m
  · simp only [e, if_false]
    exact h u

theorem plugged_foldl (lower : String → String) (ml : Bool) (ops : List (Op F)) :
    ∀ {s : State F} {log : String → List (String × F)}, Plugged s log →
    Plugged (ops.foldl (step lower ml) s) (fun t => log t ++ pluginLog t ops) := by
  induction ops with
  | nil => intro s log h; simpa [pluginLog] using h
  | cons op ops ih =>
    intro s log h
    have same : ∀ s' : State F, s'.plugins = s.plugins → Plugged (ops.foldl (step lower ml) s') (fun t => log t ++ pluginLog t ops) := by
      intro s' e
      refine ih (fun t => ?_)
      rw [e]
      exact h t
    cases op with
    | importMod m =>
      refine same _ ?_
      simp only [step]
      cases hm : importMod lower ml s m with
      | error e => rfl
      | ok s' => exact (importMod_rest hm).2
    | model c =>
      refine same _ ?_
      simp only [step, defineModel]
      split <;> rfl
    | proc c =>
      refine same _ ?_
      simp only [step, defineProc]
      split <;> rfl
    | lookup n =>
      refine same _ ?_
      simp only [step, getModel_state]
      exact (importAll_rest lower ml _ s).2
    | plugin t n f =>
      have := ih (plugged_plugin h t n f)
      have e : (fun u => (if t = u then log u ++ [(n, f)] else log u) ++ pluginLog u ops) =
          (fun u => log u ++ pluginLog u (Op.plugin t n f :: ops)) := by
        funext u
        by_cases hu : t = u <;> simp [pluginLog, hu]
      rw [e] at this
      exact this

theorem plugged_run (lower : String → String) (ml : Bool) (ops : List (Op F)) :
    Plugged (run lower ml ops) (fun t => pluginLog t ops) := by
  have h0 : Plugged (start (F := F) lower) (fun _ => []) := by
    intro t
    rw [show (start (F := F) lower).plugins = [] from (start_procs (F := F) lower packageProcs ⟨[], [], [], []⟩).2.2]
    rfl
  have := plugged_foldl lower ml ops h0
  simp only [List.nil_append] at this
  exact this

end Verif.Registry
