import Verif.Lemmas.Registry
import Mathlib.Data.List.Nodup

/-!
# C110: what is registered is what is found

Processes of any length define classes, import modules, look classes up and register plugins in any order.
-/

namespace Verif.Props.Registry

open Verif Verif.Registry Verif.Spec.Registry

variable {F : Type}

/-- A lookup finds the model that came into being last among the concrete ones of that name, upper and lower case alike. The modules
that the lookup itself imports count as later than all classes before it. -/
theorem C110_model (lower : String → String) (ops : List (Op F)) (name : String) :
    ∃ r, (getModel lower true (run lower true ops) name).2 = .ok r ∧
      ∀ c, r = some c ↔
        IsLast (fun c => c.abstract = false ∧ lower c.name = lower name) (modelLog true [] (ops ++ [.lookup name])) c := by
  refine ⟨_, getModel_ok lower _ name, fun c => ?_⟩
  obtain ⟨_, h⟩ := holds_foldl lower true (ops ++ [.lookup name]) (holds_start (F := F) lower)
  have e : (ops ++ [Op.lookup name]).foldl (step lower true) (start lower) = (getModel lower true (run lower true ops) name).1 := by
    simp [run, step]
  rw [e, List.nil_append] at h
  rw [h.2, isLast_iff (named lower (lower name))]
  intro a
  simp [named]

/-- Without the optional libraries every lookup of a model raises, also of those that do not need them and of those of the user. -/
theorem C110_needs_ml (lower : String → String) (ops : List (Op F)) (name : String) :
    (getModel lower false (run lower false ops) name).2 = .error .exception := by
  have h : ∀ (ops : List (Op F)) (s : State F), Mod.cnn ∉ s.imported → Mod.cnn ∉ (ops.foldl (step lower false) s).imported := by
    intro ops
    induction ops with
    | nil => intro s h; exact h
    | cons op ops ih =>
      intro s h
      refine ih _ ?_
      have imp : ∀ (s : State F) m s', Mod.cnn ∉ s.imported → importMod lower false s m = .ok s' → Mod.cnn ∉ s'.imported := by
        intro s m s' hs hm
        unfold importMod at hm
        split at hm
        · cases hm; exact hs
        · split at hm
          · cases hm
          · rename_i hn
            cases hm
            have hne : m ≠ .cnn := by rintro rfl; simp [Mod.needsMl] at hn
            unfold defineModel
            split <;> simp [hs, hne.symm]
      cases op with
      | importMod m =>
        simp only [step]
        cases hm : importMod lower false s m with
        | error e => exact h
        | ok s' => exact imp s m s' h hm
      | model c =>
        simp only [step, defineModel]
        split <;> exact h
      | proc c =>
        simp only [step, defineProc]
        split <;> exact h
      | lookup n =>
        simp only [step, getModel, importMod, h]
        simpa [Mod.needsMl] using h
      | plugin t n f => exact h
  have h0 : Mod.cnn ∉ (run (F := F) lower false ops).imported := by
    refine h ops _ ?_
    rw [show (start (F := F) lower).imported = [] from (start_procs (F := F) lower packageProcs ⟨[], [], [], []⟩).1]
    simp
  simp [getModel, importMod, h0, Mod.needsMl]

/-- A lookup of a processor finds the latest of that name whose metaclass registers it. -/
theorem C110_processor (lower : String → String) (ml : Bool) (ops : List (Op F)) (name : String) (c : Cls) :
    getProc lower (run lower ml ops) name = some c ↔
      IsLast (fun c => c.auto = true ∧ c.abstract = false ∧ lower c.name = lower name) (packageProcs ++ procLog ops) c := by
  rw [getProc, procs_run, isLast_iff (procNamed lower (lower name))]
  intro a
  simp [procNamed, and_assoc]

/-- A labeler is loaded with the class that is found; if none is found a ValueError is raised. -/
theorem C110_load (lower : String → String) (ml : Bool) (s : State F) (name : String) :
    (∀ c, (loadModel lower ml s name).2 = .ok c ↔ (getModel lower ml s name).2 = .ok (some c)) ∧
    ((loadModel lower ml s name).2 = .error .valueError ↔
      (getModel lower ml s name).2 = .ok none ∨ (getModel lower ml s name).2 = .error .valueError) ∧
    (∀ c, loadProc lower s name = .ok c ↔ getProc lower s name = some c) ∧
    (loadProc lower s name = .error .valueError ↔ getProc lower s name = none) := by
  unfold loadModel loadProc
  refine ⟨fun c => ?_, ?_, fun c => ?_, ?_⟩
  · rcases getModel lower ml s name with ⟨s', e | (_ | c')⟩ <;> simp
  · rcases getModel lower ml s name with ⟨s', e | (_ | c')⟩ <;> simp
  · cases getProc lower s name <;> simp
  · cases getProc lower s name <;> simp

/-- A model of the log is one of the user or of a module. -/
theorem mem_modelLog (ops : List (Op F)) : ∀ {seen : List Mod} {c : Cls}, c ∈ modelLog true seen ops →
    Op.model c ∈ ops ∨ ∃ m, c = Mod.cls m ∧ (Op.importMod m ∈ ops ∨ m ≠ .charLoad) := by
  have arr : ∀ (ms seen : List Mod) m, m ∈ arriving true seen ms → m ∈ ms := by
    intro ms
    induction ms with
    | nil => intro seen m h; simp [arriving] at h
    | cons a ms ih =>
      intro seen m h
      unfold arriving at h
      split at h
      · exact List.mem_cons_of_mem _ (ih _ _ h)
      · split at h
        · simp at h
        · rcases List.mem_cons.mp h with rfl | h
          · simp
          · exact List.mem_cons_of_mem _ (ih _ _ h)
  induction ops with
  | nil => intro seen c h; simp [modelLog] at h
  | cons op ops ih =>
    intro seen c h
    have tail : (Op.model c ∈ ops ∨ ∃ m, c = Mod.cls m ∧ (Op.importMod m ∈ ops ∨ m ≠ .charLoad)) →
        Op.model c ∈ op :: ops ∨ ∃ m, c = Mod.cls m ∧ (Op.importMod m ∈ op :: ops ∨ m ≠ .charLoad) := by
      rintro (a | ⟨m, e, a | a⟩)
      · exact Or.inl (List.mem_cons_of_mem _ a)
      · exact Or.inr ⟨m, e, Or.inl (List.mem_cons_of_mem _ a)⟩
      · exact Or.inr ⟨m, e, Or.inr a⟩
    by_cases hop : ∃ d, op = .model d
    · obtain ⟨d, rfl⟩ := hop
      rcases List.mem_cons.mp h with rfl | h
      · exact Or.inl (by simp)
      · exact tail (ih h)
    · have e : modelLog true seen (op :: ops) =
          (arriving true seen (asked op)).map Mod.cls ++ modelLog true (arriving true seen (asked op) ++ seen) ops := by
        cases op <;> first | rfl | exact absurd ⟨_, rfl⟩ hop
      rw [e, List.mem_append] at h
      rcases h with h | h
      · obtain ⟨m, hm, rfl⟩ := List.mem_map.mp h
        have := arr _ _ _ hm
        refine Or.inr ⟨m, rfl, ?_⟩
        cases op with
        | importMod k => simp only [asked, List.mem_singleton] at this; subst this; exact Or.inl (by simp)
        | lookup n =>
          right
          rintro rfl
          simp [asked] at this
        | model d => exact absurd ⟨_, rfl⟩ hop
        | proc d => simp [asked] at this
        | plugin t n f => simp [asked] at this
      · exact tail (ih h)

/-- A module that is asked for is in the log. -/
theorem asked_modelLog (m : Mod) (ops : List (Op F)) : ∀ {seen : List Mod}, m ∉ seen → (∃ op ∈ ops, m ∈ asked op) →
    Mod.cls m ∈ modelLog true seen ops := by
  have arr : ∀ (ms seen : List Mod), m ∉ seen → m ∈ ms → m ∈ arriving true seen ms := by
    intro ms
    induction ms with
    | nil => intro seen _ h; cases h
    | cons a ms ih =>
      intro seen hs h
      unfold arriving
      by_cases ha : a = m
      · subst ha; simp [hs]
      · have hm : m ∈ ms := by
          rcases List.mem_cons.mp h with e | h
          · exact absurd e.symm ha
          · exact h
        split
        · exact ih _ hs hm
        · simp only [Bool.true_eq_false, and_false, if_false]
          exact List.mem_cons_of_mem _ (ih _ (by simp [hs, Ne.symm ha]) hm)
  induction ops with
  | nil => intro seen _ h; obtain ⟨_, h, _⟩ := h; cases h
  | cons op ops ih =>
    intro seen hs h
    by_cases hop : ∃ d, op = .model d
    · obtain ⟨d, rfl⟩ := hop
      refine List.mem_cons_of_mem _ (ih hs ?_)
      obtain ⟨o, ho, hm⟩ := h
      rcases List.mem_cons.mp ho with rfl | ho
      · simp [asked] at hm
      · exact ⟨o, ho, hm⟩
    · have e : modelLog true seen (op :: ops) =
          (arriving true seen (asked op)).map Mod.cls ++ modelLog true (arriving true seen (asked op) ++ seen) ops := by
        cases op <;> first | rfl | exact absurd ⟨_, rfl⟩ hop
      rw [e, List.mem_append]
      by_cases hm : m ∈ arriving true seen (asked op)
      · exact Or.inl (List.mem_map.mpr ⟨m, hm, rfl⟩)
      · right
        refine ih (by simp [hm, hs]) ?_
        obtain ⟨o, ho, hmo⟩ := h
        rcases List.mem_cons.mp ho with rfl | ho
        · exact absurd (arr _ _ hs hmo) hm
        · exact ⟨o, ho, hmo⟩

/-- If some element meets a test there is a last one. -/
theorem exists_isLast {α : Type} (p : α → Bool) (q : α → Prop) (hpq : ∀ a, p a = true ↔ q a) {l : List α} {a : α} (ha : a ∈ l) (hq : q a) :
    ∃ b, IsLast q l b := by
  cases h : lastWith p l with
  | none =>
    have := (lastWith_none p l).mp h a ha
    rw [(hpq a).mpr hq] at this
    cases this
  | some b => exact ⟨b, (isLast_iff p q hpq l b).mpr h⟩

/-- Names of the package stay different in lower case. -/
def Separates (lower : String → String) : Prop := ∀ m n : Mod, lower (Mod.cls m).name = lower (Mod.cls n).name → m = n

/-- The models of the package are found in every process in which the user has no concrete class of that name: all but the one for
networks of the user, which is found only after its module was imported. -/
theorem C110_package_partial (lower : String → String) (hl : Separates lower) (ops : List (Op F)) (m : Mod)
    (hu : ∀ c, Op.model c ∈ ops → c.abstract = false → lower c.name ≠ lower (Mod.cls m).name) :
    (m ≠ .charLoad ∨ Op.importMod .charLoad ∈ ops →
      (getModel lower true (run lower true ops) (Mod.cls m).name).2 = .ok (some (Mod.cls m))) ∧
    (m = .charLoad → Op.importMod .charLoad ∉ ops →
      (getModel lower true (run lower true ops) (Mod.cls m).name).2 = .ok none) := by
  obtain ⟨r, hr, h⟩ := C110_model lower ops (Mod.cls m).name
  rw [hr]
  have uniq : ∀ c, IsLast (fun c => c.abstract = false ∧ lower c.name = lower (Mod.cls m).name)
      (modelLog true [] (ops ++ [.lookup (Mod.cls m).name])) c → c = Mod.cls m ∧ (Op.importMod m ∈ ops ∨ m ≠ .charLoad) := by
    rintro c ⟨pre, post, e, hc, _⟩
    have hm : c ∈ modelLog true [] (ops ++ [.lookup (Mod.cls m).name]) := by rw [e]; simp
    rcases mem_modelLog _ hm with hm | ⟨n, rfl, hn⟩
    · have : Op.model c ∈ ops := by simpa using hm
      exact absurd hc.2 (hu c this hc.1)
    · have := hl n m hc.2
      subst this
      exact ⟨rfl, by simpa using hn⟩
  constructor
  · intro hc
    have hask : ∃ op ∈ ops ++ [.lookup (Mod.cls m).name], m ∈ asked op := by
      by_cases hm : m = .charLoad
      · have : Op.importMod .charLoad ∈ ops := hc.resolve_left (fun hn => hn hm)
        exact ⟨_, List.mem_append_left _ this, by simp [asked, hm]⟩
      · exact ⟨.lookup (Mod.cls m).name, by simp, by cases m <;> simp [asked] at hm ⊢⟩
    have hin := asked_modelLog m _ (seen := []) (by simp) hask
    obtain ⟨b, hb⟩ := exists_isLast (named lower (lower (Mod.cls m).name))
      (fun c => c.abstract = false ∧ lower c.name = lower (Mod.cls m).name) (by intro a; simp [named]) hin
      ⟨by cases m <;> rfl, rfl⟩
    rw [(h b).mpr hb, (uniq b hb).1]
  · intro hc hn
    cases r with
    | none => rfl
    | some c =>
      obtain ⟨_, hm⟩ := uniq c ((h c).mp rfl)
      rcases hm with hm | hm
      · exact absurd (hc ▸ hm) hn
      · exact absurd hc hm

/-- The processors of the package are found in every process in which the user has no registered class of that name. -/
theorem C110_package_processors (lower : String → String) (hl : (processorNames.map lower).Nodup) (ml : Bool) (ops : List (Op F))
    (name : String) (hn : name ∈ processorNames)
    (hu : ∀ c ∈ procLog ops, c.auto = true → c.abstract = false → lower c.name ≠ lower name) :
    ∃ c ∈ packageProcs, c.name = name ∧ getProc lower (run lower ml ops) name = some c := by
  have hall : ∀ n ∈ processorNames, ∃ c ∈ packageProcs, c.name = n ∧ c.auto = true ∧ c.abstract = false := by
    intro n hn
    simp only [processorNames, List.mem_cons, List.not_mem_nil, or_false] at hn
    rcases hn with rfl | rfl | rfl | rfl | rfl | rfl | rfl | rfl | rfl <;> simp [packageProcs]
  have hnames : ∀ c ∈ packageProcs, c.name ∈ processorNames := by
    intro c hc
    simp only [packageProcs, List.mem_cons, List.not_mem_nil, or_false] at hc
    rcases hc with rfl | rfl | rfl | rfl | rfl | rfl | rfl | rfl | rfl <;> simp [processorNames]
  obtain ⟨c0, h0, e0, a0, b0⟩ := hall name hn
  obtain ⟨c, hc⟩ := exists_isLast (procNamed lower (lower name))
    (fun c => c.auto = true ∧ c.abstract = false ∧ lower c.name = lower name) (by intro a; simp [procNamed, and_assoc])
    (List.mem_append_left (procLog ops) h0) ⟨a0, b0, by rw [e0]⟩
  have hc' := hc
  obtain ⟨pre, post, e, ⟨h1, h2, h3⟩, _⟩ := hc'
  have hm : c ∈ packageProcs ++ procLog ops := by rw [e]; simp
  rcases List.mem_append.mp hm with hm | hm
  · exact ⟨c, hm, List.inj_on_of_nodup_map hl (hnames c hm) hn h3, (C110_processor lower ml ops name c).mpr hc⟩
  · exact absurd h3 (hu c hm h1 h2)

/-- A model of the user is found as long as its name is not one of the package and no later class of the user has it. -/
theorem C110_own_partial (lower : String → String) (pre post : List (Op F)) (c : Cls) (hc : c.abstract = false)
    (hp : ∀ m, lower (Mod.cls m).name ≠ lower c.name)
    (hu : ∀ d, Op.model d ∈ post → d.abstract = false → lower d.name ≠ lower c.name) :
    (getModel lower true (run lower true (pre ++ .model c :: post)) c.name).2 = .ok (some c) := by
  obtain ⟨r, hr, h⟩ := C110_model lower (pre ++ .model c :: post) c.name
  rw [hr]
  congr 1
  rw [h]
  have split : ∀ (pre : List (Op F)) (seen : List Mod) (rest : List (Op F)), ∃ a seen', modelLog true seen (pre ++ .model c :: rest) =
      a ++ c :: modelLog true seen' rest := by
    intro pre
    induction pre with
    | nil => intro seen rest; exact ⟨[], seen, rfl⟩
    | cons op pre ih =>
      intro seen rest
      by_cases hop : ∃ d, op = .model d
      · obtain ⟨d, rfl⟩ := hop
        obtain ⟨a, s', e⟩ := ih seen rest
        exact ⟨d :: a, s', by simp [modelLog, e]⟩
      · obtain ⟨a, s', e'⟩ := ih (arriving true seen (asked op) ++ seen) rest
        refine ⟨(arriving true seen (asked op)).map Mod.cls ++ a, s', ?_⟩
        have e : modelLog true seen (op :: (pre ++ .model c :: rest)) =
            (arriving true seen (asked op)).map Mod.cls ++
              modelLog true (arriving true seen (asked op) ++ seen) (pre ++ .model c :: rest) := by
          cases op <;> first | rfl | exact absurd ⟨_, rfl⟩ hop
        rw [List.cons_append, e, e', List.append_assoc]
  obtain ⟨a, s', e⟩ := split pre [] (post ++ [.lookup c.name])
  refine ⟨a, modelLog true s' (post ++ [.lookup c.name]), by simpa using e, ⟨hc, rfl⟩, ?_⟩
  rintro b hb ⟨hb1, hb2⟩
  rcases mem_modelLog _ hb with hm | ⟨m, rfl, _⟩
  · exact hu b (by simpa using hm) hb1 hb2
  · exact hp m hb2

/-- Plugins: nothing is found for a type without plugins; else each name of the type once, with the function registered last. Asking
changes nothing, and other types do not matter. -/
theorem C110_plugins (lower : String → String) (ml : Bool) (ops : List (Op F)) (typ : String) :
    (getPlugins (run lower ml ops) typ = none ↔ pluginLog typ ops = []) ∧
    ∀ d, getPlugins (run lower ml ops) typ = some d →
      (d.map Prod.fst).Nodup ∧ ∀ n f, (n, f) ∈ d ↔ IsLast (fun x => x.1 = n) (pluginLog typ ops) (n, f) := by
  have h := plugged_run lower ml ops typ
  unfold getPlugins
  cases hd : get (run lower ml ops).plugins typ with
  | none => rw [hd] at h; exact ⟨by simpa using h, by simp⟩
  | some d =>
    rw [hd] at h
    refine ⟨by simpa using h.1, ?_⟩
    rintro d' ⟨⟩
    refine ⟨h.2.1, fun n f => ?_⟩
    rw [mem_iff_get d h.2.1, h.2.2 n, isLast_iff (fun x => decide (x.1 = n)) _ (by simp)]
    constructor
    · intro e
      cases hl : lastWith (fun x => decide (x.1 = n)) (pluginLog typ ops) with
      | none => rw [hl] at e; simp at e
      | some x =>
        rw [hl] at e
        have hx : x.1 = n := by
          have := (isLast_iff (fun x : String × F => decide (x.1 = n)) (fun x => x.1 = n) (by simp) _ x).mpr hl
          obtain ⟨_, _, _, hx, _⟩ := this
          exact hx
        obtain ⟨a, b⟩ := x
        simp at e hx
        subst e hx
        rfl
    · intro e; rw [e]; rfl

/-- Presets of the package cannot be replaced by plugins. -/
theorem C110_preset_package (s : State F) :
    choosePreset s none = .ok .nothing ∧ choosePreset s (some "") = .ok .nothing ∧
    choosePreset s (some "complete") = .ok .complete ∧ choosePreset s (some "data_types") = .ok .dataTypes ∧
    choosePreset s (some "numeric_stats_disabled") = .ok .numericStatsDisabled ∧
    choosePreset s (some "lower_memory_sketching") = .ok .lowerMemorySketching := by
  simp [choosePreset]

/-- Any other preset is the plugin registered last under that name as an option preset, or a ValueError. -/
theorem C110_preset_plugin (lower : String → String) (ml : Bool) (ops : List (Op F)) (p : String)
    (hp : p ∉ ["", "complete", "data_types", "numeric_stats_disabled", "lower_memory_sketching"]) :
    (∀ f, choosePreset (run lower ml ops) (some p) = .ok (.plugin f) ↔
      IsLast (fun x => x.1 = p) (pluginLog "option_preset" ops) (p, f)) ∧
    (choosePreset (run lower ml ops) (some p) = .error .valueError ↔ ∀ x ∈ pluginLog "option_preset" ops, x.1 ≠ p) := by
  simp only [List.mem_cons, List.not_mem_nil, or_false, not_or] at hp
  obtain ⟨h1, h2⟩ := C110_plugins lower ml ops "option_preset"
  have none_iff : ∀ {q : String × F → Prop} {l : List (String × F)}, l = [] → ∀ x, ¬ IsLast q l x := by
    rintro q l rfl x ⟨a, b, e, _⟩
    simp at e
  simp only [choosePreset, hp, if_false]
  cases hd : getPlugins (run lower ml ops) "option_preset" with
  | none =>
    have := h1.mp hd
    simp only [this]
    refine ⟨fun f => ⟨fun h => (by cases h), fun h => absurd h (none_iff rfl _)⟩, by simp⟩
  | some d =>
    obtain ⟨hn, hm⟩ := h2 d hd
    simp only
    refine ⟨fun f => ?_, ?_⟩
    · rw [← hm p f, mem_iff_get d hn]
      cases get d p <;> simp
    · cases hg : get d p with
      | none =>
        simp only [true_iff]
        intro x hx e
        obtain ⟨b, hb⟩ := exists_isLast (fun x : String × F => decide (x.1 = p)) (fun x => x.1 = p) (by simp) hx e
        have hbp : b.1 = p := hb.choose_spec.choose_spec.2.1
        obtain ⟨b1, b2⟩ := b
        simp only at hbp
        subst hbp
        have := (mem_iff_get d hn _ _).mp ((hm _ b2).mpr hb)
        rw [hg] at this
        cases this
      | some f =>
        have := (hm p f).mp ((mem_iff_get d hn _ _).mpr hg)
        obtain ⟨pre, post, e, _, _⟩ := this
        constructor
        · intro h; cases h
        · intro h
          exact absurd rfl (h (p, f) (by rw [e]; simp))

/-- The files executed are those that end in `.py` in a folder directly below, other than `__pycache__`. -/
theorem C110_loaded (entries : List Entry) (folder file : String) :
    (folder, file) ∈ loadPlugins entries ↔
      folder ≠ "__pycache__" ∧ (∃ stem, stem ++ ['.', 'p', 'y'] = file.toList) ∧ ∃ fs, ⟨folder, some fs⟩ ∈ entries ∧ file ∈ fs := by
  unfold loadPlugins
  rw [List.mem_flatMap]
  constructor
  · rintro ⟨⟨n, fs⟩, he, h⟩
    cases fs with
    | none => simp at h
    | some fs =>
      simp only at h
      split at h
      · simp at h
      · rename_i hn
        simp only [List.mem_map, List.mem_filter, Prod.mk.injEq] at h
        obtain ⟨g, ⟨hg, hpy⟩, rfl, rfl⟩ := h
        exact ⟨hn, List.isSuffixOf_iff_suffix.mp hpy, fs, he, hg⟩
  · rintro ⟨hn, hpy, fs, he, hf⟩
    refine ⟨⟨folder, some fs⟩, he, ?_⟩
    have : ".py".toList.isSuffixOf file.toList = true := List.isSuffixOf_iff_suffix.mpr hpy
    simp only [hn, if_false, List.mem_map, List.mem_filter]
    exact ⟨file, ⟨hf, this⟩, rfl⟩

/-- `str.lower` on ASCII. -/
def ascii (s : String) : String := String.ofList (s.toList.map Char.toLower)

/-- A labeler with the model for networks of the user was saved; a process that only imports the package cannot load it. -/
theorem C110_package_fails :
    ¬ ∀ (m : Mod) (ops : List (Op Unit)), (∀ c, Op.model c ∉ ops) →
      (loadModel ascii true (run ascii true ops) (Mod.cls m).name).2 = .ok (Mod.cls m) := by
  intro h
  have := h .charLoad [] (by simp)
  have e : (match (loadModel ascii true (run (F := Unit) ascii true []) (Mod.cls .charLoad).name).2 with
    | .ok _ => true | .error _ => false) = false := by decide +kernel
  rw [this] at e
  cases e

/-- A model of the user that has the name of one of the package is not found: the lookup itself imports the other. -/
theorem C110_own_fails :
    ¬ ∀ (ops : List (Op Unit)) (c : Cls), c.abstract = false →
      (getModel ascii true (run ascii true (ops ++ [.model c])) c.name).2 = .ok (some c) := by
  intro h
  have := h [] ⟨"RegexModel", false, true, 77⟩ rfl
  have e : (match (getModel ascii true (run (F := Unit) ascii true ([] ++ [.model ⟨"RegexModel", false, true, 77⟩]))
    "RegexModel").2 with | .ok (some c) => c.ident | _ => 0) = 2 := by decide +kernel
  rw [this] at e
  cases e

/-- A processor of the user without the metaclass is never found. -/
theorem C110_processor_fails :
    ¬ ∀ (ops : List (Op Unit)) (c : Cls), c.abstract = false →
      getProc ascii (run ascii true (ops ++ [.proc c])) c.name = some c := by
  intro h
  have := h [] ⟨"MyPreprocessor", false, false, 50⟩ rfl
  exact absurd this (by decide +kernel)

/-- Names of the package are different in lower case. -/
theorem separates_lower : Separates ascii := by
  have h : ∀ m n : Mod, (ascii (Mod.cls m).name = ascii (Mod.cls n).name) = (m = n) := by
    intro m n
    cases m <;> cases n <;> decide +kernel
  intro m n e
  rw [h] at e
  exact e

/-- A user defines a model twice, a processor, and registers presets. -/
def story : List (Op ℕ) :=
  [.model ⟨"MyModel", false, true, 10⟩, .plugin "option_preset" "mine" 1, .lookup "regexmodel", .model ⟨"MYMODEL", false, true, 11⟩,
    .proc ⟨"MyPre", false, true, 20⟩, .plugin "other" "mine" 5, .plugin "option_preset" "mine" 2, .model ⟨"MyModel", true, true, 12⟩]

example : (getModel ascii true (run ascii true story) "mymodel").2.toOption =
    some (some ⟨"MYMODEL", false, true, 11⟩) := by decide +kernel

example : getProc ascii (run ascii true story) "MYPRE" = some ⟨"MyPre", false, true, 20⟩ ∧
    getProc ascii (run ascii true story) "charpreprocessor" = some ⟨"CharPreprocessor", false, true, 1⟩ := by
  decide +kernel

example : (processorNames.map ascii).Nodup ∧ ∀ c ∈ procLog story, ascii c.name ≠ ascii "RegexPostProcessor" := by
  decide +kernel

example : getPlugins (run ascii true story) "option_preset" = some [("mine", 2)] ∧
    getPlugins (run ascii true story) "none" = none ∧
    (choosePreset (run ascii true story) (some "mine")).toOption = some (.plugin 2) ∧
    (choosePreset (run ascii true story) (some "yours")).toOption = none := by
  decide +kernel

example : (getModel ascii true (run ascii true story) "ColumnNameModel").2 = .ok (some (Mod.cls .columnName)) := by
  have := C110_package_partial ascii separates_lower story .columnName (by
    intro c hc _
    simp only [story, List.mem_cons, Op.model.injEq, reduceCtorEq, false_or, List.not_mem_nil, or_false] at hc
    rcases hc with rfl | rfl | rfl <;> decide +kernel)
  exact this.1 (Or.inl (by decide))

example : (getModel ascii true (run (F := Unit) ascii true
    ([] ++ .model ⟨"Tree", false, true, 9⟩ :: [.lookup "RegexModel"])) "Tree").2 = .ok (some ⟨"Tree", false, true, 9⟩) :=
  C110_own_partial ascii [] [.lookup "RegexModel"] ⟨"Tree", false, true, 9⟩ rfl
    (by intro m; cases m <;> decide +kernel) (by simp)

example : loadPlugins [⟨"presets", some ["a.py", "b.txt"]⟩, ⟨"__pycache__", some ["c.py"]⟩, ⟨"x.py", none⟩] = [("presets", "a.py")] := by
  decide +kernel

end Verif.Props.Registry
