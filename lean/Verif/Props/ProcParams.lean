import Verif.Model.ProcParams
import Verif.Spec.ProcParams
import Verif.Spec.LabelerDisk
import Verif.Lemmas.PyDict
import Mathlib.Tactic.Common

/-!
# Settings of processors (C103)
-/

namespace Verif.Props.ProcParams

open Verif Verif.LabelerDisk Verif.LabelerDisk.Spec Verif.Spec.ProcParams

theorem isStr_iff (v : Val) : v.isStr = true ↔ Text v := by
  cases v <;> simp [Val.isStr, Text]

theorem isBool_iff (v : Val) : v.isBool = true ↔ TruthValue v := by
  cases v <;> simp [Val.isBool, TruthValue]

theorem isDict_iff (v : Val) : v.isDict = true ↔ ∃ d, v = .dict d := by
  cases v <;> simp [Val.isDict]

theorem isRng_iff (v : Val) : v.isRng = true ↔ ∃ r, v = .rng r := by
  cases v <;> simp [Val.isRng]

theorem between_iff (v : Val) : v.between 0 (some 1) = true ↔ Share v := by
  unfold Val.between Share IsNumber
  cases v with
  | bool b => cases b <;> simp [Val.num?, Bool.toInt]
  | int n => simp [Val.num?]
  | float q => simp [Val.num?]
  | _ => simp [Val.num?]

theorem texts_iff (v : Val) : (match v with
    | .list l => l.all Val.isStr
    | .tuple l => l.all Val.isStr
    | _ => false) = true ↔ Texts v := by
  unfold Texts
  cases v <;> simp [isStr_iff]

theorem oneOf_iff (names : List String) (v : Val) : (match v with
    | .str s => decide (lower s ∈ names)
    | _ => false) = true ↔ OneOf names v := by
  unfold OneOf lower
  cases v <;> simp

theorem length_iff (v : Val) : (match v.int? with
    | some n => decide (1 ≤ n)
    | none => false) = true ↔ (∃ n : ℤ, v = .int n ∧ 1 ≤ n) ∨ v = .bool true := by
  cases v with
  | bool b => cases b <;> simp [Val.int?, Bool.toInt]
  | int n => simp [Val.int?]
  | _ => simp [Val.int?]

/-- The names that are checked by the classes for characters. -/
def charNames : List String := ["max_length", "default_label", "pad_label", "flatten_separator", "flatten_split", "word_level_min_percent",
  "is_separate_at_max_len", "use_word_level_argmax", "is_pred_labels", "output_format", "separators", "random_state", "encoding_map"]

theorem charOk_iff {k : String} (hk : k ∈ charNames) (v : Val) : charOk k v = true ↔ Legal k v := by
  simp only [charNames, List.mem_cons, List.not_mem_nil, or_false] at hk
  rcases hk with rfl | rfl | rfl | rfl | rfl | rfl | rfl | rfl | rfl | rfl | rfl | rfl | rfl
  · exact length_iff v
  · exact isStr_iff v
  · exact isStr_iff v
  · exact isStr_iff v
  · exact between_iff v
  · exact between_iff v
  · exact isBool_iff v
  · exact isBool_iff v
  · exact isBool_iff v
  · exact oneOf_iff _ v
  · exact texts_iff v
  · exact isRng_iff v
  · exact isDict_iff v

theorem stateOf_iff (l : List Val) : (∃ s, stateOf l = some s) ↔ StateOf l := by
  have ints : ∀ w : List Val, (∃ ns, w.mapM Val.int? = some ns) ↔ ∀ x ∈ w, (∃ n, x = .int n) ∨ ∃ b, x = .bool b := by
    intro w
    induction w with
    | nil => simp
    | cons x w ih =>
      rw [List.forall_mem_cons, ← ih, List.mapM_cons]
      cases x <;> simp [Val.int?, Option.bind_eq_some_iff]
  constructor
  · rintro ⟨s, hs⟩
    unfold stateOf at hs
    split at hs
    · split at hs
      · rw [Option.map_eq_some_iff] at hs
        obtain ⟨ns, h1, -⟩ := hs
        exact ⟨_, _, rfl, (ints _).1 ⟨ns, h1⟩, .inl rfl⟩
      · rw [Option.map_eq_some_iff] at hs
        obtain ⟨ns, h1, -⟩ := hs
        exact ⟨_, _, rfl, (ints _).1 ⟨ns, h1⟩, .inr ⟨_, rfl⟩⟩
      · cases hs
    · cases hs
  · rintro ⟨w, g, rfl, hw, rfl | ⟨q, rfl⟩⟩
    all_goals
      obtain ⟨ns, h⟩ := (ints w).2 hw
      simp [stateOf, h]

theorem asRng_iff {W : Type} (E : Env W) (id : ℕ) (v : Val) : (asRng E id v).isRng = true ↔ Generator v := by
  cases v with
  | none => simp [asRng, Val.isRng, Generator]
  | bool b => simp [asRng, Val.isRng, Generator]
  | int n => simp [asRng, Val.isRng, Generator]
  | rng r => simp [asRng, Val.isRng, Generator]
  | tuple l =>
    have h : Generator (.tuple l) ↔ StateOf l := by simp [Generator]
    rw [h, ← stateOf_iff]
    simp only [asRng]
    cases stateOf l <;> simp [Val.isRng]
  | list l =>
    have h : Generator (.list l) ↔ StateOf (middle l) := by
      simp only [Generator, reduceCtorEq, false_or, exists_false, false_and, Val.list.injEq, exists_eq_left']
      constructor
      · rintro (h | ⟨w, g, rfl, h⟩)
        · obtain ⟨w, g, rfl, h⟩ := h
          exact ⟨w, g, rfl, h⟩
        · exact h
      · intro h
        unfold middle at h
        split at h
        next v w g =>
          obtain ⟨w', g', e, h1, h2⟩ := h
          cases e
          exact .inr ⟨w, g, rfl, _, _, rfl, h1, h2⟩
        · exact .inl h
    rw [h, ← stateOf_iff]
    simp only [asRng]
    cases stateOf (middle l) <;> simp [Val.isRng]
  | _ => simp [asRng, Val.isRng, Generator]

/-- The classes whose settings are checked one by one. -/
def charLike (c : ProcCls) : Prop := c = .char ∨ c = .charEncoded ∨ c = .structChar ∨ c = .charPost ∨ c = .structCharPost

theorem names_eq (c : ProcCls) : PyDict.keys c.args = (documented c).map Prod.fst := by cases c <;> rfl

theorem args_default (c : ProcCls) (hc : charLike c) : ∀ a ∈ c.args, a.1 ∈ charNames ∧
    (a.1 = "random_state" → a.2.isNone = true) ∧ (a.1 = "encoding_map" → a.2.isNone = true ∧ c = .charEncoded) ∧
    (a.1 ≠ "random_state" → a.1 ≠ "encoding_map" → charOk a.1 a.2 = true) := by
  rcases hc with rfl | rfl | rfl | rfl | rfl <;> decide +kernel

theorem arg_iff {W : Type} (E : Env W) (id : ℕ) (kw : Params) {c : ProcCls} (hc : charLike c) {a : String × Val} (ha : a ∈ c.args) :
    charOk a.1 (argument E id kw a).2 = true ↔
      (∀ v, PyDict.get? kw a.1 = some v → if a.1 = "random_state" then Generator v else Legal a.1 v) ∧
      (a.1 = "encoding_map" → ∃ v, PyDict.get? kw a.1 = some v) := by
  obtain ⟨hn, hr, he, hd⟩ := args_default c hc a ha
  unfold argument
  dsimp only
  by_cases h : a.1 = "random_state"
  · have hok : ∀ v, charOk a.1 v = v.isRng := by intro v; rw [h]; rfl
    simp only [if_pos h, hok, asRng_iff]
    have hne : a.1 ≠ "encoding_map" := by rw [h]; decide
    cases hg : PyDict.get? kw a.1 with
    | some v => simp [hne]
    | none =>
      have : a.2 = .none := by
        have := hr h
        cases h2 : a.2 <;> simp [h2, Val.isNone] at this
        rfl
      simp [this, hne, Generator]
  · simp only [if_neg h]
    cases hg : PyDict.get? kw a.1 with
    | some v => simp [charOk_iff hn]
    | none =>
      simp only [Option.getD_none, reduceCtorEq, false_imp_iff, implies_true, true_and, exists_false, imp_false]
      constructor
      · intro h1 h2
        have h3 := (he h2).1
        rw [h2] at h1
        change a.2.isDict = true at h1
        cases h4 : a.2 <;> simp [h4, Val.isNone, Val.isDict] at h1 h3
      · exact fun h1 => hd h h1

theorem accepts_char {W : Type} (E : Env W) (id : ℕ) (kw : Params) {c : ProcCls} (hc : charLike c) :
    accepts c [] (c.args.map (argument E id kw) ++ c.fixed) = true ↔ ∀ a ∈ c.args, charOk a.1 (argument E id kw a).2 = true := by
  have hk : ∀ a ∈ c.args, (argument E id kw a).1 ∈ PyDict.keys c.args := fun a ha =>
    List.mem_map.2 ⟨a, ha, rfl⟩
  have gen : ((c.args.map (argument E id kw)).all fun kv => decide (kv.1 ∈ PyDict.keys c.args) && charOk kv.1 kv.2) = true ↔
      ∀ a ∈ c.args, charOk a.1 (argument E id kw a).2 = true := by
    rw [List.all_eq_true]
    constructor
    · intro h a ha
      have := h _ (List.mem_map_of_mem ha)
      rw [Bool.and_eq_true] at this
      exact this.2
    · intro h x hx
      obtain ⟨a, ha, rfl⟩ := List.mem_map.1 hx
      rw [Bool.and_eq_true]
      exact ⟨decide_eq_true (hk a ha), h a ha⟩
  rcases hc with rfl | rfl | rfl | rfl | rfl
  · exact gen
  · exact gen
  · exact gen
  · exact gen
  · exact gen

theorem priority_given {W : Type} (E : Env W) (id : ℕ) (kw : Params) :
    priority [] (ProcCls.regexPost.args.map (argument E id kw) ++ ProcCls.regexPost.fixed) = true ↔
      PyDict.get? kw "aggregation_func" = some (.str "priority") := by
  have : PyDict.get? (ProcCls.regexPost.args.map (argument E id kw) ++ ProcCls.regexPost.fixed) "aggregation_func" =
      some ((PyDict.get? kw "aggregation_func").getD (.str "split")) := rfl
  unfold priority
  rw [this]
  cases h : PyDict.get? kw "aggregation_func" with
  | none => simp
  | some v => cases v <;> simp

theorem accepts_regex {W : Type} (E : Env W) (id : ℕ) (kw : Params) :
    accepts .regexPost [] (ProcCls.regexPost.args.map (argument E id kw) ++ ProcCls.regexPost.fixed) = true ↔
      (∀ v, PyDict.get? kw "aggregation_func" = some v → Legal "aggregation_func" v) ∧
      (∀ v, PyDict.get? kw "priority_order" = some v → Legal "priority_order" v) ∧
      (∀ v, PyDict.get? kw "random_state" = some v → Generator v) ∧
      (PyDict.get? kw "aggregation_func" = some (.str "priority") → ∃ v, PyDict.get? kw "priority_order" = some v ∧ v ≠ .none) := by
  have hp := priority_given E id kw
  unfold accepts
  dsimp only
  rw [List.all_eq_true]
  generalize hP : priority [] (ProcCls.regexPost.args.map (argument E id kw) ++ ProcCls.regexPost.fixed) = P at hp
  have hreg : ∀ k v, regexOk [] (ProcCls.regexPost.args.map (argument E id kw) ++ ProcCls.regexPost.fixed) k v =
      (if k = "aggregation_func" then (match v with
        | .str s => decide (lower s ∈ ["split", "priority", "random"])
        | _ => false)
      else if k = "priority_order" then
        if v.isNone then !P
        else (match v with
          | .list _ => true
          | .array _ => true
          | _ => false)
      else if k = "random_state" then v.isRng
      else false) := by
    intro k v
    rw [← hP]; rfl
  have hlist : ∀ x, x ∈ ProcCls.regexPost.args.map (argument E id kw) ++ ProcCls.regexPost.fixed ↔
      x = ("aggregation_func", (PyDict.get? kw "aggregation_func").getD (.str "split")) ∨
      x = ("priority_order", (PyDict.get? kw "priority_order").getD .none) ∨
      x = ("random_state", asRng E id ((PyDict.get? kw "random_state").getD .none)) := by
    intro x
    simp [ProcCls.args, ProcCls.fixed, argument]
  simp only [hreg, hlist, forall_eq_or_imp, forall_eq]
  rw [if_pos trivial, if_neg (show ¬"priority_order" = "aggregation_func" by decide), if_pos trivial,
    if_neg (show ¬"random_state" = "aggregation_func" by decide), if_neg (show ¬"random_state" = "priority_order" by decide), if_pos trivial,
    asRng_iff]
  rw [oneOf_iff]
  have h1 : OneOf ["split", "priority", "random"] ((PyDict.get? kw "aggregation_func").getD (.str "split")) ↔
      ∀ v, PyDict.get? kw "aggregation_func" = some v → Legal "aggregation_func" v := by
    have e : ∀ v, Legal "aggregation_func" v ↔ OneOf ["split", "priority", "random"] v := fun v => Iff.rfl
    cases PyDict.get? kw "aggregation_func" with
    | none => simp [OneOf]
    | some v => simp [e]
  have h3 : Generator ((PyDict.get? kw "random_state").getD .none) ↔ ∀ v, PyDict.get? kw "random_state" = some v → Generator v := by
    cases PyDict.get? kw "random_state" with
    | none => simp [Generator]
    | some v => simp
  rw [h1, h3]
  have e : ∀ v, Legal "priority_order" v ↔ v = .none ∨ (∃ l, v = .list l) ∨ ∃ l, v = .array l := fun v => Iff.rfl
  simp only [e, ← hp]
  cases hg : PyDict.get? kw "priority_order" with
  | none =>
    simp only [Option.getD_none, Val.isNone, if_true]
    cases P <;> simp
  | some v =>
    cases v <;> simp [Val.isNone]
    all_goals try tauto

/-- What a constructor makes of an argument. -/
def Taken (k : String) (v : Val) : Prop := if k = "random_state" then Generator v else Legal k v

/-- **C103 (constructors).** A processor can be made exactly if every argument is a setting of the class and has a value allowed; an encoding map must
be given where one is needed, and an order of labels for the aggregation `"priority"`. -/
theorem C103_new {W : Type} (E : Env W) (id : ℕ) (c : ProcCls) (kw : Params) :
    (∃ p, initProc E id c kw = .ok p) ↔
      (∀ k v, PyDict.get? kw k = some v → k ∈ (documented c).map Prod.fst ∧ Taken k v) ∧
      (c = .charEncoded → ∃ v, PyDict.get? kw "encoding_map" = some v) ∧
      (c = .regexPost → PyDict.get? kw "aggregation_func" = some (.str "priority") →
        ∃ v, PyDict.get? kw "priority_order" = some v ∧ v ≠ .none) := by
  have step : (∃ p, initProc E id c kw = .ok p) ↔
      (∀ k v, PyDict.get? kw k = some v → k ∈ (documented c).map Prod.fst) ∧
        accepts c [] (c.args.map (argument E id kw) ++ c.fixed) = true := by
    unfold initProc
    rw [names_eq]
    split
    next h =>
      obtain ⟨k, hk, hn⟩ := h
      obtain ⟨v, hv⟩ := (PyDict.mem_keys_iff kw k).1 hk
      simp only [reduceCtorEq, exists_false, false_iff]
      exact fun h => hn (h.1 k v hv)
    next h =>
      have h' : ∀ k v, PyDict.get? kw k = some v → k ∈ (documented c).map Prod.fst := by
        intro k v hv
        by_contra hn
        exact h ⟨k, (PyDict.mem_keys_iff kw k).2 ⟨v, hv⟩, hn⟩
      dsimp only
      split <;> simp_all
  rw [step]
  have names : ∀ k, k ∈ (documented c).map Prod.fst ↔ ∃ a ∈ c.args, a.1 = k := by
    intro k; rw [← names_eq]; exact List.mem_map
  have char : charLike c → ((∀ k v, PyDict.get? kw k = some v → k ∈ (documented c).map Prod.fst) ∧
        accepts c [] (c.args.map (argument E id kw) ++ c.fixed) = true ↔
      (∀ k v, PyDict.get? kw k = some v → k ∈ (documented c).map Prod.fst ∧ Taken k v) ∧
      (c = .charEncoded → ∃ v, PyDict.get? kw "encoding_map" = some v)) := by
    intro hc
    rw [accepts_char E id kw hc]
    constructor
    · rintro ⟨h1, h2⟩
      refine ⟨fun k v hv => ⟨h1 k v hv, ?_⟩, ?_⟩
      · obtain ⟨a, ha, rfl⟩ := (names k).1 (h1 k v hv)
        exact ((arg_iff E id kw hc ha).1 (h2 a ha)).1 v hv
      · rintro rfl
        exact ((arg_iff E id kw hc (a := ("encoding_map", .none)) (by simp [ProcCls.args])).1 (h2 _ (by simp [ProcCls.args]))).2 rfl
    · rintro ⟨h1, h2⟩
      refine ⟨fun k v hv => (h1 k v hv).1, fun a ha => (arg_iff E id kw hc ha).2 ⟨fun v hv => (h1 _ v hv).2, fun he => ?_⟩⟩
      rw [he]
      exact h2 ((args_default c hc a ha).2.2.1 he).2
  have none : documented c = [] → accepts c [] (c.args.map (argument E id kw) ++ c.fixed) = true →
      ((∀ k v, PyDict.get? kw k = some v → k ∈ (documented c).map Prod.fst) ∧
        accepts c [] (c.args.map (argument E id kw) ++ c.fixed) = true ↔
      (∀ k v, PyDict.get? kw k = some v → k ∈ (documented c).map Prod.fst ∧ Taken k v)) := by
    intro hd ha
    rw [hd]
    simp [ha]
  cases c with
  | direct => simpa using none rfl rfl
  | columnPost => simpa using none rfl rfl
  | char => simpa using char (by simp [charLike])
  | charEncoded => simpa using char (by simp [charLike])
  | structChar => simpa using char (by simp [charLike])
  | charPost => simpa using char (by simp [charLike])
  | structCharPost => simpa using char (by simp [charLike])
  | regexPost =>
    rw [accepts_regex]
    simp only [documented, List.map_cons, List.map_nil, List.mem_cons, List.not_mem_nil, or_false, reduceCtorEq, false_imp_iff, true_and,
      forall_const]
    constructor
    · rintro ⟨h0, h1, h2, h3, h4⟩
      refine ⟨fun k v hv => ⟨h0 k v hv, ?_⟩, h4⟩
      rcases h0 k v hv with rfl | rfl | rfl
      · exact h1 v hv
      · exact h2 v hv
      · exact h3 v hv
    · rintro ⟨h, h4⟩
      exact ⟨fun k v hv => (h k v hv).1, fun v hv => (h _ v hv).2, fun v hv => (h _ v hv).2, fun v hv => (h _ v hv).2, h4⟩
  | structRegexPost =>
    have ha : accepts .structRegexPost [] (ProcCls.structRegexPost.args.map (argument E id kw) ++ ProcCls.structRegexPost.fixed) =
        (asRng E id ((PyDict.get? kw "random_state").getD .none)).isRng := by
      simp [accepts, ProcCls.args, ProcCls.fixed, argument, regexOk, priority, PyDict.get?_cons]
      intro _
      decide +kernel
    rw [ha, asRng_iff]
    simp only [documented, List.map_cons, List.map_nil, List.mem_cons, List.not_mem_nil, or_false, reduceCtorEq, false_imp_iff, and_true]
    constructor
    · rintro ⟨h1, h2⟩ k v hv
      obtain rfl := h1 k v hv
      refine ⟨rfl, ?_⟩
      rw [hv] at h2
      exact h2
    · intro h
      refine ⟨fun k v hv => (h k v hv).1, ?_⟩
      cases hg : PyDict.get? kw "random_state" with
      | none => exact .inl rfl
      | some v => exact (h _ v hg).2

/-- A library for the examples. -/
def lib : Env Unit := ⟨fun _ => ⟨[], none⟩, fun _ => true, fun _ _ => (), fun _ _ => ()⟩

/-- Arguments taken: a state written with lists, and the aggregation with an order. -/
example : ∃ p, initProc lib 7 .regexPost [("random_state", .list [.int 3, .list [.int 5], .none]), ("aggregation_func", .str "priority"),
    ("priority_order", .list [.int 1, .int 0])] = .ok p := ⟨_, rfl⟩

/-- **C103 (refusals).** A refused constructor raises `TypeError` for an unknown argument, or `ValueError` for `CharPreprocessor`, which looks at the
names itself; it raises `ValueError` in all other cases. -/
theorem C103_refused {W : Type} (E : Env W) (id : ℕ) (c : ProcCls) (kw : Params) {e : Err} (h : initProc E id c kw = .error e) :
    ((∃ k v, PyDict.get? kw k = some v ∧ k ∉ (documented c).map Prod.fst) ∧ c ≠ .char → e = .typeError) ∧
    (¬((∃ k v, PyDict.get? kw k = some v ∧ k ∉ (documented c).map Prod.fst) ∧ c ≠ .char) → e = .valueError) := by
  have hk : (∃ k v, PyDict.get? kw k = some v ∧ k ∉ (documented c).map Prod.fst) ↔ ∃ k ∈ PyDict.keys kw, k ∉ PyDict.keys c.args := by
    rw [names_eq]
    constructor
    · rintro ⟨k, v, h1, h2⟩
      exact ⟨k, (PyDict.mem_keys_iff kw k).2 ⟨v, h1⟩, h2⟩
    · rintro ⟨k, h1, h2⟩
      obtain ⟨v, hv⟩ := (PyDict.mem_keys_iff kw k).1 h1
      exact ⟨k, v, hv, h2⟩
  rw [hk]
  unfold initProc at h
  split at h
  next h1 =>
    cases h
    by_cases hc : c = .char <;> simp [hc, h1]
  next h1 =>
    dsimp only at h
    split at h
    · cases h
    · cases h; simp [h1]

/-- An unknown argument for two classes, and a value that is not allowed. -/
example : initProc lib 7 .char [("random_state", .none)] = .error .valueError ∧
    initProc lib 7 .charPost [("random_state", .none)] = .error .typeError ∧
    initProc lib 7 .char [("max_length", .int 0)] = .error .valueError := ⟨rfl, rfl, rfl⟩

/-- The generator made of an argument: seeded, the one given, or with the state given. -/
def GeneratorFor {W : Type} (E : Env W) (given : Option Val) (r : Rng) : Prop :=
  (given = none ∨ given = some .none → r.state = E.seeded none) ∧ (∀ n, given = some (.int n) → r.state = E.seeded (some n)) ∧
    (∀ b, given = some (.bool b) → r.state = E.seeded (some (if b then 1 else 0))) ∧ (∀ r', given = some (.rng r') → r = r') ∧
    ∀ w g, given = some (.tuple [.int 3, .tuple w, g]) ∨ given = some (.list [.int 3, .tuple w, g]) ∨
        given = some (.list [.int 3, .list w, g]) →
      (∀ ns : List ℤ, w = ns.map .int → r.state.words = ns) ∧ (g = .none → r.state.gauss = none) ∧
        ∀ q, g = .float q → r.state.gauss = some q

theorem stateOf_words {w : List Val} {g : Val} {s : RngState} (h : stateOf [.int 3, .tuple w, g] = some s) :
    (∀ ns : List ℤ, w = ns.map .int → s.words = ns) ∧ (g = .none → s.gauss = none) ∧ ∀ q, g = .float q → s.gauss = some q := by
  have hm : ∀ ns : List ℤ, (ns.map Val.int).mapM Val.int? = some ns := by
    intro ns
    induction ns with
    | nil => rfl
    | cons n ns ih => simp [List.mapM_cons, Val.int?, ih]
  unfold stateOf at h
  dsimp only at h
  cases g with
  | none =>
    simp only [Option.map_eq_some_iff] at h
    obtain ⟨l, h1, rfl⟩ := h
    refine ⟨?_, by simp, by simp⟩
    rintro ns rfl
    rw [hm] at h1
    cases h1; rfl
  | float q =>
    simp only [Option.map_eq_some_iff] at h
    obtain ⟨l, h1, rfl⟩ := h
    refine ⟨?_, by simp, by simp⟩
    rintro ns rfl
    rw [hm] at h1
    cases h1; rfl
  | _ => simp at h

theorem asRng_for {W : Type} (E : Env W) (id : ℕ) (given : Option Val) (h : (asRng E id (given.getD .none)).isRng = true) :
    ∃ r, asRng E id (given.getD .none) = .rng r ∧ GeneratorFor E given r := by
  cases given with
  | none => exact ⟨_, rfl, by simp [GeneratorFor]⟩
  | some v =>
    rw [Option.getD_some] at h ⊢
    cases v with
    | none => exact ⟨_, rfl, by simp [GeneratorFor]⟩
    | bool b => exact ⟨_, rfl, by cases b <;> simp [GeneratorFor, Bool.toInt]⟩
    | int n => exact ⟨_, rfl, by simp [GeneratorFor]⟩
    | rng r => exact ⟨_, rfl, by simp [GeneratorFor]⟩
    | list l =>
      simp only [asRng] at h ⊢
      cases hs : stateOf (middle l) with
      | none => rw [hs] at h; cases h
      | some s =>
        refine ⟨_, rfl, ?_⟩
        simp only [GeneratorFor, reduceCtorEq, Option.some.injEq, Val.list.injEq, false_or, or_self, false_imp_iff, forall_const, true_and]
        refine ⟨fun _ => trivial, ?_⟩
        rintro w g (rfl | rfl)
        · exact stateOf_words hs
        · exact stateOf_words hs
    | tuple l =>
      simp only [asRng] at h ⊢
      cases hs : stateOf l with
      | none => rw [hs] at h; cases h
      | some s =>
        refine ⟨_, rfl, ?_⟩
        simp only [GeneratorFor, reduceCtorEq, Option.some.injEq, Val.tuple.injEq, or_false, or_self, false_imp_iff, forall_const, true_and]
        refine ⟨fun _ => trivial, ?_⟩
        rintro w g rfl
        exact stateOf_words hs
    | _ => simp [asRng, Val.isRng] at h

theorem args_nodup (c : ProcCls) : PyDict.WF (c.args ++ c.fixed) := by
  cases c <;> decide

theorem args_documented (c : ProcCls) : c.args = documented c := by cases c <;> rfl

/-- **C103 (settings made).** Every setting of a new processor has the value given, or its default; the generator is the one given, or one with the
seed or state given. What is not a setting is fixed: texts of a column are always put together, and structured data are always split. -/
theorem C103_made {W : Type} {E : Env W} {id : ℕ} {c : ProcCls} {kw : Params} {p : Proc} (h : initProc E id c kw = .ok p) :
    p.cls = c ∧
    (∀ k d, (k, d) ∈ documented c → k ≠ "random_state" → PyDict.get? p.params k = some ((PyDict.get? kw k).getD d)) ∧
    (∀ d, ("random_state", d) ∈ documented c →
      ∃ r, PyDict.get? p.params "random_state" = some (.rng r) ∧ GeneratorFor E (PyDict.get? kw "random_state") r) ∧
    (c = .structChar → PyDict.get? p.params "flatten_split" = some (.float 1)) ∧
    (c = .structRegexPost → PyDict.get? p.params "aggregation_func" = some (.str "split")) := by
  have hok := (C103_new E id c kw).1 ⟨p, h⟩
  unfold initProc at h
  split at h
  · cases h
  dsimp only at h
  split at h
  swap
  · cases h
  cases h
  have hkeys : PyDict.keys (c.args.map (argument E id kw) ++ c.fixed) = PyDict.keys (c.args ++ c.fixed) := by
    simp [PyDict.keys, argument, Function.comp_def]
  have wf : PyDict.WF (c.args.map (argument E id kw) ++ c.fixed) := by
    unfold PyDict.WF
    rw [hkeys]
    exact args_nodup c
  have look : ∀ a ∈ documented c, PyDict.get? (c.args.map (argument E id kw) ++ c.fixed) a.1 = some (argument E id kw a).2 := by
    intro a ha
    rw [← args_documented] at ha
    exact PyDict.get?_of_mem wf (List.mem_append_left _ (List.mem_map_of_mem (f := argument E id kw) ha))
  refine ⟨rfl, ?_, ?_, ?_, ?_⟩
  · intro k d hd hk
    have := look _ hd
    simp only [argument, if_neg hk] at this
    exact this
  · intro d hd
    have hl := look _ hd
    have hd' : d = .none := by
      cases c <;> simp [documented] at hd <;> exact hd
    subst hd'
    simp only [argument, if_true] at hl
    have hg : Generator ((PyDict.get? kw "random_state").getD .none) := by
      cases hv : PyDict.get? kw "random_state" with
      | none => exact .inl rfl
      | some v => exact (hok.1 _ v hv).2
    obtain ⟨r, h1, h2⟩ := asRng_for E id (PyDict.get? kw "random_state") ((asRng_iff E id _).2 hg)
    exact ⟨r, by rw [hl, h1], h2⟩
  · rintro rfl; rfl
  · rintro rfl; rfl

/-- The settings made from a seed and a maximal length. -/
example : ∃ p, initProc lib 7 .structCharPost [("random_state", .int 5), ("pad_label", .str "P")] = .ok p ∧
    PyDict.get? p.params "pad_label" = some (.str "P") ∧ PyDict.get? p.params "default_label" = some (.str "UNKNOWN") := ⟨_, rfl, rfl, rfl⟩

/-- What can be set later. -/
def Settable (c : ProcCls) (k : String) (v : Val) : Prop :=
  (k ∈ (documented c).map Prod.fst ∧ Legal k v) ∨ (c = .structChar ∧ k = "flatten_split")

theorem documented_char {c : ProcCls} (hc : charLike c) {k : String} (hk : k ∈ (documented c).map Prod.fst) : k ∈ charNames := by
  obtain ⟨a, ha, rfl⟩ := List.mem_map.1 hk
  rw [← args_documented] at ha
  exact (args_default c hc a ha).1

theorem all_get {kw : Params} (hw : PyDict.WF kw) (f : String × Val → Bool) :
    kw.all f = true ↔ ∀ k v, PyDict.get? kw k = some v → f (k, v) = true := by
  rw [List.all_eq_true]
  exact ⟨fun h k v hv => h _ (PyDict.mem_of_get? hv), fun h x hx => h _ _ (PyDict.get?_of_mem hw hx)⟩

theorem isEmpty_get (kw : Params) : kw.isEmpty = true ↔ ∀ k v, PyDict.get? kw k ≠ some v := by
  cases kw with
  | nil => simp
  | cons x t =>
    simp only [List.isEmpty_cons, Bool.false_eq_true, false_iff, not_forall, not_not, ne_eq]
    exact ⟨x.1, x.2, by rw [PyDict.get?_cons]; simp⟩

theorem foldl_set_get (kw : Params) (hw : PyDict.WF kw) : ∀ (d : Params) (k : String),
    PyDict.get? (kw.foldl (fun d x => PyDict.set d x.1 x.2) d) k = (PyDict.get? kw k).or (PyDict.get? d k) := by
  induction kw with
  | nil => intro d k; simp
  | cons x t ih =>
    intro d k
    have ht : PyDict.WF t := (List.nodup_cons.1 hw).2
    have hx : x.1 ∉ PyDict.keys t := (List.nodup_cons.1 hw).1
    rw [List.foldl_cons, ih ht, PyDict.get?_set, PyDict.get?_cons]
    by_cases h : x.1 = k
    · subst h
      rw [(PyDict.get?_eq_none_iff t x.1).2 hx]
      simp
    · rw [if_neg h, if_neg h]

/-- **C103 (`set_params`).** Settings can be changed exactly if all of them are settings of the class with values allowed. An order of labels cannot be
taken away while the aggregation needs it. Those given are changed, the others are kept; otherwise nothing is changed and `ValueError` is raised. -/
theorem C103_set (p : Proc) {kw : Params} (hw : PyDict.WF kw) :
    ((∃ q, p.set kw = .ok q) ↔ (∀ k v, PyDict.get? kw k = some v → Settable p.cls k v) ∧
      (p.cls = .regexPost → PyDict.get? kw "priority_order" = some .none →
        (PyDict.get? kw "aggregation_func").or (PyDict.get? p.params "aggregation_func") ≠ some (.str "priority"))) ∧
    (∀ q, p.set kw = .ok q → q.cls = p.cls ∧ ∀ k, PyDict.get? q.params k = (PyDict.get? kw k).or (PyDict.get? p.params k)) ∧
    (∀ e, p.set kw = .error e → e = .valueError) := by
  obtain ⟨c, ps⟩ := p
  refine ⟨?_, ?_, ?_⟩
  · have step : (∃ q, Proc.set ⟨c, ps⟩ kw = .ok q) ↔
        (c = .structRegexPost → ∀ k v, PyDict.get? kw k = some v → k = "random_state") ∧ accepts c ps kw = true := by
      unfold Proc.set
      split
      next h =>
        obtain ⟨hc, k, hk, hn⟩ := h
        obtain ⟨v, hv⟩ := (PyDict.mem_keys_iff kw k).1 hk
        simp only [reduceCtorEq, exists_false, false_iff]
        exact fun h => hn (h.1 hc k v hv)
      next h =>
        have h' : c = .structRegexPost → ∀ k v, PyDict.get? kw k = some v → k = "random_state" := by
          intro hc k v hv
          by_contra hn
          exact h ⟨hc, k, (PyDict.mem_keys_iff kw k).2 ⟨v, hv⟩, hn⟩
        split
        next ha => exact ⟨fun _ => ⟨h', ha⟩, fun _ => ⟨_, rfl⟩⟩
        next ha => exact ⟨fun ⟨_, e⟩ => (by cases e), fun e => absurd e.2 ha⟩
    rw [step]
    dsimp only
    have char : charLike c → c ≠ .structChar → ((kw.all fun kv => decide (kv.1 ∈ PyDict.keys c.args) && charOk kv.1 kv.2) = true ↔
        ∀ k v, PyDict.get? kw k = some v → Settable c k v) := by
      intro hc hs
      rw [all_get hw]
      refine forall_congr' fun k => forall_congr' fun v => imp_congr_right fun _ => ?_
      rw [Bool.and_eq_true, decide_eq_true_iff, names_eq]
      unfold Settable
      constructor
      · rintro ⟨h1, h2⟩
        exact .inl ⟨h1, (charOk_iff (documented_char hc h1) v).1 h2⟩
      · rintro (⟨h1, h2⟩ | ⟨h1, -⟩)
        · exact ⟨h1, (charOk_iff (documented_char hc h1) v).2 h2⟩
        · exact absurd h1 hs
    have none : documented c = [] → c ≠ .structChar → (kw.isEmpty = true ↔ ∀ k v, PyDict.get? kw k = some v → Settable c k v) := by
      intro h hs
      rw [isEmpty_get]
      simp [Settable, h, hs]
    cases c with
    | direct =>
      simp only [reduceCtorEq, false_imp_iff, true_and, and_true]
      exact none rfl (by decide)
    | columnPost =>
      simp only [reduceCtorEq, false_imp_iff, true_and, and_true]
      exact none rfl (by decide)
    | char =>
      simp only [reduceCtorEq, false_imp_iff, true_and, and_true]
      exact char (by simp [charLike]) (by decide)
    | charEncoded =>
      simp only [reduceCtorEq, false_imp_iff, true_and, and_true]
      exact char (by simp [charLike]) (by decide)
    | charPost =>
      simp only [reduceCtorEq, false_imp_iff, true_and, and_true]
      exact char (by simp [charLike]) (by decide)
    | structCharPost =>
      simp only [reduceCtorEq, false_imp_iff, true_and, and_true]
      exact char (by simp [charLike]) (by decide)
    | structChar =>
      simp only [reduceCtorEq, false_imp_iff, true_and, and_true]
      unfold accepts
      dsimp only
      rw [all_get (PyDict.WF_del hw _)]
      refine forall_congr' fun k => forall_congr' fun v => ?_
      rw [PyDict.get?_del hw, Bool.and_eq_true, decide_eq_true_iff, names_eq]
      unfold Settable
      by_cases hk : k = "flatten_split"
      · simp [hk]
      · rw [if_neg (by first | exact hk | exact fun e => hk e.symm)]
        refine imp_congr_right fun _ => ?_
        constructor
        · rintro ⟨h1, h2⟩
          exact .inl ⟨h1, (charOk_iff (documented_char (by simp [charLike]) h1) v).1 h2⟩
        · rintro (⟨h1, h2⟩ | ⟨-, h1⟩)
          · exact ⟨h1, (charOk_iff (documented_char (by simp [charLike]) h1) v).2 h2⟩
          · exact absurd h1 hk
    | regexPost =>
      simp only [reduceCtorEq, false_imp_iff, true_and, forall_const]
      unfold accepts
      dsimp only
      rw [all_get hw]
      have hp : priority ps kw = true ↔ (PyDict.get? kw "aggregation_func").or (PyDict.get? ps "aggregation_func") = some (.str "priority") := by
        unfold priority
        cases h : PyDict.get? kw "aggregation_func" with
        | some v => cases v <;> simp
        | none =>
          simp only [Option.none_or]
          cases h : PyDict.get? ps "aggregation_func" with
          | none => simp
          | some v => cases v <;> simp
      constructor
      · intro h
        refine ⟨fun k v hv => .inl ?_, fun ho => ?_⟩
        · have h1 := h k v hv
          unfold regexOk at h1
          split at h1
          next e => subst e; exact ⟨by simp [documented], (oneOf_iff _ v).1 h1⟩
          split at h1
          next e =>
            subst e
            refine ⟨by simp [documented], ?_⟩
            change v = .none ∨ (∃ l, v = .list l) ∨ ∃ l, v = .array l
            cases v <;> simp [Val.isNone] at h1 ⊢
          split at h1
          next e => subst e; exact ⟨by simp [documented], (isRng_iff v).1 h1⟩
          · cases h1
        · have h1 := h _ _ ho
          intro hc
          rw [← hp] at hc
          simp [regexOk, Val.isNone, hc] at h1
      · rintro ⟨h1, h2⟩ k v hv
        rcases h1 k v hv with ⟨hk, hl⟩ | ⟨hc, -⟩
        · simp only [documented, List.map_cons, List.map_nil, List.mem_cons, List.not_mem_nil, or_false] at hk
          rcases hk with rfl | rfl | rfl
          · exact (oneOf_iff _ v).2 hl
          · change v = .none ∨ (∃ l, v = .list l) ∨ ∃ l, v = .array l at hl
            rcases hl with rfl | ⟨l, rfl⟩ | ⟨l, rfl⟩
            · have := h2 hv
              rw [ne_eq, ← hp] at this
              simp [regexOk, Val.isNone, this]
            · simp [regexOk, Val.isNone]
            · simp [regexOk, Val.isNone]
          · exact (isRng_iff v).2 hl
        · cases hc
    | structRegexPost =>
      simp only [reduceCtorEq, false_imp_iff, and_true, forall_const]
      unfold accepts
      dsimp only
      rw [all_get hw]
      constructor
      · rintro ⟨h1, h2⟩ k v hv
        obtain rfl := h1 k v hv
        exact .inl ⟨by simp [documented], (isRng_iff v).1 (h2 _ v hv)⟩
      · intro h
        have h' : ∀ k v, PyDict.get? kw k = some v → k = "random_state" ∧ Legal k v := by
          intro k v hv
          rcases h k v hv with ⟨h1, h2⟩ | ⟨h1, -⟩
          · exact ⟨by simpa [documented] using h1, h2⟩
          · cases h1
        refine ⟨fun k v hv => (h' k v hv).1, fun k v hv => ?_⟩
        obtain ⟨rfl, hl⟩ := h' k v hv
        exact (isRng_iff v).2 hl
  · intro q hq
    unfold Proc.set at hq
    split at hq
    · cases hq
    split at hq
    · cases hq
      exact ⟨rfl, foldl_set_get kw hw ps⟩
    · cases hq
  · intro e he
    unfold Proc.set at he
    split at he
    · cases he; rfl
    split at he
    · cases he
    · cases he; rfl

/-- Settings changed, and refused. -/
example : (∃ p q, initProc lib 7 .char [] = .ok p ∧ p.set [("max_length", .int 10)] = .ok q ∧ PyDict.get? q.params "max_length" = some (.int 10)) ∧
    ∃ p, initProc lib 7 .char [] = .ok p ∧ p.set [("max_length", .int 10), ("flatten_split", .int 2)] = .error .valueError :=
  ⟨⟨_, _, rfl, rfl, rfl⟩, _, rfl, rfl⟩

/-- What is shown of a setting; a `StructRegexPostProcessor` shows the processor inside. -/
def ShownOf (p : Proc) (k : String) (v : Shown) : Prop :=
  if p.cls = .structRegexPost then k = "regex_processor" ∧ v = .inner p.params
  else ∃ w, PyDict.get? p.params k = some w ∧ v = .val w

theorem map_get (d : Params) (k : String) :
    PyDict.get? (d.map fun kv => (kv.1, Shown.val kv.2)) k = (PyDict.get? d k).map Shown.val := by
  induction d with
  | nil => rfl
  | cons x t ih =>
    rw [List.map_cons, PyDict.get?_cons, PyDict.get?_cons, ih]
    split <;> rfl

theorem visible_get (p : Proc) (k : String) (v : Shown) : PyDict.get? p.visible k = some v ↔ ShownOf p k v := by
  unfold Proc.visible ShownOf
  split
  next h =>
    rw [if_pos h, PyDict.get?_cons, PyDict.get?_nil]
    constructor
    · intro h
      split at h
      next e => cases h; exact ⟨by first | exact e | exact e.symm, rfl⟩
      · cases h
    · rintro ⟨rfl, rfl⟩
      simp
  next h =>
    rw [if_neg (fun e => h e), map_get, Option.map_eq_some_iff]
    exact ⟨fun ⟨w, h1, h2⟩ => ⟨w, h1, h2.symm⟩, fun ⟨w, h1, h2⟩ => ⟨w, h1, h2.symm⟩⟩

theorem pick_spec (f : PyDict String Shown) : ∀ (ks : List String) (d : PyDict String Shown), PyDict.WF d →
    ((∃ k ∈ ks, PyDict.get? f k = none) → pickParams f ks d = .error .valueError) ∧
    ((∀ k ∈ ks, PyDict.get? f k ≠ none) → ∃ r, pickParams f ks d = .ok r ∧ PyDict.WF r ∧
      ∀ k v, PyDict.get? r k = some v ↔ (k ∈ ks ∧ PyDict.get? f k = some v) ∨ (k ∉ ks ∧ PyDict.get? d k = some v)) := by
  intro ks
  induction ks with
  | nil => intro d hd; simp [pickParams, hd]
  | cons a ks ih =>
    intro d hd
    unfold pickParams
    cases ha : PyDict.get? f a with
    | none => simp [ha]
    | some x =>
      obtain ⟨h1, h2⟩ := ih (PyDict.set d a x) (PyDict.WF_set hd a x)
      constructor
      · rintro ⟨k, hk, hn⟩
        rcases List.mem_cons.1 hk with rfl | hk
        · rw [ha] at hn; cases hn
        · exact h1 ⟨k, hk, hn⟩
      · intro h
        obtain ⟨r, hr, hw, hg⟩ := h2 fun k hk => h k (List.mem_cons_of_mem _ hk)
        refine ⟨r, hr, hw, fun k v => ?_⟩
        rw [hg, PyDict.get?_set]
        by_cases hka : k = a
        · subst hka
          by_cases hks : k ∈ ks <;> simp [hks, ha]
        · have : a ≠ k := fun e => hka e.symm
          simp [hka, this]

/-- **C103 (`get_parameters`).** Without names all settings are shown; with names exactly those named, or `ValueError` if one of them is unknown. The
share of texts put together is never shown for structured data. -/
theorem C103_get (p : Proc) (hp : PyDict.WF p.params) :
    (∃ r, p.getParams none = .ok r ∧
      ∀ k v, PyDict.get? r k = some v ↔ ShownOf p k v ∧ ¬(p.cls = .structChar ∧ k = "flatten_split")) ∧
    ∀ ks, ((∃ k ∈ ks, ¬∃ v, ShownOf p k v) → p.getParams (some ks) = .error .valueError) ∧
      ((∀ k ∈ ks, ∃ v, ShownOf p k v) → ∃ r, p.getParams (some ks) = .ok r ∧
        ∀ k v, PyDict.get? r k = some v ↔ k ∈ ks ∧ ShownOf p k v ∧ ¬(p.cls = .structChar ∧ k = "flatten_split")) := by
  have hide : ∀ (r : PyDict String Shown), PyDict.WF r → ∀ k v,
      PyDict.get? (p.hide r) k = some v ↔ PyDict.get? r k = some v ∧ ¬(p.cls = .structChar ∧ k = "flatten_split") := by
    intro r hr k v
    unfold Proc.hide
    by_cases hc : p.cls = .structChar
    · rw [if_pos hc, PyDict.get?_del hr]
      by_cases hk : k = "flatten_split"
      · simp [hk, hc]
      · rw [if_neg (by first | exact hk | exact fun e => hk e.symm)]
        simp [hk]
    · rw [if_neg hc]
      simp [hc]
  have wf : PyDict.WF p.visible := by
    unfold Proc.visible
    split
    · simp [PyDict.WF, PyDict.keys]
    · unfold PyDict.WF at hp ⊢
      simpa [PyDict.keys, Function.comp_def] using hp
  have some_iff : ∀ k, PyDict.get? p.visible k = none ↔ ¬∃ v, ShownOf p k v := by
    intro k
    simp only [← visible_get]
    cases PyDict.get? p.visible k <;> simp
  refine ⟨⟨_, rfl, fun k v => by rw [hide _ wf, visible_get]⟩, fun ks => ⟨?_, ?_⟩⟩
  · rintro ⟨k, hk, hn⟩
    unfold Proc.getParams
    dsimp only
    rw [(pick_spec p.visible ks [] PyDict.WF_nil).1 ⟨k, hk, (some_iff k).2 hn⟩]
    rfl
  · intro h
    obtain ⟨r, hr, hw, hg⟩ := (pick_spec p.visible ks [] PyDict.WF_nil).2 fun k hk hn => (some_iff k).1 hn (h k hk)
    refine ⟨p.hide r, ?_, fun k v => ?_⟩
    · unfold Proc.getParams
      dsimp only
      rw [hr]
      rfl
    · rw [hide _ hw, hg, visible_get]
      simp [and_assoc]

/-- Processors of a class that a user can have: made, with settings changed any number of times. -/
inductive Made {W : Type} (E : Env W) (c : ProcCls) : Proc → Prop
  | new {id : ℕ} {kw : Params} {p : Proc} (h : initProc E id c kw = .ok p) : Made E c p
  | set {p q : Proc} {kw : Params} (hp : Made E c p) (hw : PyDict.WF kw) (h : p.set kw = .ok q) : Made E c q

theorem default_legal : ∀ c : ProcCls, ∀ a ∈ documented c, a.1 ≠ "random_state" → a.1 ≠ "encoding_map" → Legal a.1 a.2 := by
  intro c
  cases c with
  | regexPost =>
    intro a ha h1 h2
    simp only [documented, List.mem_cons, List.not_mem_nil, or_false] at ha
    rcases ha with rfl | rfl | rfl
    · exact ⟨"split", rfl, by decide +kernel⟩
    · exact .inl rfl
    · exact absurd rfl h1
  | structRegexPost =>
    intro a ha h1
    simp only [documented, List.mem_cons, List.not_mem_nil, or_false] at ha
    subst ha
    exact absurd rfl h1
  | direct => simp [documented]
  | columnPost => simp [documented]
  | _ =>
    intro a ha h1 h2
    rw [← args_documented] at ha
    obtain ⟨h3, -, -, h4⟩ := args_default _ (by simp [charLike]) a ha
    exact (charOk_iff h3 _).1 (h4 h1 h2)

/-- **C103 (settings stay legal).** Whatever was set, every setting of a processor has a value that is allowed. -/
theorem C103_legal {W : Type} {E : Env W} {c : ProcCls} {p : Proc} (hp : Made E c p) :
    p.cls = c ∧ ∀ k ∈ (documented c).map Prod.fst, ∃ v, PyDict.get? p.params k = some v ∧ Legal k v := by
  induction hp with
  | @new id kw p h =>
    obtain ⟨h1, h2, h3, -⟩ := C103_made h
    refine ⟨h1, fun k hk => ?_⟩
    obtain ⟨⟨k, d⟩, ha, rfl⟩ := List.mem_map.1 hk
    have hok := (C103_new E id c kw).1 ⟨p, h⟩
    by_cases hr : k = "random_state"
    · subst hr
      obtain ⟨r, hr, -⟩ := h3 d ha
      exact ⟨_, hr, r, rfl⟩
    · refine ⟨_, h2 k d ha hr, ?_⟩
      cases hg : PyDict.get? kw k with
      | some v =>
        have := (hok.1 k v hg).2
        rw [Taken, if_neg hr] at this
        exact this
      | none =>
        refine default_legal c _ ha hr ?_
        rintro rfl
        have hc : c = .charEncoded := by
          cases c <;> simp [documented] at ha
          rfl
        obtain ⟨v, hv⟩ := hok.2.1 hc
        rw [hv] at hg
        cases hg
  | @set p q kw hp hw h ih =>
    obtain ⟨h1, h2⟩ := (C103_set p hw).2.1 q h
    obtain ⟨hs, -⟩ := (C103_set p hw).1.1 ⟨q, h⟩
    refine ⟨h1.trans ih.1, fun k hk => ?_⟩
    rw [h2]
    cases hg : PyDict.get? kw k with
    | none => simpa using ih.2 k hk
    | some v =>
      refine ⟨v, rfl, ?_⟩
      rcases hs k v hg with ⟨-, hl⟩ | ⟨hc, rfl⟩
      · exact hl
      · rw [ih.1] at hc
        subst hc
        simp [documented] at hk

/-- A processor whose settings were changed. -/
example : ∃ p, Made lib .regexPost p ∧ PyDict.get? p.params "aggregation_func" = some (.str "random") :=
  ⟨_, .set (kw := [("aggregation_func", .str "random")]) (.new (id := 7) (kw := []) rfl) (by decide) rfl, rfl⟩

/-- **C103 fails** for the aggregation by priority: written with a capital letter it is the same aggregation, but no order of labels is asked for. -/
theorem C103_case_fails : ∃ p, initProc lib 7 .regexPost [("aggregation_func", .str "Priority")] = .ok p ∧
    PyDict.get? p.params "priority_order" = some .none ∧
    initProc lib 7 .regexPost [("aggregation_func", .str "priority")] = .error .valueError := by
  refine ⟨⟨.regexPost, [("aggregation_func", .str "Priority"), ("priority_order", .none), ("random_state", .rng ⟨7, [], none⟩)]⟩, ?_, rfl, rfl⟩
  rfl

/-- **C103 fails** for structured data: the share of texts put together can be set to anything, and cannot be read. -/
theorem C103_hidden_fails : ∃ p q, initProc lib 7 .structChar [] = .ok p ∧ p.set [("flatten_split", .str "half")] = .ok q ∧
    PyDict.get? q.params "flatten_split" = some (.str "half") ∧ q.getParams (some ["flatten_split"]) = .ok [] ∧
    initProc lib 7 .structChar [("flatten_split", .int 1)] = .error .typeError := ⟨_, _, rfl, rfl, rfl, rfl, rfl⟩

/-- **C103 fails** for generators: a seed or a state is taken by the constructor, but not by `set_params`. -/
theorem C103_seed_fails (n : ℤ) : ∃ p q, initProc lib 7 .structCharPost [("random_state", .int n)] = .ok p ∧
    p.set [("random_state", .int n)] = .error .valueError ∧
    initProc lib 7 .structRegexPost [("random_state", .int n)] = .ok q ∧ q.set [("random_state", .int n)] = .error .valueError :=
  ⟨_, _, rfl, rfl, rfl, rfl⟩

/-- **C103 fails** for the processor of structured regular expressions: its only setting can be set, but not read. -/
theorem C103_inner_fails (r : Rng) : ∃ p q, initProc lib 7 .structRegexPost [] = .ok p ∧ p.set [("random_state", .rng r)] = .ok q ∧
    q.getParams (some ["random_state"]) = .error .valueError := ⟨_, _, rfl, rfl, rfl⟩

end Verif.Props.ProcParams
