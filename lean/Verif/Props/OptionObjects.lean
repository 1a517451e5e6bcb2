import Verif.Lemmas.OptionObjects

/-!
# C107: copies and comparison of options

Two option objects are equal exactly when they have the same class and equal attributes, which is an equivalence. A copy is
equal to the original and shares exactly the data labelers held by options of data labelers with it, so changing the one leaves
the other as it is; `properties` gives such a copy.
-/

namespace Verif.Props.OptionObjects

open Verif Verif.OptionObjects Verif.OptionObjects.Spec

variable {α : Type}

/-- Operations of Python on numbers, for the examples: data labelers of the same parity are equal. -/
def numbers : Ops ℕ := ⟨fun a b => a == b, fun i j => i % 2 == j % 2, fun a => a != 0, fun b => if b then 1 else 0⟩

/-- Options of data labelers with the data labeler at address 7. -/
def labelerOptions (addr : Nat) (enabled : ℕ) : Obj ℕ :=
  .opt addr .dataLabeler [("is_enabled", .imm enabled), ("data_labeler_object", .labeler 7)]

/-- Options of a profiler of text. -/
def sample : Obj ℕ :=
  .opt 0 .unstructured [("text", .opt 1 .textProfiler [("is_enabled", .imm 1), ("stop_words", .cont 2 5)]),
    ("data_labeler", labelerOptions 3 1)]

theorem sample_proper : Proper sample := by
  refine .opt (by decide) fun kv h => ?_
  simp only [List.mem_cons, List.not_mem_nil, or_false] at h
  rcases h with rfl | rfl
  · refine .opt (by decide) fun kv h => ?_
    simp only [List.mem_cons, List.not_mem_nil, or_false] at h
    rcases h with rfl | rfl
    · exact .imm
    · exact .cont
  · refine .opt (by decide) fun kv h => ?_
    simp only [List.mem_cons, List.not_mem_nil, or_false] at h
    rcases h with rfl | rfl
    · exact .imm
    · exact .labeler

theorem sample_usual : Usual sample := by
  refine .opt (fun kv h _ => ?_) fun h => by cases h
  simp only [List.mem_cons, List.not_mem_nil, or_false] at h
  rcases h with rfl | rfl
  · refine .opt (fun kv h _ => ?_) fun h => by cases h
    simp only [List.mem_cons, List.not_mem_nil, or_false] at h
    rcases h with rfl | rfl
    · exact .imm
    · exact .cont
  · refine .opt (fun kv h hn => ?_) fun _ kv h hk => ?_
    · simp only [List.mem_cons, List.not_mem_nil, or_false] at h
      rcases h with rfl | rfl
      · exact .imm
      · exact absurd ⟨rfl, rfl⟩ hn
    · simp only [List.mem_cons, List.not_mem_nil, or_false] at h
      rcases h with rfl | rfl
      · exact Or.inr ⟨1, rfl⟩
      · exact Or.inl ⟨7, rfl⟩

theorem sample_reach (i : Nat) (h : Reach i sample) : i = 0 ∨ i = 1 ∨ i = 2 ∨ i = 3 ∨ i = 7 := by
  cases h with
  | here => simp
  | under hk h =>
    simp only [List.mem_cons, List.not_mem_nil, or_false] at hk
    rcases hk with rfl | rfl
    · cases h with
      | here => simp
      | under hk h =>
        simp only [List.mem_cons, List.not_mem_nil, or_false] at hk
        rcases hk with rfl | rfl <;> cases h
        simp
    · cases h with
      | here => simp
      | under hk h =>
        simp only [List.mem_cons, List.not_mem_nil, or_false] at hk
        rcases hk with rfl | rfl <;> cases h
        simp

/-! ### Comparison -/

/-- **C107.** Two option objects are equal exactly when they have the same class and the same attributes with equal values. -/
theorem C107_equal_iff (ops : Ops α) (a b : Obj α) (ha : Proper a) (hb : Proper b) :
    eqObj ops a b = true ↔
      Agree (fun x y => ops.eq x y = true) (fun i j => i = j ∨ ops.labelerEq i j = true) a b :=
  eqObj_iff ops a b ha hb

example : eqObj numbers sample sample = true := by decide
example : eqObj numbers (labelerOptions 3 1) (labelerOptions 4 1) = true := by decide
example : eqObj numbers (labelerOptions 3 1) (labelerOptions 3 0) = false := by decide
/-- The class counts on either side: switches of a class and of a class derived from it differ. -/
example : eqObj numbers (.opt 0 .boolean [("is_enabled", .imm 1)]) (.opt 1 .inspector [("is_enabled", .imm 1)]) = false ∧
    eqObj numbers (.opt 1 .inspector [("is_enabled", .imm 1)]) (.opt 0 .boolean [("is_enabled", .imm 1)]) = false := by
  decide
/-- The order of attributes does not count. -/
example : eqObj numbers (.opt 0 .mode [("is_enabled", .imm 1), ("top_k_modes", .imm 5)])
    (.opt 0 .mode [("top_k_modes", .imm 5), ("is_enabled", .imm 1)]) = true := by decide

/-- **C107.** Equality of options is an equivalence whenever equality of their plain values and of data labelers is. -/
theorem C107_equivalence (ops : Ops α) (hr : ∀ a, ops.eq a a = true) (hs : ∀ a b, ops.eq a b = true → ops.eq b a = true)
    (ht : ∀ a b c, ops.eq a b = true → ops.eq b c = true → ops.eq a c = true)
    (ls : ∀ i j, ops.labelerEq i j = true → ops.labelerEq j i = true)
    (lt : ∀ i j k, ops.labelerEq i j = true → ops.labelerEq j k = true → ops.labelerEq i k = true)
    (a b c : Obj α) (ha : Proper a) (hb : Proper b) (hc : Proper c) :
    eqObj ops a a = true ∧ (eqObj ops a b = true → eqObj ops b a = true) ∧
    (eqObj ops a b = true → eqObj ops b c = true → eqObj ops a c = true) := by
  have hLs : ∀ i j, ops.L i j → ops.L j i := fun i j h => h.elim (fun h => Or.inl h.symm) fun h => Or.inr (ls _ _ h)
  have hLt : ∀ i j k, ops.L i j → ops.L j k → ops.L i k := by
    rintro i j k (rfl | h) (rfl | h')
    · exact Or.inl rfl
    · exact Or.inr h'
    · exact Or.inr h
    · exact Or.inr (lt _ _ _ h h')
  refine ⟨(eqObj_iff ops a a ha ha).2 (Agree.refl hr (fun _ => Or.inl rfl) a ha), fun h => ?_, fun h h' => ?_⟩
  · exact (eqObj_iff ops b a hb ha).2 (Agree.symm hs hLs ((eqObj_iff ops a b ha hb).1 h))
  · exact (eqObj_iff ops a c ha hc).2
      (Agree.trans ht hLt ((eqObj_iff ops a b ha hb).1 h) ((eqObj_iff ops b c hb hc).1 h'))

example : (∀ a, numbers.eq a a = true) ∧ (∀ i j, numbers.labelerEq i j = true → numbers.labelerEq j i = true) ∧
    (∀ i j k, numbers.labelerEq i j = true → numbers.labelerEq j k = true → numbers.labelerEq i k = true) := by
  simp only [numbers, beq_iff_eq]
  exact ⟨fun _ => trivial, fun _ _ h => h.symm, fun _ _ _ h h' => h.trans h'⟩

/-! ### Copies -/

/-- **C107.** A copy of options is equal to the original. -/
theorem C107_copy_equal (ops : Ops α) (hr : ∀ a, ops.eq a a = true) (fresh : Nat → Nat) (o : Obj α) (hp : Proper o)
    (hu : Usual o) : eqObj ops (deepcopy fresh o) o = true :=
  (eqObj_iff ops _ _ (proper_copy fresh o hp) hp).2 (agree_copy hr (fun _ => Or.inl rfl) fresh o hp hu)

example : deepcopy (· + 10) sample = .opt 10 .unstructured
    [("text", .opt 11 .textProfiler [("is_enabled", .imm 1), ("stop_words", .cont 12 5)]),
      ("data_labeler", labelerOptions 13 1)] := by
  simp [sample, labelerOptions, deepcopy, copyFields]

/-- **C107.** The objects a copy shares with the original are exactly the data labelers held by options of data labelers. -/
theorem C107_copy_shares (fresh : Nat → Nat) (o : Obj α) (hu : Usual o) (hf : ∀ j, ¬ Reach (fresh j) o) (addr : Nat) :
    (Reach addr o ∧ Reach addr (deepcopy fresh o)) ↔ Held addr o := by
  constructor
  · rintro ⟨h, h'⟩
    rcases reach_copy fresh addr o hu h' with ⟨j, _, e⟩ | h'
    · exact absurd (e ▸ h) (hf j)
    · exact h'
  · exact fun h => ⟨reach_of_held addr o h, reach_copy_of_held fresh addr o h hu⟩

example : (∀ j, ¬ Reach (j + 10) sample) ∧ Held 7 sample :=
  ⟨fun j h => by rcases sample_reach _ h with h | h | h | h | h <;> omega,
    .under (kv := ("data_labeler", labelerOptions 3 1)) (by simp) (.here (by simp))⟩

/-- **C107.** Changing any object of a copy other than such a data labeler leaves the original as it is, and changing any
object of the original other than such a data labeler leaves the copy as it is. -/
theorem C107_copy_apart (fresh : Nat → Nat) (o : Obj α) (hu : Usual o) (hf : ∀ j, ¬ Reach (fresh j) o) (addr : Nat)
    (act : Act α) (hn : ¬ Held addr o) :
    (Reach addr (deepcopy fresh o) → poke addr act o = o) ∧
    (Reach addr o → poke addr act (deepcopy fresh o) = deepcopy fresh o) := by
  refine ⟨fun h => poke_unreached addr act o fun h' => hn ((C107_copy_shares fresh o hu hf addr).1 ⟨h', h⟩),
    fun h => poke_unreached addr act _ fun h' => hn ((C107_copy_shares fresh o hu hf addr).1 ⟨h, h'⟩)⟩

/-- The change is seen where it is made. -/
example : poke 2 (.contents 9) sample = .opt 0 .unstructured
    [("text", .opt 1 .textProfiler [("is_enabled", .imm 1), ("stop_words", .cont 2 9)]), ("data_labeler", labelerOptions 3 1)] ∧
    poke 3 (.attr "is_enabled" (.imm 0)) sample = .opt 0 .unstructured
    [("text", .opt 1 .textProfiler [("is_enabled", .imm 1), ("stop_words", .cont 2 5)]),
      ("data_labeler", labelerOptions 3 0)] := by
  simp [sample, labelerOptions, poke, pokeFields, PyDict.set]

/-! ### `properties` -/

/-- **C107.** `properties` has every attribute with an equal value, and nothing else but, for options of numbers and text,
`is_numeric_stats_enabled`. -/
theorem C107_properties_values (ops : Ops α) (hr : ∀ a, ops.eq a a = true) (fresh : Nat → Nat) (i : Nat) (cls : Cls)
    (fields props : Fields α) (hp : Proper (.opt i cls fields)) (hu : Usual (.opt i cls fields))
    (hx : "is_numeric_stats_enabled" ∉ fields.map Prod.fst) (h : properties ops fresh cls fields = .ok props) :
    (∀ kv ∈ fields, ∃ w, (kv.1, w) ∈ props ∧ eqObj ops w kv.2 = true) ∧
    (∀ kw ∈ props, (kw.1 ∈ fields.map Prod.fst ∨
      (kw.1 = "is_numeric_stats_enabled" ∧ (cls = .numerical ∨ cls = .int ∨ cls = .float ∨ cls = .text)))) := by
  cases hp with | opt hn hp =>
  cases hu with | opt hu hu' =>
  have heq : ∀ kv ∈ fields, ¬ (cls = .dataLabeler ∧ kv.1 = "data_labeler_object") →
      eqObj ops (deepcopy fresh kv.2) kv.2 = true := fun kv hkv hne =>
    C107_copy_equal ops hr fresh kv.2 (hp _ hkv) (hu _ hkv hne)
  unfold properties at h
  split at h
  · next hs =>
    have hc : cls = .numerical ∨ cls = .int ∨ cls = .float ∨ cls = .text := by
      revert hs; cases cls <;> decide
    split at h
    · cases h
    · cases h
      refine ⟨fun kv hkv => ⟨deepcopy fresh kv.2, ?_, heq kv hkv ?_⟩, fun kw hkw => ?_⟩
      · refine mem_set_other _ _ _ _ ((mem_copyFields ..).2 ⟨kv, hkv, by simp⟩) ?_
        exact fun e => hx (e ▸ List.mem_map.2 ⟨kv, hkv, rfl⟩)
      · rintro ⟨rfl, _⟩; simp at hc
      · rcases mem_set _ _ _ _ hkw with rfl | hkw
        · exact Or.inr ⟨rfl, hc⟩
        · obtain ⟨kv, hkv, rfl⟩ := (mem_copyFields ..).1 hkw
          exact Or.inl (List.mem_map.2 ⟨kv, hkv, rfl⟩)
  · split at h
    · next hs =>
      split at h
      · cases h
      · next l hl =>
        cases h
        have hlm := get?_mem hl
        refine ⟨fun kv hkv => ?_, fun kw hkw => ?_⟩
        · by_cases hk : kv.1 = "data_labeler_object"
          · have e : kv.2 = l := by
              have := (get?_some_iff hn).2 (show (kv.1, kv.2) ∈ fields from hkv)
              rw [hk, hl] at this
              exact (Option.some.inj this).symm
            refine ⟨l, hk ▸ mem_set_self _ _ _, ?_⟩
            rw [e]
            exact (eqObj_iff ops l l (hp _ hlm) (hp _ hlm)).2 (Agree.refl hr (fun _ => Or.inl rfl) l (hp _ hlm))
          · refine ⟨deepcopy fresh kv.2, mem_set_other _ _ _ _ ((mem_copyFields ..).2 ⟨kv, ?_, by simp⟩) hk,
              heq kv hkv fun h => hk h.2⟩
            exact List.mem_filter.2 ⟨hkv, by simpa using hk⟩
        · rcases mem_set _ _ _ _ hkw with rfl | hkw
          · exact Or.inl (List.mem_map.2 ⟨_, hlm, rfl⟩)
          · obtain ⟨kv, hkv, rfl⟩ := (mem_copyFields ..).1 hkw
            exact Or.inl (List.mem_map.2 ⟨kv, (List.mem_filter.1 hkv).1, rfl⟩)
    · next hs =>
      cases h
      refine ⟨fun kv hkv => ⟨deepcopy fresh kv.2, (mem_copyFields ..).2 ⟨kv, hkv, by simp⟩, heq kv hkv ?_⟩, fun kw hkw => ?_⟩
      · rintro ⟨rfl, _⟩; exact hs (by decide)
      · obtain ⟨kv, hkv, rfl⟩ := (mem_copyFields ..).1 hkw
        exact Or.inl (List.mem_map.2 ⟨kv, hkv, rfl⟩)

/-- **C107.** Changing any object found in `properties`, other than a data labeler held by options of data labelers, leaves the
options as they are. -/
theorem C107_properties_apart (ops : Ops α) (fresh : Nat → Nat) (i : Nat) (cls : Cls) (fields props : Fields α)
    (hu : Usual (.opt i cls fields)) (hf : ∀ j, ¬ Reach (fresh j) (.opt i cls fields))
    (h : properties ops fresh cls fields = .ok props) (kw : String × Obj α) (hkw : kw ∈ props) (addr : Nat)
    (hr : Reach addr kw.2) (hn : ¬ Held addr (.opt i cls fields)) (act : Act α) :
    poke addr act (.opt i cls fields) = .opt i cls fields := by
  refine poke_unreached addr act _ fun hreach => hn ?_
  have hmem : ∀ kv ∈ fields, ¬ (cls = .dataLabeler ∧ kv.1 = "data_labeler_object") →
      Reach addr (deepcopy fresh kv.2) → Held addr (.opt i cls fields) := by
    intro kv hkv hne hrc
    cases hu with | opt hu hu' =>
    rcases reach_copy fresh addr kv.2 (hu _ hkv hne) hrc with ⟨j, _, e⟩ | hh
    · exact absurd (e ▸ hreach) (hf j)
    · exact .under hkv hh
  unfold properties at h
  split at h
  · next hs =>
    split at h
    · cases h
    · cases h
      rcases mem_set _ _ _ _ hkw with rfl | hkw
      · cases hr
      · obtain ⟨kv, hkv, rfl⟩ := (mem_copyFields ..).1 hkw
        refine hmem kv hkv ?_ (by simpa using hr)
        rintro ⟨rfl, _⟩; revert hs; decide
  · split at h
    · next hs =>
      have hc : cls = .dataLabeler := by revert hs; cases cls <;> decide
      split at h
      · cases h
      · next l hl =>
        cases h
        rcases mem_set _ _ _ _ hkw with rfl | hkw
        · subst hc
          cases hu with | opt hu hu' =>
          rcases hu' rfl _ (get?_mem hl) rfl with ⟨m, hm⟩ | ⟨a, ha⟩
          · simp only at hm; subst hm; cases hr; exact .here (get?_mem hl)
          · simp only at ha; subst ha; cases hr
        · obtain ⟨kv, hkv, rfl⟩ := (mem_copyFields ..).1 hkw
          have hkv' := List.mem_filter.1 hkv
          refine hmem kv hkv'.1 ?_ (by simpa using hr)
          rintro ⟨_, e⟩; simp [e] at hkv'
    · next hs =>
      cases h
      obtain ⟨kv, hkv, rfl⟩ := (mem_copyFields ..).1 hkw
      refine hmem kv hkv ?_ (by simpa using hr)
      rintro ⟨rfl, _⟩; exact hs (by decide)

example : properties numbers (· + 10) .dataLabeler [("is_enabled", .imm 1), ("data_labeler_object", .labeler 7)] =
    .ok [("is_enabled", .imm 1), ("data_labeler_object", .labeler 7)] := by rfl

/-- **C107.** `properties` of options of data labelers has the data labeler itself. -/
theorem C107_properties_labeler (ops : Ops α) (fresh : Nat → Nat) (fields props : Fields α) (l : Nat)
    (hn : (fields.map Prod.fst).Nodup) (hl : ("data_labeler_object", Obj.labeler l) ∈ fields)
    (h : properties ops fresh .dataLabeler fields = .ok props) : ("data_labeler_object", Obj.labeler l) ∈ props := by
  rw [show properties ops fresh .dataLabeler fields = .ok (PyDict.set (copyFields fresh false
    (fields.filter fun kv => kv.1 != "data_labeler_object")) "data_labeler_object" (.labeler l)) from by
      simp only [properties, (get?_some_iff hn).2 hl]; rfl] at h
  cases h
  exact mem_set_self _ _ _

/-- **C107.** `is_numeric_stats_enabled` among the properties of options of numbers tells whether any of the twelve statistics
is enabled, and of options of text whether any of those other than the numbers of zeros and of negative numbers is. -/
theorem C107_numeric_stats (ops : Ops α) (fresh : Nat → Nat) (cls : Cls)
    (hc : cls = .numerical ∨ cls = .int ∨ cls = .float ∨ cls = .text) (fields : Fields α) (state : String → α)
    (hall : ∀ n ∈ ["min", "max", "mode", "sum", "variance", "skewness", "kurtosis", "median", "median_abs_deviation",
      "histogram_and_quantiles", "num_zeros", "num_negatives"],
      ∃ i c fs, PyDict.get? fields n = some (.opt i c fs) ∧ PyDict.get? fs "is_enabled" = some (.imm (state n))) :
    ∃ props, properties ops fresh cls fields = .ok props ∧
      PyDict.get? props "is_numeric_stats_enabled" = some (.imm (ops.ofBool (decide (
        (∃ n ∈ ["min", "max", "mode", "sum", "variance", "skewness", "kurtosis", "median", "median_abs_deviation",
          "histogram_and_quantiles"], ops.truthy (state n) = true) ∨
        (cls ≠ .text ∧ (ops.truthy (state "num_zeros") = true ∨ ops.truthy (state "num_negatives") = true)))))) := by
  have hat : ∀ n ∈ ["min", "max", "mode", "sum", "variance", "skewness", "kurtosis", "median", "median_abs_deviation",
      "histogram_and_quantiles", "num_zeros", "num_negatives"], enabledAt ops fields n = .ok (ops.truthy (state n)) := by
    intro n hn
    obtain ⟨i, c, fs, h1, h2⟩ := hall n hn
    simp only [enabledAt, h1, h2]
  have hany : ∀ ns, (∀ n ∈ ns, n ∈ ["min", "max", "mode", "sum", "variance", "skewness", "kurtosis", "median",
      "median_abs_deviation", "histogram_and_quantiles", "num_zeros", "num_negatives"]) →
      anyEnabled ops fields ns = .ok (decide (∃ n ∈ ns, ops.truthy (state n) = true)) := by
    intro ns hns
    induction ns with
    | nil => simp [anyEnabled]
    | cons n rest ih =>
      simp only [anyEnabled, hat n (hns n (by simp))]
      cases ht : ops.truthy (state n)
      · rw [ih fun m hm => hns m (List.mem_cons_of_mem _ hm)]
        simp [ht]
      · simp [ht]
  have hsub : isSub cls .numerical = true := by rcases hc with rfl | rfl | rfl | rfl <;> decide
  have hst : ∀ n ∈ statistics cls, n ∈ ["min", "max", "mode", "sum", "variance", "skewness", "kurtosis", "median",
      "median_abs_deviation", "histogram_and_quantiles", "num_zeros", "num_negatives"] := by
    rcases hc with rfl | rfl | rfl | rfl <;> decide
  refine ⟨_, by simp only [properties, hsub, if_true, hany _ hst]; rfl, ?_⟩
  rw [PyDict.get?_set, if_pos rfl]
  congr 4
  apply propext
  rcases hc with rfl | rfl | rfl | rfl <;> simp [statistics] <;> tauto

/-- Options of text with nothing enabled but the number of zeros, which is not looked at. -/
example : (["min", "max", "mode", "sum", "variance", "skewness", "kurtosis", "median", "median_abs_deviation",
      "histogram_and_quantiles", "num_zeros", "num_negatives"].map fun n =>
        (n, Obj.opt 0 .boolean [("is_enabled", Obj.imm (if n = "num_zeros" then 1 else 0))])) |>
    fun fs => ((properties numbers id .text fs).toOption.bind fun ps =>
        (PyDict.get? ps "is_numeric_stats_enabled").map (eqObj numbers (.imm 0)),
      (properties numbers id .int fs).toOption.bind fun ps =>
        (PyDict.get? ps "is_numeric_stats_enabled").map (eqObj numbers (.imm 1))) = (some true, some true) := by
  decide +kernel

end Verif.Props.OptionObjects
