import Verif.Lemmas.Schema

/-!
# C19 — matching the columns of two tables

Before a second batch of data, or another profile, is combined with a profile, its columns are matched to the known
ones by name, ignoring case.  The matching succeeds exactly when every name occurs equally often in both tables and
repeated names stand at the same places; it is then a name-preserving bijection of columns.  Otherwise a `ValueError`
is raised.  Only assumption: lower-casing twice is the same as lower-casing once.
-/

namespace Verif.Schema

open Verif Verif.SchemaSpec

/-- Lower-casing an already lower-cased string does nothing. -/
def Idem (lower : String → String) : Prop := ∀ s, lower (lower s) = lower s

theorem lowerKey_idem {lower : String → String} (h : Idem lower) (k : Key) :
    lowerKey lower (lowerKey lower k) = lowerKey lower k := by
  cases k <;> simp [lowerKey, h _]

theorem keys_low {lower : String → String} (h : Idem lower) (cols : List Key) :
    ∀ k ∈ PyDict.keys (schemaOf lower cols), lowerKey lower k = k := by
  intro k hk
  rw [(schemaOf_spec lower cols).keys] at hk
  rw [names_eq] at hk
  obtain ⟨c, _, rfl⟩ := List.mem_map.1 hk
  exact lowerKey_idem h c

theorem schema_empty {lower : String → String} {cols : List Key} : (schemaOf lower cols).length = 0 ↔ cols = [] := by
  rw [List.length_eq_zero_iff]
  constructor
  · intro h
    have hs := schemaOf_spec lower cols
    rw [h] at hs
    rcases cols with _ | ⟨c, cs⟩
    · rfl
    · have := (hs.keys (lowerKey lower c)).2 (by simp [names_eq])
      simp [PyDict.keys] at this
  · rintro rfl
    rfl

theorem schema_pos {lower : String → String} {cols : List Key} (h : cols ≠ []) : 0 < (schemaOf lower cols).length := by
  rw [Nat.pos_iff_ne_zero]
  exact fun h' => h (schema_empty.1 h')

theorem passes_iff {lower : String → String} (cols1 cols2 : List Key) :
    ((schemaOf lower cols1).length = (schemaOf lower cols2).length ∧
      ∀ k ∈ PyDict.keys (schemaOf lower cols1), Passes (schemaOf lower cols1) (schemaOf lower cols2) k) ↔
    Compatible (names lower cols1) (names lower cols2) := by
  have h1 := schemaOf_spec lower cols1
  have h2 := schemaOf_spec lower cols2
  have e1 : (schemaOf lower cols1).length = (PyDict.keys (schemaOf lower cols1)).length := by simp [PyDict.keys]
  have e2 : (schemaOf lower cols2).length = (PyDict.keys (schemaOf lower cols2)).length := by simp [PyDict.keys]
  rw [e1, e2]
  constructor
  · rintro ⟨hl, hp⟩ k
    by_cases hk : k ∈ names lower cols1
    · obtain ⟨_, p1, p2⟩ := hp k ((h1.keys k).2 hk)
      rw [h1.get, h2.get] at p1 p2
      rw [positions_length, positions_length] at p1
      rw [positions_length] at p2
      exact ⟨p1, p2⟩
    · have hsub : PyDict.keys (schemaOf lower cols1) ⊆ PyDict.keys (schemaOf lower cols2) := fun k hk => (hp k hk).1
      have hperm := (List.subperm_of_subset h1.wf hsub).perm_of_length_le (Nat.le_of_eq hl.symm)
      have hk2 : k ∉ names lower cols2 := by
        intro h
        exact hk ((h1.keys k).1 (hperm.symm.subset ((h2.keys k).2 h)))
      rw [List.count_eq_zero_of_not_mem hk, List.count_eq_zero_of_not_mem hk2]
      simp
  · intro hc
    have hmem : ∀ k, k ∈ names lower cols1 ↔ k ∈ names lower cols2 := by
      intro k
      rw [← List.count_pos_iff, ← List.count_pos_iff, (hc k).1]
    constructor
    · apply List.Perm.length_eq
      rw [List.perm_ext_iff_of_nodup h1.wf h2.wf]
      intro k
      rw [h1.keys, h2.keys, hmem]
    · intro k hk
      refine ⟨(h2.keys k).2 ((hmem k).1 ((h1.keys k).1 hk)), ?_, ?_⟩
      · rw [h1.get, h2.get, positions_length, positions_length, (hc k).1]
      · rw [h1.get, h2.get, positions_length]
        exact (hc k).2

open Classical in
theorem getMapping_spec {lower : String → String} (hl : Idem lower) (cols1 cols2 : List Key) (strict : Bool)
    (n1 : cols1 ≠ []) (n2 : cols2 ≠ []) :
    getMapping lower (schemaOf lower cols1) (schemaOf lower cols2) strict =
      if Compatible (names lower cols1) (names lower cols2) then
        .ok ((PyDict.keys (schemaOf lower cols1)).flatMap
          fun k => (positions (names lower cols1) k).zip (positions (names lower cols2) k))
      else .error .valueError := by
  have p1 := schema_pos (lower := lower) n1
  have p2 := schema_pos (lower := lower) n2
  unfold getMapping
  rw [← passes_iff]
  by_cases hlen : (schemaOf lower cols1).length = (schemaOf lower cols2).length
  · rw [if_neg (by simp [hlen]), if_neg (by omega), if_neg (by omega), mapNames_spec _ _ _ _ _ (keys_low hl cols1)]
    by_cases hp : ∀ k ∈ PyDict.keys (schemaOf lower cols1), Passes (schemaOf lower cols1) (schemaOf lower cols2) k
    · rw [if_pos hp, if_pos ⟨hlen, hp⟩]
      have h1 := schemaOf_spec lower cols1
      have h2 := schemaOf_spec lower cols2
      have hf : ((PyDict.keys (schemaOf lower cols1)).flatMap fun k =>
          (PyDict.getD (schemaOf lower cols1) k []).zip (PyDict.getD (schemaOf lower cols2) k [])).map Prod.fst =
          (PyDict.keys (schemaOf lower cols1)).flatMap (positions (names lower cols1)) := by
        rw [List.map_flatMap]
        apply List.flatMap_congr
        intro k hk
        rw [List.map_fst_zip (Nat.le_of_eq (hp k hk).2.1), h1.get]
      rw [foldl_set_append]
      · rw [List.nil_append]
        congr 1
        apply List.flatMap_congr
        intro k _
        rw [h1.get, h2.get]
      · rw [hf]
        simpa using (flatMap_positions_perm _ _ h1.wf h1.keys).nodup_iff.2 List.nodup_range
    · rw [if_neg hp, if_neg (fun h => hp h.2)]
  · rw [if_pos ⟨p1, hlen, p2⟩, if_neg (fun h => hlen h.1)]

/-- **Which tables can be matched**: exactly the compatible ones, strict or not. -/
theorem C19_ok_iff {lower : String → String} (hl : Idem lower) (cols1 cols2 : List Key) (strict : Bool)
    (n1 : cols1 ≠ []) (n2 : cols2 ≠ []) :
    (∃ m, getMapping lower (schemaOf lower cols1) (schemaOf lower cols2) strict = .ok m) ↔
      Compatible (names lower cols1) (names lower cols2) := by
  classical
  rw [getMapping_spec hl cols1 cols2 strict n1 n2]
  by_cases h : Compatible (names lower cols1) (names lower cols2)
  · simp [h]
  · simp [h]

/-- **The matching**: every column of the first table is paired with a column of the second with the same name, and
every column of the second table is used exactly once. -/
theorem C19_bijection {lower : String → String} (hl : Idem lower) (cols1 cols2 : List Key) (strict : Bool)
    (n1 : cols1 ≠ []) (n2 : cols2 ≠ []) (m : PyDict ℕ ℕ)
    (h : getMapping lower (schemaOf lower cols1) (schemaOf lower cols2) strict = .ok m) :
    Bijection (names lower cols1) (names lower cols2) m := by
  classical
  rw [getMapping_spec hl cols1 cols2 strict n1 n2] at h
  split_ifs at h with hc
  have h1 := schemaOf_spec lower cols1
  have h2 := schemaOf_spec lower cols2
  have hmem : ∀ k, k ∈ names lower cols1 ↔ k ∈ names lower cols2 := by
    intro k
    rw [← List.count_pos_iff, ← List.count_pos_iff, (hc k).1]
  have hlen : ∀ k, (positions (names lower cols1) k).length = (positions (names lower cols2) k).length := by
    intro k
    rw [positions_length, positions_length, (hc k).1]
  cases h
  have hkeys : PyDict.keys ((PyDict.keys (schemaOf lower cols1)).flatMap
      fun k => (positions (names lower cols1) k).zip (positions (names lower cols2) k)) =
      (PyDict.keys (schemaOf lower cols1)).flatMap (positions (names lower cols1)) := by
    rw [PyDict.keys, List.map_flatMap]
    apply List.flatMap_congr
    intro k _
    rw [List.map_fst_zip (Nat.le_of_eq (hlen k))]
  have hperm := flatMap_positions_perm _ _ h1.wf h1.keys
  constructor
  · rw [hkeys]; exact hperm
  · have hv : PyDict.values ((PyDict.keys (schemaOf lower cols1)).flatMap
        fun k => (positions (names lower cols1) k).zip (positions (names lower cols2) k)) =
        (PyDict.keys (schemaOf lower cols1)).flatMap (positions (names lower cols2)) := by
      rw [PyDict.values, List.map_flatMap]
      apply List.flatMap_congr
      intro k _
      rw [List.map_snd_zip (Nat.le_of_eq (hlen k).symm)]
    rw [hv]
    apply flatMap_positions_perm _ _ h1.wf
    intro k
    rw [h1.keys, hmem]
  · intro i j hij
    have hwf : PyDict.WF ((PyDict.keys (schemaOf lower cols1)).flatMap
      fun k => (positions (names lower cols1) k).zip (positions (names lower cols2) k)) := by
      unfold PyDict.WF
      rw [hkeys]
      exact hperm.nodup_iff.2 List.nodup_range
    rw [← PyDict.mem_iff_get? hwf] at hij
    obtain ⟨k, _, hk⟩ := List.mem_flatMap.1 hij
    have hi := mem_positions.1 (List.of_mem_zip hk).1
    have hj := mem_positions.1 (List.of_mem_zip hk).2
    rw [hi, hj]

/-- **Repeated names** are matched position by position. -/
theorem C19_repeated_in_place {lower : String → String} (hl : Idem lower) (cols1 cols2 : List Key) (strict : Bool)
    (n1 : cols1 ≠ []) (n2 : cols2 ≠ []) (m : PyDict ℕ ℕ)
    (h : getMapping lower (schemaOf lower cols1) (schemaOf lower cols2) strict = .ok m) (i j : ℕ) (k : Key)
    (hij : PyDict.get? m i = some j) (hi : (names lower cols1)[i]? = some k)
    (hr : 1 < (names lower cols1).count k) : i = j := by
  classical
  have hb := C19_bijection hl cols1 cols2 strict n1 n2 m h
  have hwf : PyDict.WF m := hb.dom.nodup_iff.2 List.nodup_range
  rw [getMapping_spec hl cols1 cols2 strict n1 n2] at h
  split_ifs at h with hc
  cases h
  rw [← PyDict.mem_iff_get? hwf] at hij
  obtain ⟨k', _, hk⟩ := List.mem_flatMap.1 hij
  have hi' := mem_positions.1 (List.of_mem_zip hk).1
  rw [hi] at hi'
  cases hi'
  rw [← (hc k).2 hr] at hk
  exact (zip_eq_iff rfl).2 rfl _ hk

/-- **The only failure** is a `ValueError`. -/
theorem C19_only_value_error {lower : String → String} (hl : Idem lower) (cols1 cols2 : List Key) (strict : Bool)
    (e : Err) (h : getMapping lower (schemaOf lower cols1) (schemaOf lower cols2) strict = .error e) :
    e = .valueError := by
  classical
  unfold getMapping at h
  rw [mapNames_spec _ _ _ _ _ (keys_low hl cols1)] at h
  split_ifs at h <;> (cases h; rfl)

/-- **Empty schemas**: strictly, none is accepted; otherwise an empty second table stands for the first one's columns. -/
theorem C19_empty {lower : String → String} (cols : List Key) :
    (∃ m, getMapping lower (schemaOf lower cols) (schemaOf lower []) false = .ok m ∧
      (PyDict.keys m).Perm (List.range cols.length) ∧ ∀ i j, PyDict.get? m i = some j → i = j) ∧
    getMapping lower (schemaOf lower cols) (schemaOf lower []) true = .error .valueError ∧
    getMapping lower (schemaOf lower []) (schemaOf lower cols) true = .error .valueError := by
  have h1 := schemaOf_spec lower cols
  refine ⟨⟨(PyDict.values (schemaOf lower cols)).flatten.map fun i => (i, i), ?_, ?_, ?_⟩, ?_, ?_⟩
  all_goals try
    have hv : (PyDict.values (schemaOf lower cols)).flatten =
        (PyDict.keys (schemaOf lower cols)).flatMap (positions (names lower cols)) := by
      rw [List.flatMap_def]
      congr 1
      unfold PyDict.values PyDict.keys
      rw [List.map_map]
      apply List.map_congr_left
      intro p hp
      have := (PyDict.mem_iff_get? h1.wf p.1 p.2).1 hp
      rw [Function.comp_apply, ← h1.get, PyDict.getD, this, Option.getD_some]
    have hp := flatMap_positions_perm _ _ h1.wf h1.keys
    have hlen : (names lower cols).length = cols.length := by simp [names_eq]
  · unfold getMapping
    rw [if_neg (by simp [schemaOf, schemaFrom]), if_neg (by simp), if_pos (by simp [schemaOf, schemaFrom]),
      foldl_set_append]
    · rfl
    · have e : ((PyDict.values (schemaOf lower cols)).flatten.map fun i => (i, i)).map Prod.fst =
          (PyDict.values (schemaOf lower cols)).flatten := by simp [Function.comp_def]
      rw [e, hv]
      simpa using hp.nodup_iff.2 List.nodup_range
  · have e : PyDict.keys ((PyDict.values (schemaOf lower cols)).flatten.map fun i => (i, i)) =
        (PyDict.values (schemaOf lower cols)).flatten := by simp [PyDict.keys, Function.comp_def]
    rw [e, hv, ← hlen]
    exact hp
  · intro i j h
    have := PyDict.mem_of_get? h
    obtain ⟨x, _, hx⟩ := List.mem_map.1 this
    cases hx
    rfl
  · unfold getMapping
    rw [if_neg (by simp [schemaOf, schemaFrom]), if_pos (by simp [schemaOf, schemaFrom])]
  · unfold getMapping
    rw [if_neg (by simp [schemaOf, schemaFrom]), if_pos (by simp [schemaOf, schemaFrom])]

/-- **What is not checked**: when the profile has no columns yet, the non-strict matching accepts every table and maps
nothing. -/
theorem C19_empty_profile_accepts_all (lower : String → String) (cols : List Key) (h : cols ≠ []) :
    getMapping lower (schemaOf lower []) (schemaOf lower cols) false = .ok [] := by
  have := schema_pos (lower := lower) h
  unfold getMapping
  rw [if_neg (by simp [schemaOf, schemaFrom]), if_neg (by simp), if_neg (by omega)]
  rfl

/-- Toy lower-casing used in the examples. -/
def toyLower (s : String) : String := if s = "A" then "a" else if s = "B" then "b" else s

example : Idem toyLower := by
  intro s
  unfold toyLower
  split_ifs <;> simp_all

-- reordered unique names are matched by name; the repeated name "b" stays in place
example : getMapping toyLower (schemaOf toyLower [.str "a", .str "B", .int 0, .str "b"])
    (schemaOf toyLower [.int 0, .str "b", .str "A", .str "b"]) true = .ok [(0, 2), (1, 1), (3, 3), (2, 0)] := by decide +kernel
-- a repeated name that moved is refused
example : getMapping toyLower (schemaOf toyLower [.str "a", .str "b", .str "b"])
    (schemaOf toyLower [.str "b", .str "a", .str "B"]) true = .error .valueError := by decide +kernel
-- an additional column is refused
example : getMapping toyLower (schemaOf toyLower [.str "a"]) (schemaOf toyLower [.str "a", .str "b"]) false
    = .error .valueError := by decide +kernel

end Verif.Schema
