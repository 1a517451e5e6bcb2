import Verif.Lemmas.Snapshot

/-!
# C108: reports are snapshots of the profile

Changing a report should not change the profile, and later updates of the profile should not change the report: no mutable
object should be in both. This holds for pretty and compact reports. Without a format the lists and arrays, and with
`serializable` the lists, are those of the profile (`C108_plain_shares`, `C108_serializable_shares`, `C108_fails`).
-/

namespace Verif.Props.Snapshot

open Verif.Snapshot Verif.Spec.Snapshot Verif.Lemmas.Snapshot

variable {α : Type}

/-- The report of a profile with one column: times at 1, correlations at 2, samples at 3, null types at 4, the rows of null
types at 5 with a set at 6; the schema is made for the report. -/
def sample : List (String × R String) :=
  [("global_stats", .dict none [("times", .dict (some 1) [("row_stats", .scalar "0.25")]),
      ("correlation_matrix", .seq (some 2) .array [.seq (some 7) .array [.scalar "1.0"]]),
      ("profile_schema", .dict none [("age", .seq none .list [.scalar "0"])])]),
   ("data_stats", .seq none .list [.dict none [("samples", .seq (some 3) .list [.scalar "'31'", .scalar "'47'"]),
      ("statistics", .dict none [("null_types", .seq (some 4) .list [.scalar "nan"]),
        ("null_types_index", .dict (some 5) [("nan", .seq (some 6) .set [.scalar "8", .scalar "2"])])])]])]

/-- Sorting turns two items around, the text is a fixed one. -/
def lib : Lib String := { text := fun _ => "[...]", round := id, sorted := List.reverse, clean := id }

theorem lib_sorted (xs : List (R String)) (v : R String) (h : v ∈ lib.sorted xs) : v ∈ xs := List.mem_reverse.1 h

theorem sample_wf : WF (.dict none sample) := by
  have hstr : ∀ s : String, WF (.scalar s) := fun s => .scalar s
  have hleaf : ∀ (a : Option Nat) (k : Kind) (xs : List String), WF (.seq a k (xs.map .scalar)) := by
    intro a k xs
    refine .seq _ _ _ ?_ ?_ ?_ <;> simp only [List.mem_map]
    · rintro v ⟨s, _, rfl⟩; exact hstr s
    · rintro _ v ⟨s, _, rfl⟩; exact ⟨s, rfl⟩
    · rintro _ v ⟨s, _, rfl⟩; exact .inl ⟨s, rfl⟩
  have hnest : WF (.seq (some 2) .array [.seq (some 7) .array [.scalar "1.0"]]) := by
    refine .seq _ _ _ ?_ (by simp) ?_ <;> simp
    exact hleaf (some 7) .array ["1.0"]
  refine .dict _ _ ?_ ?_
  · simp only [sample, List.mem_cons, Prod.mk.injEq, List.not_mem_nil, or_false]
    rintro k v (⟨rfl, rfl⟩ | ⟨rfl, rfl⟩)
    · refine .dict _ _ ?_ (by simp)
      simp only [List.mem_cons, Prod.mk.injEq, List.not_mem_nil, or_false]
      rintro k v (⟨rfl, rfl⟩ | ⟨rfl, rfl⟩ | ⟨rfl, rfl⟩)
      · exact .dict _ _ (by simp [hstr]) (by simp)
      · exact hnest
      · exact .dict _ _ (by simpa using hleaf none .list ["0"]) (by simp)
    · refine .seq _ _ _ ?_ (by simp) (by simp)
      simp only [List.mem_cons, List.not_mem_nil, or_false, forall_eq]
      refine .dict _ _ ?_ (by simp)
      simp only [List.mem_cons, Prod.mk.injEq, List.not_mem_nil, or_false]
      rintro k v (⟨rfl, rfl⟩ | ⟨rfl, rfl⟩)
      · exact hleaf (some 3) .list ["'31'", "'47'"]
      · refine .dict _ _ ?_ (by simp)
        simp only [List.mem_cons, Prod.mk.injEq, List.not_mem_nil, or_false]
        rintro k v (⟨rfl, rfl⟩ | ⟨rfl, rfl⟩)
        · exact hleaf (some 4) .list ["nan"]
        · exact .dict _ _ (by simpa using hleaf (some 6) .set ["8", "2"]) (by simp)
  · simp only [sample, List.mem_cons, Prod.mk.injEq, List.not_mem_nil, or_false]
    rintro b kind xs (⟨h, _⟩ | ⟨_, h⟩)
    · simp at h
    · cases h; simp

theorem not_all_dicts {xs : List (R α)} (h : xs.all isDict = false) : ∃ x ∈ xs, ∀ b ds, x ≠ .dict b ds := by
  obtain ⟨x, hx, hd⟩ := List.all_eq_false.1 h
  exact ⟨x, hx, fun b ds e => hd (by rw [e, isDict])⟩

/-- **C108.** A pretty report shares nothing with what it was made of but what is in the schema. -/
theorem C108_pretty (lib : Lib α) (hs : ∀ xs v, v ∈ lib.sorted xs → v ∈ xs) (a : Option Nat) (items : List (String × R α))
    (hw : WF (.dict a items)) (i : Nat) (h : Reach i (prepare lib .pretty items)) :
    Via (fun _ _ => False) i (.dict a items) :=
  prepare_via hs (by simp) (by simp) hw h

/-- **C108.** Serializable: but what is in the schema or in a list that holds something else than dictionaries. -/
theorem C108_serializable_partial (lib : Lib α) (hs : ∀ xs v, v ∈ lib.sorted xs → v ∈ xs) (a : Option Nat)
    (items : List (String × R α)) (hw : WF (.dict a items)) (i : Nat) (h : Reach i (prepare lib .serializable items)) :
    Via (fun k xs => k = .list ∧ ∃ x ∈ xs, ∀ b ds, x ≠ .dict b ds) i (.dict a items) :=
  prepare_via hs (by simp) (fun _ xs h => ⟨rfl, not_all_dicts h⟩) hw h

/-- **C108.** No format: but what is in the schema or in a list or array; in particular no dictionary and no set of the profile
is handed out. -/
theorem C108_plain_partial (lib : Lib α) (hs : ∀ xs v, v ∈ lib.sorted xs → v ∈ xs) (a : Option Nat)
    (items : List (String × R α)) (hw : WF (.dict a items)) (i : Nat) (h : Reach i (prepare lib .plain items)) :
    Via (fun k _ => k = .list ∨ k = .array) i (.dict a items) :=
  prepare_via hs (fun _ k _ hk => by cases k <;> simp at hk ⊢) (by simp) hw h

/-- **C108.** Whatever happens in place to an object that is not in the schema, a list or an array, as to the dictionary of times or
the sets of rows when the profile is updated, reports of any format stay as they are. -/
theorem C108_later (lib : Lib α) (hs : ∀ xs v, v ∈ lib.sorted xs → v ∈ xs) (fmt : Fmt) (a : Option Nat)
    (items : List (String × R α)) (hw : WF (.dict a items)) (i : Nat)
    (hn : ¬ Via (fun k _ => k = .list ∨ k = .array) i (.dict a items)) (ds : List (String × R α)) (xs : List (R α)) :
    poke i ds xs (prepare lib fmt items) = prepare lib fmt items :=
  poke_same _ fun h => hn (prepare_via hs (fun _ k _ hk => by cases k <;> simp at hk ⊢) (by simp) hw h)

/-- **C108.** With no format each list and array found through dictionaries and columns is the object of the profile. -/
theorem C108_plain_shares (lib : Lib α) (items : List (String × R α)) (k : String) (i : Nat) (kind : Kind) (xs : List (R α))
    (hk : k ≠ "data_stats") (hkind : kind ≠ .set) (h : Entry k (.seq (some i) kind xs) items) :
    Reach i (prepare lib .plain items) := by
  refine entry_reach ?_ h
  rw [prepareValue]
  simp [hk, hkind, schema]
  exact .seq _ _

/-- **C108.** `serializable` shares the lists that hold something else than dictionaries. -/
theorem C108_serializable_shares (lib : Lib α) (items : List (String × R α)) (k : String) (i : Nat) (xs : List (R α))
    (hk : k ≠ "data_stats") (hk' : k ≠ "profile_schema") (x : R α) (hx : x ∈ xs) (hd : ∀ a ds, x ≠ .dict a ds)
    (h : Entry k (.seq (some i) .list xs) items) : Reach i (prepare lib .serializable items) := by
  refine entry_reach ?_ h
  have : xs.all isDict = false := by
    rw [List.all_eq_false]
    refine ⟨x, hx, ?_⟩
    cases x with
    | dict a ds => exact absurd rfl (hd a ds)
    | scalar _ => simp [isDict]
    | seq _ _ _ => simp [isDict]
  rw [prepareValue]
  simp [hk, hk', this]
  exact .seq _ _

/-- The samples and the null types are found. -/
theorem sample_entry : Entry "samples" (.seq (some 3) .list [.scalar "'31'", .scalar "'47'"]) sample :=
  .column _ none _ none _ (List.mem_cons_of_mem _ (List.mem_cons_self ..)) (List.mem_cons_self ..)
    (.here _ (List.mem_cons_self ..))

/-- **C108, failing.** Emptying the samples of a report that was made without a format, or as `serializable`, empties those of the
profile. -/
theorem C108_fails : Reach 3 (prepare lib .plain sample) ∧ Reach 3 (prepare lib .serializable sample) :=
  ⟨C108_plain_shares lib sample _ 3 .list _ (by decide) (by decide) sample_entry,
    C108_serializable_shares lib sample _ 3 _ (by decide) (by decide) (.scalar "'31'") (by simp) (by simp) sample_entry⟩

/-- The pretty report of the sample shares nothing at all. -/
example (i : Nat) : ¬ Reach i (prepare lib .pretty sample) := by
  intro h
  have h := C108_pretty lib lib_sorted none sample sample_wf i h
  simp [sample, Held, via_dict_iff, via_seq_iff, via_scalar_iff, reach_dict_iff, reach_seq_iff, reach_scalar_iff] at h

/-- A serializable report of the sample shares the samples and the null types only. -/
example (i : Nat) (h : Reach i (prepare lib .serializable sample)) : i = 3 ∨ i = 4 := by
  have h := C108_serializable_partial lib lib_sorted none sample sample_wf i h
  simp [sample, Held, via_dict_iff, via_seq_iff, via_scalar_iff, reach_dict_iff, reach_seq_iff, reach_scalar_iff] at h
  grind

/-- A report without a format shares these and the two arrays of correlations. -/
example (i : Nat) (h : Reach i (prepare lib .plain sample)) : i = 2 ∨ i = 7 ∨ i = 3 ∨ i = 4 := by
  have h := C108_plain_partial lib lib_sorted none sample sample_wf i h
  simp [sample, Held, via_dict_iff, via_seq_iff, via_scalar_iff, reach_dict_iff, reach_seq_iff, reach_scalar_iff] at h
  grind

/-- Updating the set of rows (6), their dictionary (5) or the times (1) in place leaves every report as it is. -/
example (fmt : Fmt) (i : Nat) (hi : i = 1 ∨ i = 5 ∨ i = 6) (ds : List (String × R String)) (xs : List (R String)) :
    poke i ds xs (prepare lib fmt sample) = prepare lib fmt sample :=
  C108_later lib lib_sorted fmt none sample sample_wf i (by
    rcases hi with rfl | rfl | rfl <;>
    simp [sample, Held, via_dict_iff, via_seq_iff, via_scalar_iff, reach_dict_iff, reach_seq_iff, reach_scalar_iff]) ds xs

/-- The set of rows is made a new, sorted list without a format. -/
example : prepareValue lib .plain "nan" (.seq (some 6) .set [.scalar "8", .scalar "2"]) =
    .seq none .list [.scalar "2", .scalar "8"] := by
  rw [prepareValue]; simp [lib]

/-- Changing the set of rows in place is seen in what the profile holds and not in the report. -/
example : poke 6 [] [.scalar "9"] (.seq (some 6) .set [.scalar "8"] : R String) = .seq (some 6) .set [.scalar "9"] := by
  rw [poke]; simp

end Verif.Props.Snapshot
