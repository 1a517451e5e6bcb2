import Verif.Lemmas.Prepare
import Verif.Lemmas.PyDict

/-!
# C54: omitting keys from a report
-/

namespace Verif.PrepareProps

open Verif Flat Prepare PrepareSpec

variable {V : Type} {fmt : V → V} {colName : List (Key × Rep V) → List Char}

/-- The prepared report consists of exactly the positions of the report that no pattern covers, with their contents formatted
and in their order. -/
theorem C54_omit {report out : List (Key × Rep V)} {pats : List (List Char)} (hp : Proper colName report)
    (h : (prepare fmt colName false report pats).1 = .ok out) :
    (entries colName out).map (fun e => (e.path, e.content)) =
      ((entries colName report).filter fun e => !covered pats e.names).map fun e => (e.path, shown fmt e.content) :=
  items_spec report pats out hp h

/-- Preparing succeeds unless a pattern ends with two asterisks. -/
theorem C54_succeeds {report : List (Key × Rep V)} {pats : List (List Char)} (hp : Proper colName report)
    (h : ∀ o ∈ pats, ¬['*', '.', '*'] <:+ o) : ∃ out, (prepare fmt colName false report pats).1 = .ok out :=
  items_ok report pats hp h

/-- Without patterns nothing is lost. -/
theorem C54_nothing_omitted {report : List (Key × Rep V)} (hp : Proper colName report) :
    ∃ out, (prepare fmt colName false report []).1 = .ok out ∧
      (entries colName out).map (fun e => (e.path, e.content)) =
        (entries colName report).map fun e => (e.path, shown fmt e.content) := by
  obtain ⟨out, ho⟩ := C54_succeeds (fmt := fmt) (pats := []) hp (fun _ h => nomatch h)
  refine ⟨out, ho, ?_⟩
  rw [C54_omit hp ho]
  congr 1
  rw [List.filter_eq_self]
  intro e _
  rfl

/-- An omitted column leaves a gap, so the others keep their positions. -/
theorem C54_columns {pats : List (List Char)} {cs out : List (Rep V)} (h : columns fmt colName pats cs = .ok out) :
    out.length = cs.length := columns_length h

/-- The compact format is the same as omitting five statistics of every column. -/
theorem C54_compact (report : List (Key × Rep V)) (pats : List (List Char)) :
    (prepare fmt colName true report pats).1 = (prepare fmt colName false report (pats ++ compactKeys)).1 := rfl

/-- The five statistics. -/
theorem C54_compact_covers (col stat : List Char) (names : List (Option (List Char)))
    (hs : stat ∈ ["times".toList, "avg_predictions".toList, "data_label_representation".toList, "null_types_index".toList,
      "histogram".toList]) :
    covered compactKeys (some "data_stats".toList :: some col :: some "statistics".toList :: some stat :: names) = true := by
  have key : ∀ o ∈ compactKeys, ∀ s, segments o = ["data_stats".toList, ['*'], "statistics".toList, s] →
      covers (segments o) (some "data_stats".toList :: some col :: some "statistics".toList :: some s :: names) = true := by
    intro o _ s e
    rw [e]
    simp [covers, fits]
  unfold covered
  rw [List.any_eq_true]
  simp only [List.mem_cons, List.not_mem_nil, or_false] at hs
  rcases hs with rfl | rfl | rfl | rfl | rfl
  · exact ⟨"data_stats.*.statistics.times".toList, by decide +kernel, key _ (by decide +kernel) _ (by decide +kernel)⟩
  · exact ⟨"data_stats.*.statistics.avg_predictions".toList, by decide +kernel,
      key _ (by decide +kernel) _ (by decide +kernel)⟩
  · exact ⟨"data_stats.*.statistics.data_label_representation".toList, by decide +kernel,
      key _ (by decide +kernel) _ (by decide +kernel)⟩
  · exact ⟨"data_stats.*.statistics.null_types_index".toList, by decide +kernel,
      key _ (by decide +kernel) _ (by decide +kernel)⟩
  · exact ⟨"data_stats.*.statistics.histogram".toList, by decide +kernel, key _ (by decide +kernel) _ (by decide +kernel)⟩

/-- Nothing else is covered by the five patterns. -/
theorem C54_compact_only (names : List (Option (List Char))) (h : covered compactKeys names = true) :
    ∃ col stat rest, names = some "data_stats".toList :: col :: some "statistics".toList :: some stat :: rest ∧
      stat ∈ ["times".toList, "avg_predictions".toList, "data_label_representation".toList, "null_types_index".toList,
        "histogram".toList] := by
  unfold covered at h
  rw [List.any_eq_true] at h
  obtain ⟨o, ho, hc⟩ := h
  have key : ∀ s : List Char, s ≠ ['*'] → segments o = ["data_stats".toList, ['*'], "statistics".toList, s] →
      ∃ col rest, names = some "data_stats".toList :: col :: some "statistics".toList :: some s :: rest := by
    intro s hs e
    rw [e] at hc
    rcases names with _ | ⟨a, _ | ⟨b, _ | ⟨c, _ | ⟨d, rest⟩⟩⟩⟩ <;> simp only [covers, Bool.and_eq_true, Bool.and_false,
      Bool.false_eq_true] at hc
    obtain ⟨h1, _, h3, h4, _⟩ := hc
    rw [fits_iff] at h1 h3 h4
    refine ⟨b, rest, ?_⟩
    rw [h1.resolve_left (by decide +kernel), h3.resolve_left (by decide +kernel), h4.resolve_left hs]
  simp only [compactKeys, List.mem_cons, List.not_mem_nil, or_false] at ho
  rcases ho with rfl | rfl | rfl | rfl | rfl
  · obtain ⟨c, r, e⟩ := key "times".toList (by decide +kernel) (by decide +kernel)
    exact ⟨c, _, r, e, by decide +kernel⟩
  · obtain ⟨c, r, e⟩ := key "avg_predictions".toList (by decide +kernel) (by decide +kernel)
    exact ⟨c, _, r, e, by decide +kernel⟩
  · obtain ⟨c, r, e⟩ := key "data_label_representation".toList (by decide +kernel) (by decide +kernel)
    exact ⟨c, _, r, e, by decide +kernel⟩
  · obtain ⟨c, r, e⟩ := key "null_types_index".toList (by decide +kernel) (by decide +kernel)
    exact ⟨c, _, r, e, by decide +kernel⟩
  · obtain ⟨c, r, e⟩ := key "histogram".toList (by decide +kernel) (by decide +kernel)
    exact ⟨c, _, r, e, by decide +kernel⟩

/-! ### The schema -/

/-- What a column is called in a report: numbers are whole numbers, and what JSON cannot have as a key is its text. -/
inductive Called : Name → Name → Prop where
  | str : Called (.str s) (.str s)
  | int : Called (.int i) (.int i)
  | plain : Called (.plain n) (.plain n)
  | int64 : Called (.int64 i) (.int i)
  | other : Called (.other n text) (.str text)

theorem called_iff (a b : Name) : Called a b ↔ cleanName a = b := by
  constructor
  · rintro ⟨⟩ <;> rfl
  · rintro rfl
    cases a <;> constructor

private theorem foldl_set (l : List (Name × V)) (d : List (Name × V)) (hn : ((d ++ l).map Prod.fst).Nodup) :
    l.foldl (fun d kv => PyDict.set d kv.1 kv.2) d = d ++ l := by
  induction l generalizing d with
  | nil => simp
  | cons kv l ih =>
    have h : kv.1 ∉ PyDict.keys d := by
      rw [List.map_append, List.nodup_append] at hn
      intro h
      exact hn.2.2 kv.1 h kv.1 (by simp) rfl
    rw [List.foldl_cons, PyDict.set_of_not_mem h, ih]
    · simp
    · simpa using hn

/-- C54: when no two columns are called the same, the schema has the positions of every column under what it is called, in
order. -/
theorem C54_schema_partial (schema : List (Name × V)) (called : List Name)
    (hc : List.Forall₂ Called (schema.map Prod.fst) called) (hn : called.Nodup) :
    cleanSchema schema = called.zip (schema.map Prod.snd) := by
  have he : called = schema.map fun kv => cleanName kv.1 := by
    clear hn
    induction schema generalizing called with
    | nil => cases hc; rfl
    | cons kv schema ih =>
      cases hc with
      | cons h hc => rw [List.map_cons, ih _ hc, (called_iff _ _).1 h]
  subst he
  unfold cleanSchema
  rw [foldl_set _ [] (by rw [List.nil_append, List.map_map]; exact hn), List.nil_append]
  clear hn hc
  induction schema with
  | nil => rfl
  | cons kv schema ih => simp [ih]

example : cleanSchema [(.str "a".toList, [0]), (.int64 3, [1, 2]), (.other 0 "(1, 2)".toList, [3])] =
    [(.str "a".toList, [0]), (.int 3, [1, 2]), (.str "(1, 2)".toList, [3])] := by decide +kernel

/-- C54: every key of the schema is of a type JSON has. -/
theorem C54_schema_keys (schema : List (Name × V)) : ∀ kv ∈ cleanSchema schema,
    (∀ i, kv.1 ≠ .int64 i) ∧ ∀ n text, kv.1 ≠ .other n text := by
  have key : ∀ (l d : List (Name × V)), (∀ kv ∈ d, (∀ i, kv.1 ≠ .int64 i) ∧ ∀ n text, kv.1 ≠ .other n text) →
      ∀ kv ∈ (l.map fun kv => (cleanName kv.1, kv.2)).foldl (fun d kv => PyDict.set d kv.1 kv.2) d,
        (∀ i, kv.1 ≠ .int64 i) ∧ ∀ n text, kv.1 ≠ .other n text := by
    intro l
    induction l with
    | nil => intro d h; exact h
    | cons kv l ih =>
      intro d h
      rw [List.map_cons, List.foldl_cons]
      apply ih
      intro kw hkw
      have : ∀ d : List (Name × V), kw ∈ PyDict.set d (cleanName kv.1) kv.2 → kw ∈ d ∨ kw.1 = cleanName kv.1 := by
        intro d
        induction d with
        | nil => intro h; simp [PyDict.set] at h; exact Or.inr (by rw [h])
        | cons p d ih' =>
          obtain ⟨a, b⟩ := p
          intro h
          simp only [PyDict.set] at h
          split_ifs at h
          · rcases List.mem_cons.1 h with h | h
            · exact Or.inr (by rw [h])
            · exact Or.inl (List.mem_cons_of_mem _ h)
          · rcases List.mem_cons.1 h with h | h
            · exact Or.inl (by simp [h])
            · exact (ih' h).imp (List.mem_cons_of_mem _) id
      rcases this d hkw with h' | h'
      · exact h kw h'
      · rw [h']
        cases kv.1 <;> simp [cleanName]
  exact key schema [] (fun _ h => nomatch h)

/-- C54 fails for columns called the same: of a column named by a tuple and one named by its text, the first is lost. -/
theorem C54_schema_fails : cleanSchema [(.other 0 "(1, 2)".toList, [0]), (.str "b".toList, [1]), (.str "(1, 2)".toList, [2])] =
    [(.str "(1, 2)".toList, [2]), (.str "b".toList, [1])] := by decide +kernel

section Examples

private def k (s : String) : Key := .str s.toList

/-- The name of a column of the examples: its first value. -/
private def firstName (is : List (Key × Rep (List Char))) : List Char :=
  match is with
  | (_, .leaf s) :: _ => s
  | _ => []

/-- A report with two columns. -/
private def sample : List (Key × Rep (List Char)) :=
  [(k "global_stats", .node [(k "rows", .leaf "3".toList), (k "times", .leaf "0.1".toList)]),
    (k "data_stats", .cols [.node [(k "column_name", .leaf "a".toList), (k "statistics", .node [(k "times", .leaf "t".toList),
      (k "sum", .leaf "6".toList)])], .node [(k "column_name", .leaf "b".toList)]])]

private theorem sample_proper : Proper firstName sample := by
  simp only [sample, Proper, ProperValue, ProperCols, ProperCol, Addressable, k, firstName]
  decide +kernel

/-- Times and the second column omitted. -/
example : ∃ out, (prepare id firstName false sample ["*.times".toList, "data_stats.b".toList, "*.*.statistics.times".toList]).1 =
    .ok out ∧ (entries firstName out).map (fun e => e.path) =
      [[.key (k "global_stats")], [.key (k "global_stats"), .key (k "rows")], [.key (k "data_stats")],
        [.key (k "data_stats"), .col 0], [.key (k "data_stats"), .col 0, .key (k "column_name")],
        [.key (k "data_stats"), .col 0, .key (k "statistics")],
        [.key (k "data_stats"), .col 0, .key (k "statistics"), .key (k "sum")]] := by
  obtain ⟨out, ho⟩ := C54_succeeds (fmt := id) (pats := ["*.times".toList, "data_stats.b".toList,
    "*.*.statistics.times".toList]) sample_proper (by decide +kernel)
  refine ⟨out, ho, ?_⟩
  have h := congrArg (List.map Prod.fst) (C54_omit sample_proper ho)
  rw [List.map_map, List.map_map] at h
  refine Eq.trans h ?_
  decide +kernel

private theorem error_of_map {α β : Type} {x : Except Err α} {f : α → β} {e : Err} (h : x.map f = .error e) : x = .error e := by
  cases x with
  | error e' => rw [Except.error.inj h]
  | ok a => exact nomatch h

/-- The pattern `*.*` raises an error as soon as there is a column. -/
theorem C54_wildcards_fails : ∃ (report : List (Key × Rep (List Char))) (colName : _ → List Char), Proper colName report ∧
    (prepare id colName false report ["*.*".toList]).1 = .error .indexError :=
  ⟨sample, firstName, sample_proper, error_of_map (f := List.length) (by decide +kernel)⟩

/-- After a compact report, the list of omitted keys held by the caller has grown: the next report prepared with it lacks
statistics nobody asked to omit. -/
theorem C54_compact_mutates_fails : ∃ (report : List (Key × Rep (List Char))) (colName : _ → List Char), Proper colName report ∧
    (prepare id colName true report []).2 = compactKeys ∧
    ((prepare id colName false report compactKeys).1.map fun out => (entries colName out).length) = .ok 10 ∧
    ((prepare id colName false report []).1.map fun out => (entries colName out).length) = .ok 11 :=
  ⟨sample, firstName, sample_proper, by decide +kernel, by decide +kernel, by decide +kernel⟩

end Examples

end Verif.PrepareProps
