import Verif.Lemmas.Json

/-!
# C45: flattening JSON keeps every value

`_find_data`, `_coalesce_dicts` and `_get_data_as_flattened_dataframe` (dataprofiler/data_readers/json_data.py:115-238).
Values are never lost, whatever the document (`C45_values`, `C45_coalesce`).  Their names are the joined key paths if the keys
are not empty and do not end like the separator (`C45_names_partial`); other keys can lose characters (`C45_names_fails`).  Rows
of the result need not be records of the document (`C45_rows_fails`).
-/

namespace Verif.Props.Json

open Verif Verif.Json Verif.Spec.Json

variable {A V : Type}

theorem values_map (k : Key) (ls : List (List Key × J A)) : (ls.map fun l => (k :: l.1, l.2)).map (·.2) = ls.map (·.2) := by
  simp [Function.comp_def]

mutual
theorem find_values (sep path : Key) : (j : J A) → (find sep path j).map (·.2) = (leaves j).map (·.2)
  | .val a => by simp [find, leaves]
  | .obj fields => by rw [find, leaves]; exact findFields_values sep _ fields
  | .list xs => by
    rw [find, leaves, isObj_eq]
    split_ifs
    · exact findAll_values sep _ xs
    · simp

theorem findFields_values (sep path : Key) : (fields : List (Key × J A)) →
    (findFields sep path fields).map (·.2) = (fieldLeaves fields).map (·.2)
  | [] => by simp [findFields, fieldLeaves]
  | (k, j) :: rest => by
    rw [findFields, fieldLeaves, List.map_append, List.map_append, findFields_values sep path rest, values_map]
    congr 1
    have h := find_values sep (path ++ k) j
    cases j with
    | val a => simp [J.isVal, leaves]
    | list xs => simpa [J.isVal] using h
    | obj fs => simpa [J.isVal] using h

theorem findAll_values (sep path : Key) : (xs : List (J A)) →
    (findAll sep path xs).map (·.2) = (allLeaves xs).map (·.2)
  | [] => by simp [findAll, allLeaves]
  | j :: rest => by
    rw [findAll, allLeaves, List.map_append, List.map_append, find_values sep path j, findAll_values sep path rest]
end

/-- **C45**: the values found are those of the leaves, in order, for every document, separator and starting path. -/
theorem C45_values (sep path : Key) (j : J A) : (find sep path j).map (·.2) = (leaves j).map (·.2) :=
  find_values sep path j

/-- **C45** (partial): with usual keys, each leaf is found under its key path.  Missing: empty keys and keys ending like the
separator, see `C45_names_fails`. -/
theorem C45_names_partial (sep : Key) (hs : sep ≠ []) (j : J A) (h : UsualKeys sep j) :
    find sep [] j = (leaves j).map fun l => (joined sep l.1, l.2) :=
  find_columns hs j h

/-- A document with nested objects, a list of objects and a list of numbers. -/
def doc : J ℕ :=
  .obj [("id".toList, .val 7),
    ("items".toList, .list [.obj [("n".toList, .val 1), ("tags".toList, .list [.val 2, .val 3])], .obj [("n".toList, .val 4)]])]

example : UsualKeys ['.'] doc ∧ find ['.'] [] doc =
    [("id".toList, .val 7), ("items.n".toList, .val 1), ("items.tags".toList, .list [.val 2, .val 3]),
      ("items.n".toList, .val 4)] := by
  refine ⟨?_, rfl⟩
  simp [doc, UsualKeys, UsualFields, UsualAll, Usual]

/-- **C45** fails for keys ending with the separator: the leaf below "a." and "b" gets the name of the one below "a" and "b";
and an empty key leaves no trace. -/
theorem C45_names_fails :
    (∃ j : J ℕ, (leaves j).map (·.1) = [[['a', '.'], ['b']], [['a'], ['b']]] ∧
      (find ['.'] [] j).map (·.1) = ["a.b".toList, "a.b".toList]) ∧
    ∃ j : J ℕ, (leaves j).map (·.1) = [[[], ['b']], [['b']]] ∧ (find ['.'] [] j).map (·.1) = [['b'], ['b']] := by
  refine ⟨⟨.obj [(['a', '.'], .obj [(['b'], .val 1)]), (['a'], .obj [(['b'], .val 2)])], rfl, rfl⟩,
    .obj [([], .obj [(['b'], .val 1)]), (['b'], .val 2)], rfl, rfl⟩

/-- **C45**: empty objects and lists leave no trace. -/
theorem C45_empty (sep path : Key) : find sep path (.obj [] : J A) = [] ∧ find sep path (.list [] : J A) = [] := by
  simp [find, findFields, findAll]

/-! ### Rows -/

/-- The state of the rows after some items. -/
structure Rows (items : List (Key × V)) (ds : List (PyDict Key V)) : Prop where
  /-- Every item is in exactly one row. -/
  perm : ds.flatten.Perm items
  /-- No row has a key twice. -/
  wf : ∀ d ∈ ds, PyDict.WF d
  /-- The values of a key, row by row, are those of the items in order. -/
  values : ∀ k, ds.filterMap (fun d => PyDict.get? d k) = valuesOf k items
  /-- The rows having a key are the first ones. -/
  first : ∀ k, ds.Pairwise fun a b => PyDict.has b k = true → PyDict.has a k = true
  /-- No more rows than needed. -/
  fewest : ds.length = 1 ∨ ∃ k, times k items = ds.length

/-- **C45**: coalescing puts every item in exactly one row, overwrites none, keeps the order of each key's values, and uses as
few rows as possible. -/
theorem C45_coalesce (items : List (Key × V)) : Rows items (coalesce items) := by
  induction items using List.reverseRecOn with
  | nil =>
    refine ⟨by simp [coalesce], ?_, ?_, ?_, ?_⟩ <;> simp [coalesce, PyDict.WF, PyDict.keys, valuesOf]
  | append_singleton items item ih =>
    have he : coalesce (items ++ [item]) = place item (coalesce items) := by
      simp [coalesce, List.foldl_append]
    rw [he]
    have hv : ∀ k, (place item (coalesce items)).filterMap (fun d => PyDict.get? d k) = valuesOf k (items ++ [item]) := by
      intro k
      rw [place_values item k _ (ih.first item.1), ih.values k]
      unfold valuesOf
      rw [List.filterMap_append]
      by_cases h : item.1 = k <;> simp [h]
    refine ⟨(place_perm item _).trans (ih.perm.append_right _), place_wf item _ ih.wf, hv,
      fun k => place_prefix item k _ (ih.first k), ?_⟩
    rcases place_length item (coalesce items) with h | ⟨h, ha⟩
    · rcases ih.fewest with h1 | ⟨k, h1⟩
      · exact .inl (h.trans h1)
      · right
        refine ⟨k, Nat.le_antisymm ?_ ?_⟩
        · unfold times
          rw [← hv k]
          exact List.length_filterMap_le _ _
        · rw [h, ← h1]
          unfold times valuesOf
          rw [List.filterMap_append, List.length_append]
          omega
    · right
      refine ⟨item.1, ?_⟩
      have hall : (coalesce items).length = times item.1 items := by
        unfold times
        rw [← ih.values item.1]
        symm
        rw [List.length_filterMap_eq_countP, List.countP_eq_length]
        exact ha
      rw [h, hall]
      unfold times valuesOf
      simp [List.filterMap_append]

example : coalesce [(['a'], 1), (['b'], 2), (['a'], 3), (['c'], 4), (['a'], 5), (['b'], 6)] =
    [[(['a'], 1), (['b'], 2), (['c'], 4)], [(['a'], 3), (['b'], 6)], [(['a'], 5)]] := by decide +kernel

/-- **C45** on a document: all its leaves, each in exactly one cell. -/
theorem C45_cells_partial (sep : Key) (hs : sep ≠ []) (j : J A) (h : UsualKeys sep j) :
    (coalesce (find sep [] j)).flatten.Perm ((leaves j).map fun l => (joined sep l.1, l.2)) := by
  have := (C45_coalesce (find sep [] j)).perm
  rwa [find_columns hs j h] at this ⊢

/-- Rows are not records: in a list of three records of which the second lacks `b`, the `b` of the third is put in the row of
the second. -/
theorem C45_rows_fails : ∃ records : List (J ℕ),
    records = [.obj [(['a'], .val 1), (['b'], .val 10)], .obj [(['a'], .val 2)], .obj [(['a'], .val 3), (['b'], .val 30)]] ∧
    coalesce (find ['.'] [] (.list records)) =
      [[(['a'], .val 1), (['b'], .val 10)], [(['a'], .val 2), (['b'], .val 30)], [(['a'], .val 3)]] :=
  ⟨_, rfl, rfl⟩

/-! ### Documents with a payload -/

theorem fieldLeaves_path : (fields : List (Key × J A)) → ∀ l ∈ fieldLeaves fields, l.1 ≠ []
  | [] => by simp [fieldLeaves]
  | (k, j) :: rest => by
    intro l hl
    rw [fieldLeaves, List.mem_append] at hl
    rcases hl with hl | hl
    · obtain ⟨l', -, rfl⟩ := List.mem_map.mp hl
      simp
    · exact fieldLeaves_path rest l hl

theorem joined_cons (sep k : Key) (ks : List Key) (h : ks ≠ []) : joined sep (k :: ks) = k ++ sep ++ joined sep ks := by
  cases ks with
  | nil => exact absurd rfl h
  | cons a ks => rfl

theorem columns_cons (sep k : Key) (j : J A) (rest : List (Key × J A)) :
    columns sep (.obj ((k, j) :: rest)) = ((leaves j).map fun l => (joined sep (k :: l.1), l.2)) ++ columns sep (.obj rest) := by
  simp [columns, leaves, fieldLeaves, Function.comp_def]

theorem others_columns {sep : Key} (hs : sep ≠ []) (found : Option Key) : (fields : List (Key × J A)) →
    UsualFields sep fields →
    others sep found fields = columns sep (.obj (fields.filter fun f => decide (some f.1 ≠ found)))
  | [], _ => by simp [others, columns, leaves, fieldLeaves]
  | (k, j) :: rest, h => by
    rw [UsualFields] at h
    rw [others, others_columns hs found rest h.2.2]
    by_cases hk : some k = found
    · simp [hk]
    · rw [List.filter_cons_of_pos (by simpa using hk), columns_cons, if_pos hk, find_key hs h.1 j h.2.1]

theorem usual_of_mem {sep : Key} : (fields : List (Key × J A)) → UsualFields sep fields → ∀ f ∈ fields,
    UsualKeys sep f.2
  | [], _ => by simp
  | (k, j) :: rest, h => by
    rw [UsualFields] at h
    intro f hf
    rcases List.mem_cons.mp hf with rfl | hf
    · exact h.2.1
    · exact usual_of_mem rest h.2.2 f hf

theorem mem_payloads {sep : Key} {normalize : J A → Except Err (List (Row A))} {doc : PyDict Key (J A)} {keys : List Key}
    {ps : List (Key × List (Row A))} (h : payloads sep normalize doc keys = .ok ps) (p : Key × List (Row A)) :
    p ∈ ps ↔ p.1 ∈ keys ∧ ∃ j, PyDict.get? doc p.1 = some j ∧ payloadFrame sep normalize p.1 j = .ok p.2 := by
  induction keys generalizing ps with
  | nil => simp only [payloads, Except.ok.injEq] at h; subst h; simp
  | cons key keys ih =>
    rw [payloads] at h
    split at h
    · rename_i hn
      rw [ih h]
      constructor
      · rintro ⟨h1, h2⟩; exact ⟨by simp [h1], h2⟩
      · rintro ⟨h1, j, h2, h3⟩
        rcases List.mem_cons.mp h1 with h1 | h1
        · rw [h1, hn] at h2; exact nomatch h2
        · exact ⟨h1, j, h2, h3⟩
    · rename_i j hj
      split at h
      · exact nomatch h
      · rename_i frame hf
        split at h
        · exact nomatch h
        · rename_i rest hr
          injection h with h
          subst h
          rw [List.mem_cons, ih hr]
          constructor
          · rintro (rfl | ⟨h1, h2⟩)
            · exact ⟨by simp, j, hj, hf⟩
            · exact ⟨by simp [h1], h2⟩
          · rintro ⟨h1, j', h2, h3⟩
            rcases List.mem_cons.mp h1 with h1 | h1
            · left
              rw [h1] at h2 h3
              rw [hj] at h2
              injection h2 with h2
              subst h2
              rw [hf] at h3
              injection h3 with h3
              exact Prod.ext h1 h3.symm
            · exact .inr ⟨h1, j', h2, h3⟩

/-- The first of the longest. -/
theorem largest_some (ps : List (Key × List (Row A))) (n : ℕ) (best : Option (Key × List (Row A)))
    (p : Key × List (Row A)) (h : largest n best ps = some p) :
    (best = some p ∧ ∀ q ∈ ps, q.2.length ≤ n) ∨
      ∃ a b, ps = a ++ p :: b ∧ n < p.2.length ∧ (∀ q ∈ a, q.2.length < p.2.length) ∧ ∀ q ∈ b, q.2.length ≤ p.2.length := by
  induction ps generalizing n best with
  | nil => left; exact ⟨h, by simp⟩
  | cons q ps ih =>
    rw [largest] at h
    split_ifs at h with hq
    · right
      rcases ih _ _ h with ⟨h1, h2⟩ | ⟨a, b, h1, h2, h3, h4⟩
      · injection h1 with h1
        subst h1
        exact ⟨[], ps, rfl, hq, by simp, h2⟩
      · refine ⟨q :: a, b, by simp [h1], by omega, ?_, h4⟩
        intro q' hq'
        rcases List.mem_cons.mp hq' with rfl | hq'
        · exact h2
        · exact h3 q' hq'
    · rcases ih _ _ h with ⟨h1, h2⟩ | ⟨a, b, h1, h2, h3, h4⟩
      · left
        refine ⟨h1, ?_⟩
        intro q' hq'
        rcases List.mem_cons.mp hq' with rfl | hq'
        · omega
        · exact h2 q' hq'
      · right
        refine ⟨q :: a, b, by simp [h1], h2, ?_, h4⟩
        intro q' hq'
        rcases List.mem_cons.mp hq' with rfl | hq'
        · omega
        · exact h3 q' hq'

theorem largest_none (ps : List (Key × List (Row A))) (n : ℕ) (h : largest n none ps = none) :
    ∀ q ∈ ps, q.2.length ≤ n := by
  have some_stays : ∀ (ps : List (Key × List (Row A))) n p, largest n (some p) ps ≠ none := by
    intro ps
    induction ps with
    | nil => intro n p h; exact nomatch h
    | cons q ps ih =>
      intro n p h
      rw [largest] at h
      split_ifs at h
      · exact ih _ _ h
      · exact ih _ _ h
  induction ps with
  | nil => simp
  | cons q ps ih =>
    rw [largest] at h
    split_ifs at h with hq
    · exact absurd h (some_stays _ _ _)
    · intro q' hq'
      rcases List.mem_cons.mp hq' with rfl | hq'
      · omega
      · exact ih h q' hq'

/-- An object as payload: its leaves, named below the payload key. -/
theorem payloadFrame_obj {sep : Key} (hs : sep ≠ []) {normalize : J A → Except Err (List (Row A))} {key : Key}
    {fields : List (Key × J A)} (hu : UsualFields sep fields) {frame : List (Row A)}
    (h : payloadFrame sep normalize key (.obj fields) = .ok frame) :
    frame.flatten.Perm (columns sep (.obj [(key, .obj fields)])) := by
  simp only [payloadFrame, J.isObj, if_true, Except.map, Except.ok.injEq] at h
  subst h
  have h1 : (coalesce (find sep [] (.obj fields))).flatten.Perm (columns sep (.obj fields)) :=
    C45_cells_partial sep hs (.obj fields) (by rw [UsualKeys]; exact hu)
  have h2 : ((coalesce (find sep [] (.obj fields))).map fun row => row.map fun c => (key ++ sep ++ c.1, c.2)).flatten =
      (coalesce (find sep [] (.obj fields))).flatten.map fun c => (key ++ sep ++ c.1, c.2) := by
    rw [List.map_flatten]
  rw [h2]
  refine (h1.map _).trans (List.Perm.of_eq ?_)
  rw [columns_cons]
  simp only [columns, leaves, fieldLeaves, List.map_map, List.map_nil, List.append_nil]
  refine List.map_congr_left fun l hl => ?_
  simp only [Function.comp_apply]
  rw [joined_cons sep key l.1 (fieldLeaves_path fields l hl)]

/-- What is returned for a document: without a payload, data is all its leaves; else data is the payload, the first of the
longest, and metadata is the leaves of the rest. -/
theorem C45_document_partial (sep : Key) (hs : sep ≠ []) (normalize : J A → Except Err (List (Row A))) (keys : List Key)
    (doc : PyDict Key (J A)) (hu : UsualKeys sep (.obj doc)) (data : List (Row A)) (extra : Option (List (Row A)))
    (h : flattened sep normalize keys doc = .ok (data, extra)) :
    ((∀ key ∈ keys, PyDict.get? doc key = none) ∧ extra = none ∧ data.flatten.Perm (columns sep (.obj doc))) ∨
    ∃ key ∈ keys, ∃ j rows, PyDict.get? doc key = some j ∧ extra = some rows ∧
      payloadFrame sep normalize key j = .ok data ∧
      (j.isObj = true → data.flatten.Perm (columns sep (.obj [(key, j)]))) ∧
      (∀ key' ∈ keys, ∀ j' frame, PyDict.get? doc key' = some j' → payloadFrame sep normalize key' j' = .ok frame →
        frame.length ≤ data.length) ∧
      rows.flatten.Perm (columns sep (.obj (if data = [] then doc else doc.filter fun f => decide (f.1 ≠ key)))) := by
  rw [UsualKeys] at hu
  unfold flattened at h
  split at h
  · exact nomatch h
  · rename_i ps hps
    have hm := mem_payloads hps
    have hrows : ∀ found, (coalesce (others sep found doc)).flatten.Perm
        (columns sep (.obj (doc.filter fun f => decide (some f.1 ≠ found)))) := by
      intro found
      rw [← others_columns hs found doc hu]
      exact (C45_coalesce _).perm
    have hobj : ∀ key j, PyDict.get? doc key = some j → payloadFrame sep normalize key j = .ok data →
        j.isObj = true → data.flatten.Perm (columns sep (.obj [(key, j)])) := by
      intro key j hj hf ho
      cases j with
      | val a => exact nomatch ho
      | list xs => exact nomatch ho
      | obj fields =>
        have := usual_of_mem doc hu _ (PyDict.mem_of_get? hj)
        rw [UsualKeys] at this
        exact payloadFrame_obj hs this hf
    dsimp only at h
    cases hb : largest 0 none ps with
    | some p =>
      rw [hb] at h
      simp only [Except.ok.injEq, Prod.mk.injEq] at h
      obtain ⟨h1, h2⟩ := h
      right
      rcases largest_some ps 0 none p hb with ⟨h0, -⟩ | ⟨a, b, h3, h4, h5, h6⟩
      · exact nomatch h0
      · have hp : p ∈ ps := by rw [h3]; simp
        obtain ⟨hk, j, hj, hf⟩ := (hm p).mp hp
        rw [h1] at hf h4 h5 h6
        refine ⟨p.1, hk, j, _, hj, h2.symm, hf, hobj _ _ hj hf, ?_, ?_⟩
        · intro key' hk' j' frame hj' hf'
          have : (key', frame) ∈ ps := (hm _).mpr ⟨hk', j', hj', hf'⟩
          rw [h3, List.mem_append, List.mem_cons] at this
          rcases this with h | h | h
          · exact Nat.le_of_lt (h5 _ h)
          · rw [← h1, ← h]
          · exact h6 _ h
        · have hne : data ≠ [] := by intro h; rw [h] at h4; simp at h4
          rw [if_neg hne]
          simpa using hrows (some p.1)
    | none =>
      rw [hb] at h
      have hz := largest_none ps 0 hb
      cases hl : ps.getLast? with
      | none =>
        rw [hl] at h
        simp only [Except.ok.injEq, Prod.mk.injEq] at h
        left
        have he : ps = [] := List.getLast?_eq_none_iff.mp hl
        subst he
        refine ⟨?_, h.2.symm, ?_⟩
        · clear hobj hrows hm hz hl hb h hu
          induction keys with
          | nil => simp
          | cons key keys ih =>
            rw [payloads] at hps
            split at hps
            · rename_i hn
              intro k hk
              rcases List.mem_cons.mp hk with rfl | hk
              · exact hn
              · exact ih hps k hk
            · split at hps
              · exact nomatch hps
              · split at hps
                · exact nomatch hps
                · exact nomatch hps
        · rw [← h.1]
          have := hrows none
          simpa using this
      | some p =>
        rw [hl] at h
        simp only [Except.ok.injEq, Prod.mk.injEq] at h
        obtain ⟨h1, h2⟩ := h
        right
        have hp : p ∈ ps := List.mem_of_getLast? hl
        obtain ⟨hk, j, hj, hf⟩ := (hm p).mp hp
        have hlen := hz p hp
        rw [h1] at hf hlen
        have hd : data = [] := by simpa using hlen
        refine ⟨p.1, hk, j, _, hj, h2.symm, hf, hobj _ _ hj hf, ?_, ?_⟩
        · intro key' hk' j' frame hj' hf'
          have := hz _ ((hm (key', frame)).mpr ⟨hk', j', hj', hf'⟩)
          simp only at this
          omega
        · rw [if_pos hd]
          have := hrows none
          simpa using this

/-- **C45**: no leaf of a document is lost or doubled between data and metadata, if the payloads are objects. -/
theorem C45_all_cells_partial (sep : Key) (hs : sep ≠ []) (normalize : J A → Except Err (List (Row A))) (keys : List Key)
    (doc : PyDict Key (J A)) (hw : PyDict.WF doc) (hu : UsualKeys sep (.obj doc))
    (hp : ∀ key ∈ keys, ∀ j, PyDict.get? doc key = some j → j.isObj = true) (data : List (Row A))
    (extra : Option (List (Row A))) (h : flattened sep normalize keys doc = .ok (data, extra)) :
    (data.flatten ++ (extra.getD []).flatten).Perm (columns sep (.obj doc)) := by
  rcases C45_document_partial sep hs normalize keys doc hu data extra h with
    ⟨-, h2, h3⟩ | ⟨key, hk, j, rows, hj, h2, hf, h3, -, h4⟩
  · simpa [h2] using h3
  · have ho := hp key hk j hj
    have hne : data ≠ [] := by
      intro h0
      cases j with
      | val a => exact nomatch ho
      | list xs => exact nomatch ho
      | obj fields =>
        simp only [payloadFrame, J.isObj, if_true, Except.map, Except.ok.injEq] at hf
        rw [h0, List.map_eq_nil_iff] at hf
        rcases (C45_coalesce (find sep [] (.obj fields))).fewest with h5 | ⟨k, h5⟩
        · rw [hf] at h5; simp at h5
        · have hi : find sep [] (.obj fields) = [] := by
            have h6 := (C45_coalesce (find sep [] (.obj fields))).perm
            rw [hf] at h6
            simpa using h6
          rw [hi] at hf
          simp [coalesce] at hf
    rw [if_neg hne] at h4
    rw [h2]
    refine ((h3 ho).append h4).trans ?_
    clear h h2 hf h3 h4 hp hne hu ho
    induction doc with
    | nil => simp at hj
    | cons f doc ih =>
      obtain ⟨k, v⟩ := f
      have hw' : k ∉ PyDict.keys doc ∧ PyDict.WF doc := by
        simpa [PyDict.WF, PyDict.keys] using hw
      rw [PyDict.get?_cons] at hj
      by_cases hkk : k = key
      · subst hkk
        rw [if_pos rfl] at hj
        injection hj with hj
        subst hj
        have hfil : (((k, v) :: doc).filter fun f => decide (f.1 ≠ k)) = doc := by
          rw [List.filter_cons_of_neg (by simp), List.filter_eq_self]
          intro f hf
          have : f.1 ∈ PyDict.keys doc := List.mem_map_of_mem hf
          simp only [ne_eq, decide_not, Bool.not_eq_eq_eq_not, Bool.not_true, decide_eq_false_iff_not]
          rintro rfl
          exact hw'.1 this
        rw [hfil, columns_cons, columns_cons sep k v doc]
        simp [columns, leaves, fieldLeaves]
      · rw [if_neg hkk] at hj
        rw [List.filter_cons_of_pos (by simpa using hkk), columns_cons sep k v doc, columns_cons sep k v]
        refine List.Perm.trans ?_ (List.Perm.append_left _ (ih hw'.2 hj))
        rw [← List.append_assoc, ← List.append_assoc]
        exact List.Perm.append_right _ List.perm_append_comm

/-- Two payloads and other keys. -/
def twoPayloads : PyDict Key (J ℕ) :=
  [("data".toList, .obj [(['x'], .val 1)]), ("info".toList, .val 9),
    ("payload".toList, .obj [(['y'], .list [.obj [(['z'], .val 2)], .obj [(['z'], .val 3)]])])]

example : flattened ['.'] (fun _ => .error .valueError) ["data".toList, "payload".toList] twoPayloads =
    .ok ([[("payload.y.z".toList, .val 2)], [("payload.y.z".toList, .val 3)]],
      some [[("data.x".toList, .val 1), ("info".toList, .val 9)]]) := rfl

example : PyDict.WF twoPayloads ∧ UsualKeys ['.'] (.obj twoPayloads) ∧
    ∀ key ∈ ["data".toList, "payload".toList], ∀ j, PyDict.get? twoPayloads key = some j → j.isObj = true := by
  refine ⟨by simp [twoPayloads, PyDict.WF, PyDict.keys], by simp [twoPayloads, UsualKeys, UsualFields, UsualAll, Usual], ?_⟩
  intro key hk j hj
  simp only [List.mem_cons, List.not_mem_nil, or_false] at hk
  rcases hk with rfl | rfl
  · injection hj with hj; subst hj; rfl
  · injection hj with hj; subst hj; rfl

/-- A scalar under a payload key, which pandas does not accept, makes reading the document raise. -/
theorem C45_scalar_payload (sep key : Key) (normalize : J A → Except Err (List (Row A))) (e : Err) (a : A)
    (hn : normalize (.val a) = .error e) (rest : List Key) (doc : PyDict Key (J A))
    (h : PyDict.get? doc key = some (.val a)) : flattened sep normalize (key :: rest) doc = .error e := by
  simp [flattened, payloads, h, payloadFrame, J.isObj, hn, Except.map]

end Verif.Props.Json
