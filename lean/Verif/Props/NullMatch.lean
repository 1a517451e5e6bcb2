import Mathlib.Data.List.NodupEquivFin
import Verif.Lemmas.NullMatch
import Verif.Props.Nulls
import Verif.Props.Schema
import Verif.Props.TablePool

/-!
# C99: which cells are null
-/

namespace Verif.Props.NullMatch

open Verif Verif.NullMatch Verif.Spec.NullMatch

variable (re : Re)

/-- **Null values are regular expressions**: a cell is null exactly if it fits one of the null values, upper and lower case
being the same, or does so but for a line end. -/
theorem C99_pattern (d : NullValues) (hd : d ≠ []) (hs : ∀ k ∈ PyDict.keys d, Simple k.toList) :
    ∃ p, test re d = .ok p ∧ ∀ cell : String, p cell = true ↔
      ∃ k ∈ PyDict.keys d, ∃ u, Holds cell.toList u ∧ Fits (fun x c => re.same x c = true) k.toList u := by
  have h1 : parseAll ((query d).splitOn '|') = .ok (((PyDict.keys d).map String.toList).map itemsOf) := by
    rw [query_split hd fun k hk => NullMatch.Simple.no_bar (hs k hk)]
    apply parseAll_simple
    intro l hl
    obtain ⟨k, hk, rfl⟩ := List.mem_map.1 hl
    exact hs k hk
  refine ⟨_, by rw [test, h1], fun cell => ?_⟩
  simp only [List.any_eq_true, List.mem_map, exists_exists_and_eq_and]
  constructor
  · rintro ⟨k, hk, h⟩
    exact ⟨k, hk, (seqMatch_iff (hs k hk) re.same _).1 h⟩
  · rintro ⟨k, hk, h⟩
    exact ⟨k, hk, (seqMatch_iff (hs k hk) re.same _).2 h⟩

/-- **Words**: null values without special characters make exactly the cells null that are equal to one of them up to case,
or are so but for a line end. -/
theorem C99_words (d : NullValues) (hd : d ≠ []) (hs : ∀ k ∈ PyDict.keys d, ∀ c ∈ k.toList, Plain c ∧ c ≠ '.') :
    ∃ p, test re d = .ok p ∧ ∀ cell : String, p cell = true ↔
      ∃ k ∈ PyDict.keys d, ∃ u, Holds cell.toList u ∧ List.Forall₂ (fun x c => re.same x c = true) k.toList u := by
  obtain ⟨p, h1, h2⟩ := C99_pattern re d hd fun k hk => simple_word fun c hc => (hs k hk c hc).1
  refine ⟨p, h1, fun cell => ?_⟩
  rw [h2]
  constructor
  · rintro ⟨k, hk, u, hu, hf⟩
    exact ⟨k, hk, u, hu, (fits_word (hs k hk) u).1 hf⟩
  · rintro ⟨k, hk, u, hu, hf⟩
    exact ⟨k, hk, u, hu, (fits_word (hs k hk) u).2 hf⟩

theorem defaults_simple : ∀ k ∈ PyDict.keys defaults, Simple k.toList := by
  have hw : ∀ k ∈ ["", "nan", "none", "null"], ∀ c ∈ k.toList, Plain c := by decide +kernel
  have hr : ∀ c ∈ [' ', '-', '_'], Plain c := by decide +kernel
  intro k hk
  simp only [defaults, PyDict.keys, List.map_cons, List.map_nil, List.mem_cons, List.not_mem_nil, or_false] at hk
  rcases hk with rfl | rfl | rfl | rfl | rfl | rfl | rfl
  · exact simple_word (hw _ (by simp))
  · exact simple_word (hw _ (by simp))
  · exact simple_word (hw _ (by simp))
  · exact simple_word (hw _ (by simp))
  · exact .one ' ' _ (hr _ (by simp)) (.rep ' ' '*' [] (hr _ (by simp)) (Or.inl rfl) .nil)
  · exact .one '-' _ (hr _ (by simp)) (.rep '-' '*' [] (hr _ (by simp)) (Or.inl rfl) .nil)
  · exact .one '_' _ (hr _ (by simp)) (.rep '_' '*' [] (hr _ (by simp)) (Or.inl rfl) .nil)

theorem forall₂_lower {same : Char → Char → Bool} {chars : List Char} (hf : Folds same chars) (k u : List Char)
    (hk : ∀ c ∈ k, c ∈ chars) : List.Forall₂ (fun x c => same x c = true) k u ↔ u.map Char.toLower = k := by
  induction k generalizing u with
  | nil => cases u <;> simp
  | cons x k ih =>
    cases u with
    | nil => simp
    | cons c u => simp [hf x (hk x (by simp)) c, ih u fun y hy => hk y (by simp [hy])]

theorem lower_eq {p : Char} (hp : p ∈ [' ', '-', '_']) (c : Char) : c.toLower = p ↔ c = p := by
  have hv : c.toLower = p → c = p := by
    intro h
    unfold Char.toLower at h
    split_ifs at h with hc
    · exfalso
      have h2 := congrArg Char.toNat h
      simp only [List.mem_cons, List.not_mem_nil, or_false] at hp
      have hn : (65 : Nat) ≤ c.val.toNat ∧ c.val.toNat ≤ 90 := by
        obtain ⟨h3, h4⟩ := hc
        exact ⟨by simpa [UInt32.le_iff_toNat_le] using h3, by simpa [UInt32.le_iff_toNat_le] using h4⟩
      have h5 : p.toNat = c.val.toNat + 32 := by
        rw [← h2]
        simp only [← Char.toNat_val, UInt32.toNat_add]
        rw [Nat.mod_eq_of_lt (by have := hn.2; show c.val.toNat + 32 < _; omega)]
        rfl
      have e : ' '.toNat = 32 ∧ '-'.toNat = 45 ∧ '_'.toNat = 95 := by decide
      rcases hp with rfl | rfl | rfl <;> omega
    · exact h
  refine ⟨hv, ?_⟩
  rintro rfl
  simp only [List.mem_cons, List.not_mem_nil, or_false] at hp
  rcases hp with rfl | rfl | rfl <;> rfl

/-- **By default** exactly these cells are null: the empty one; nan, none and null in any case; and cells of spaces only, of
dashes only, or of underscores only; each also with a line end. -/
theorem C99_default (hf : Folds re.same "nanoeul -_".toList) :
    ∃ p, test re defaults = .ok p ∧ ∀ cell : String, p cell = true ↔ ∃ u : String, Holds cell.toList u.toList ∧ ByDefault u := by
  obtain ⟨p, h1, h2⟩ := C99_pattern re defaults (by simp [defaults]) defaults_simple
  refine ⟨p, h1, fun cell => ?_⟩
  rw [h2]
  have hw : ∀ k ∈ ["", "nan", "none", "null"], ∀ c ∈ k.toList, (Plain c ∧ c ≠ '.') ∧ c ∈ "nanoeul -_".toList := by decide +kernel
  have hr : ∀ c ∈ [' ', '-', '_'], (Plain c ∧ c ≠ '.') ∧ c ∈ "nanoeul -_".toList := by decide +kernel
  have word : ∀ k ∈ ["", "nan", "none", "null"], ∀ u : List Char,
      Fits (fun x c => re.same x c = true) k.toList u ↔ u.map Char.toLower = k.toList := fun k hk u => by
    rw [fits_word fun c hc => (hw k hk c hc).1, forall₂_lower hf _ _ fun c hc => (hw k hk c hc).2]
  have run : ∀ q ∈ [' ', '-', '_'], ∀ u : List Char,
      Fits (fun x c => re.same x c = true) [q, q, '*'] u ↔ u ≠ [] ∧ ∀ c ∈ u, c = q := fun q hq u => by
    rw [fits_run (hr q hq).1.1 (hr q hq).1.2]
    simp only [hf q (hr q hq).2, lower_eq hq]
  have key : ∀ u : List Char, (∃ k ∈ PyDict.keys defaults, Fits (fun x c => re.same x c = true) k.toList u) ↔
      ByDefault (String.ofList u) := by
    intro u
    have e1 : "  *".toList = [' ', ' ', '*'] := rfl
    have e2 : "--*".toList = ['-', '-', '*'] := rfl
    have e3 : "__*".toList = ['_', '_', '*'] := rfl
    have e4 : (String.ofList u = "") ↔ u = [] := by
      rw [← String.toList_inj]; simp
    simp only [defaults, PyDict.keys, List.map_cons, List.map_nil, List.mem_cons, List.not_mem_nil, or_false, exists_eq_or_imp,
      exists_eq_left, word "" (by simp), word "nan" (by simp), word "none" (by simp), word "null" (by simp), e1, e2, e3,
      run ' ' (by simp), run '-' (by simp), run '_' (by simp), ByDefault, String.toList_ofList, e4, ne_eq]
    have e5 : "".toList = [] := rfl
    rw [e5, List.map_eq_nil_iff]
    tauto
  constructor
  · rintro ⟨k, hk, u, hu, hfit⟩
    exact ⟨String.ofList u, by rwa [String.toList_ofList], (key u).1 ⟨k, hk, hfit⟩⟩
  · rintro ⟨u, hu, hb⟩
    obtain ⟨k, hk, hfit⟩ := (key u.toList).2 (by rwa [String.ofList_toList])
    exact ⟨k, hk, u.toList, hu, hfit⟩

/-- **No null values**: the empty cell, or only a line end, is null even then. -/
theorem C99_none : ∃ p, test re [] = .ok p ∧ ∀ cell : String, p cell = true ↔ cell = "" ∨ cell = "\n" := by
  refine ⟨_, rfl, fun cell => ?_⟩
  simp only [List.any_cons, List.any_nil, Bool.or_false, List.reverse_nil, seqMatch, decide_eq_true_eq, ← String.toList_inj]
  rfl

/-- **Refused null values**: if a null value begins with `*`, `+` or `?` (and those before it can be read), profiling any
cell raises. -/
theorem C99_refused (d e : NullValues) (k : String) (f : Flag) (c : Char) (cs : List Char) (hk : k.toList = c :: cs) (hc : Repeat c)
    (hs : ∀ k ∈ PyDict.keys d, Simple k.toList) (hb : ∀ k' ∈ PyDict.keys (d ++ (k, f) :: e), '|' ∉ k'.toList) :
    test re (d ++ (k, f) :: e) = .error .exception ∧
      ∀ (setOrder : List ℤ → List ℤ) (b : Nulls.Batch), NullsSpec.Valid b → b.col ≠ [] →
        clean re (d ++ (k, f) :: e) setOrder b.col b.sampleSize b.minTrue b.given b.chunks = .error .exception := by
  have h1 : test re (d ++ (k, f) :: e) = .error .exception := by
    rw [test, query_split (by simp) hb]
    have : (PyDict.keys (d ++ (k, f) :: e)).map String.toList =
        (PyDict.keys d).map String.toList ++ (c :: cs) :: (PyDict.keys e).map String.toList := by
      simp [PyDict.keys, hk]
    rw [this, parseAll_bad _ hc]
    intro l hl
    obtain ⟨k', hk', rfl⟩ := List.mem_map.1 hl
    exact hs k' hk'
  refine ⟨h1, fun setOrder b hv hne => ?_⟩
  rw [clean, h1]
  simp only [hne, if_false]
  cases hch : b.chunks with
  | nil => exact absurd hch hv.some
  | cons ps rest =>
    have : ∃ l, Nulls.iloc b.col ps = .ok l := by
      refine ⟨_, Nulls.iloc_eq _ _ fun q hq => ?_⟩
      exact hv.inRange q (by rw [hch]; simp [hq])
    obtain ⟨l, hl⟩ := this
    simp only [hl]

/-- **Flags have no effect**: only the null values count, not their flags nor their order. -/
theorem C99_flags (d d' : NullValues) (hd : d ≠ []) (hs : ∀ k ∈ PyDict.keys d, Simple k.toList)
    (hk : ∀ k, k ∈ PyDict.keys d ↔ k ∈ PyDict.keys d') :
    ∃ p p', test re d = .ok p ∧ test re d' = .ok p' ∧ ∀ cell, p cell = p' cell := by
  have hd' : d' ≠ [] := by
    rintro rfl
    cases d with
    | nil => exact hd rfl
    | cons kv d => exact absurd ((hk kv.1).1 (by simp [PyDict.keys])) (by simp [PyDict.keys])
  obtain ⟨p, h1, h2⟩ := C99_pattern re d hd hs
  obtain ⟨p', h3, h4⟩ := C99_pattern re d' hd' fun k h => hs k ((hk k).2 h)
  refine ⟨p, p', h1, h3, fun cell => ?_⟩
  rw [Bool.eq_iff_iff, h2, h4]
  simp only [hk]

/-- **What is promised holds** for cells that do not end a line, if the flag of every null value is `re.IGNORECASE` or its
characters have only one case. -/
theorem C99_promised_partial (d : NullValues) (hd : d ≠ []) (hs : ∀ k ∈ PyDict.keys d, Simple k.toList)
    (hf : ∀ kv ∈ d, kv.2 % 4 / 2 = 1 ∨ ∀ x ∈ kv.1.toList, ∀ c, re.same x c = true ↔ x = c) :
    ∃ p, test re d = .ok p ∧ ∀ cell : String, cell.toList.getLast? ≠ some '\n' →
      (p cell = true ↔ Promised re.same d cell) := by
  obtain ⟨p, h1, h2⟩ := C99_pattern re d hd hs
  refine ⟨p, h1, fun cell hc => ?_⟩
  rw [h2]
  have hcase : ∀ kv ∈ d, ∀ x ∈ kv.1.toList, ∀ c,
      (re.same x c = true ↔ (if kv.2 % 4 / 2 = 1 then re.same x c = true else x = c)) := by
    intro kv hkv x hx c
    split_ifs with h
    · rfl
    · exact (hf kv hkv).resolve_left h x hx c
  constructor
  · rintro ⟨k, hk, u, hu, hfit⟩
    obtain ⟨kv, hkv, rfl⟩ := List.mem_map.1 hk
    rcases hu with rfl | hu
    · exact ⟨kv, hkv, fits_congr (hcase kv hkv) hfit⟩
    · rw [hu] at hc; simp at hc
  · rintro ⟨kv, hkv, hfit⟩
    exact ⟨kv.1, List.mem_map.2 ⟨kv, hkv, rfl⟩, cell.toList, Or.inl rfl,
      fits_congr (fun x hx c => (hcase kv hkv x hx c).symm) hfit⟩

/-- **Counting**: a column profiled as a whole has as null count the number of its cells that are null in this sense, and
the others are passed on. -/
theorem C99_counts (d : NullValues) (p : String → Bool) (hp : test re d = .ok p) {setOrder : List ℤ → List ℤ}
    (hset : ∀ l, (setOrder l).Perm l) {b : Nulls.Batch} (hv : NullsSpec.Valid b)
    (hall : b.chunks.flatten.Perm (List.range b.col.length)) (hfull : b.col.length ≤ b.sampleSize) :
    ∃ vals base, clean re d setOrder b.col b.sampleSize b.minTrue b.given b.chunks = .ok (vals, base) ∧
      base.sampleSize = b.col.length ∧ base.nullCount = b.col.countP (fun c => p c.2) ∧
      vals.Perm ((b.col.filter fun c => !p c.2).map Prod.snd) := by
  obtain ⟨vals, base, h1, h2, h3, h4, _⟩ := Nulls.C17_whole_column (isNull := p) hset hv hall hfull
  exact ⟨vals, base, by rw [clean, hp]; exact h1, h2, h3, h4⟩

/-! ## Columns of a table -/

/-- **Null values of a column** of a table: the general ones (by default those above), those for the column of the profile if
the profile was made from data, and those for the position of the column in the data. -/
theorem C99_columns (o : NullOpts) (i j : ℕ) (k : String) :
    (k ∈ PyDict.keys (used o (some i) j) ↔ k ∈ PyDict.keys (o.general.getD defaults) ∨ k ∈ PyDict.keys (columnValues o i) ∨
      k ∈ PyDict.keys (columnValues o j)) ∧
    (k ∈ PyDict.keys (used o none j) ↔ k ∈ PyDict.keys (o.general.getD defaults) ∨ k ∈ PyDict.keys (columnValues o j)) := by
  simp only [used, own, keys_update, or_assoc, true_and]

theorem mapping_same_order {lower : String → String} (hl : Schema.Idem lower) (dn pn : List Schema.Key) (hne : dn ≠ [])
    (hsame : SchemaSpec.names lower dn = SchemaSpec.names lower pn) (m : PyDict ℕ ℕ)
    (h : Schema.getMapping lower (Schema.schemaOf lower dn) (Schema.schemaOf lower pn) false = .ok m) (j p : ℕ)
    (hj : PyDict.get? m j = some p) : j = p := by
  have hne' : pn ≠ [] := by
    rintro rfl
    have := congrArg List.length hsame
    simp only [SchemaSpec.names, List.length_map, List.length_nil] at this
    exact hne (List.length_eq_zero_iff.1 this)
  have hb := Schema.C19_bijection hl dn pn false hne hne' m h
  have hnm := hb.name j p hj
  have hjm : j ∈ List.range (SchemaSpec.names lower dn).length :=
    hb.dom.mem_iff.1 ((PyDict.mem_keys_iff m j).2 ⟨p, hj⟩)
  have hlt := List.mem_range.1 hjm
  have hk : (SchemaSpec.names lower dn)[j]? = some ((SchemaSpec.names lower dn)[j]) := List.getElem?_eq_getElem hlt
  by_cases hr : 1 < (SchemaSpec.names lower dn).count ((SchemaSpec.names lower dn)[j])
  · exact Schema.C19_repeated_in_place hl dn pn false hne hne' m h j p _ hj hk hr
  · rw [← hsame] at hnm
    by_contra hjp
    apply hr
    rw [hnm] at hk
    have h1 : (SchemaSpec.names lower dn)[j]? = some ((SchemaSpec.names lower dn)[j]) := List.getElem?_eq_getElem hlt
    exact List.duplicate_iff_two_le_count.1 (List.duplicate_iff_exists_distinct_get.2 (by
      have hp : p < (SchemaSpec.names lower dn).length := (List.getElem?_eq_some_iff.1 hk).1
      have hpe := (List.getElem?_eq_some_iff.1 hk).2
      rcases Nat.lt_or_gt_of_ne hjp with hlt' | hlt'
      · exact ⟨⟨j, hlt⟩, ⟨p, hp⟩, hlt', rfl, hpe.symm⟩
      · exact ⟨⟨p, hp⟩, ⟨j, hlt⟩, hlt', hpe.symm, rfl⟩))

/-- **A column keeps its null values** as long as the data have the columns in the order of the profile: they are the general
ones and those for the column, whether the profile was made from data or by merging. -/
theorem C99_same_order_partial {lower : String → String} (hl : Schema.Idem lower) (dn pn : List Schema.Key) (hne : dn ≠ [])
    (hsame : SchemaSpec.names lower dn = SchemaSpec.names lower pn) (m : PyDict ℕ ℕ)
    (h : Schema.getMapping lower (Schema.schemaOf lower dn) (Schema.schemaOf lower pn) false = .ok m) (j p : ℕ)
    (hj : PyDict.get? m j = some p) (o : NullOpts) (index : Option ℕ) (hi : index = some p ∨ index = none) (k : String) :
    k ∈ PyDict.keys (used o index j) ↔ k ∈ PyDict.keys (o.general.getD defaults) ∨ k ∈ PyDict.keys (columnValues o p) := by
  have e := mapping_same_order hl dn pn hne hsame m h j p hj
  subst e
  rcases hi with rfl | rfl
  · rw [(C99_columns o j j k).1]; tauto
  · exact (C99_columns o j j k).2

/-! ## Values that are missing -/

/-- **None and nan** are null by default. -/
theorem C99_missing (hf : Folds re.same "nanoeul -_".toList) :
    ∃ p, test re defaults = .ok p ∧ p (Value.str .none) = true ∧ p (Value.str .nan) = true := by
  obtain ⟨p, h1, h2⟩ := C99_default re hf
  refine ⟨p, h1, (h2 _).2 ⟨"None", Or.inl rfl, ?_⟩, (h2 _).2 ⟨"nan", Or.inl rfl, ?_⟩⟩
  · right; left; decide +kernel
  · right; left; decide +kernel

/-! ## Concrete cases, and what does not hold -/

/-- `re` for texts in ASCII. -/
def ascii : Re := ⟨fun p c => p.toLower == c.toLower, fun _ => .error .exception⟩

/-- The verdict on a cell. -/
def verdict (d : NullValues) (cell : String) : Except Err Bool := (test ascii d).map fun p => p cell

theorem ascii_folds : Folds ascii.same "nanoeul -_".toList := by
  have h : ∀ p ∈ "nanoeul -_".toList, p.toLower = p := by decide +kernel
  intro p hp c
  simp only [ascii, beq_iff_eq, h p hp]
  exact eq_comm

example : verdict defaults "NaN" = .ok true ∧ verdict defaults "---" = .ok true ∧ verdict defaults "-_" = .ok false ∧
    verdict defaults "nano" = .ok false ∧ verdict defaults "" = .ok true := by decide +kernel

example : Simple "ab*.c?".toList :=
  .one 'a' _ (by decide +kernel) (.rep 'b' '*' _ (by decide +kernel) (by decide +kernel)
    (.one '.' _ (by decide +kernel) (.rep 'c' '?' _ (by decide +kernel) (by decide +kernel) .nil)))

example : verdict [("ab*.c?", 0)] "Abbx" = .ok true ∧ verdict [("ab*.c?", 0)] "bx" = .ok false := by decide +kernel

example : ∀ k ∈ PyDict.keys ([("NA", 0), ("N/A", 2)] : NullValues), ∀ c ∈ k.toList, Plain c ∧ c ≠ '.' := by decide +kernel

/-- The fallacy in the flags: "NA" with flag 0 also makes "na" null. -/
theorem C99_flags_fails : ∃ (d : NullValues) (p : String → Bool) (cell : String), test ascii d = .ok p ∧ p cell = true ∧
    ¬ Promised ascii.same d cell := by
  refine ⟨[("NA", 0)], _, "na", rfl, by decide +kernel, ?_⟩
  rintro ⟨kv, hkv, hf⟩
  simp only [List.mem_singleton] at hkv
  subst hkv
  have e : "NA".toList = ['N', 'A'] := rfl
  have hw : ∀ c ∈ "NA".toList, Plain c ∧ c ≠ '.' := by decide +kernel
  rw [fits_word hw, e] at hf
  cases hf with
  | cons h _ => revert h; decide

/-- A line end is overlooked: the cell "nan" followed by one is null. -/
theorem C99_line_end_fails : verdict defaults "nan\n" = .ok true ∧ verdict defaults "\n" = .ok true ∧
    verdict defaults "\n\n" = .ok false := by decide +kernel

/-- A point as null value makes every cell of one character null. -/
theorem C99_point_fails : ∀ c : Char, c ≠ '\n' → verdict [(".", 0)] (String.ofList [c]) = .ok true := by
  intro c hc
  have e : parseAll ((query [(".", 0)]).splitOn '|') = .ok [[⟨.any, .once⟩]] := by rfl
  simp [verdict, test, e, Except.map, seqMatch, oneMatch, atomOk, hc]

/-- A star or a question mark as null value makes profiling raise. -/
theorem C99_star_fails : verdict [("", 0), ("*", 0)] "x" = .error .exception ∧ verdict [("?", 0)] "x" = .error .exception := by
  decide +kernel

/-- The missing values of pandas for times, and its general one, are not null. -/
theorem C99_missing_fails : verdict defaults (Value.str .nat) = .ok false ∧ verdict defaults (Value.str .na) = .ok false := by
  decide +kernel

/-- The table model with the null values of the options, for a profile made from data. -/
def withNulls (o : NullOpts) : Table.Env (List String) ℕ :=
  { Table.toyEnv with isNull := fun p j t => match test ascii (used o (some p) j) with
    | .ok f => f t
    | .error _ => false }

/-- Null values given for column 0 are used for whatever column comes first in later data: two batches with the columns a and
b, "x" being null in column a only. In the second batch b comes first, and its "x" is counted as null. -/
theorem C99_order_fails : ∃ o : NullOpts, columnValues o 0 = [("x", 0)] ∧ columnValues o 1 = [] ∧
    (Table.run (withNulls o) (.update (.update (.new ⟨true, true, true, .full⟩) none
      (Table.toyUpd [.str "a", .str "b"] [(0, ["x", "x"])])) none
      (Table.toyUpd [.str "a", .str "b"] [(1, ["y", "x"])]))).map (fun t => t.cols.map fun c => (c.name, c.base.nullCount)) =
      .ok [(some (.str "a"), 1), (some (.str "b"), 0)] ∧
    (Table.run (withNulls o) (.update (.update (.new ⟨true, true, true, .full⟩) none
      (Table.toyUpd [.str "a", .str "b"] [(0, ["x", "x"])])) none
      (Table.toyUpd [.str "b", .str "a"] [(1, ["x", "y"])]))).map (fun t => t.cols.map fun c => (c.name, c.base.nullCount)) =
      .ok [(some (.str "a"), 1), (some (.str "b"), 1)] :=
  ⟨⟨none, some [(0, [("x", 0)])]⟩, rfl, rfl, by decide +kernel, by decide +kernel⟩

end Verif.Props.NullMatch
