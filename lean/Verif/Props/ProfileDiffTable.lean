import Verif.Props.ProfileDiff
import Mathlib.Data.List.Range

/-! # C79: what the comparison of two structured profiles says about the data sets -/

namespace Verif.Props.ProfileDiff

open Verif Verif.Diffs Verif.Nested Verif.ProfileDiff

variable {τ ν : Type} [DecidableEq ν] (T : Tests τ)

/-- Positions from a first index on. -/
def posFrom (n : ν) (i : ℕ) : List ν → List ℕ
  | [] => []
  | m :: r => (if m = n then [i] else []) ++ posFrom n (i + 1) r

theorem posFrom_eq (n : ν) (l : List ν) : ∀ i, posFrom n i l = (positions n l).map (· + i) := by
  induction l with
  | nil => intro i; rfl
  | cons m r ih =>
    intro i
    have h : positions n (m :: r) = (if m = n then [0] else []) ++ (positions n r).map (· + 1) := by
      unfold positions
      rw [List.length_cons, List.range_succ_eq_map, List.filter_cons, List.filter_map]
      simp only [List.getElem?_cons_zero, Function.comp_def]
      by_cases hm : m = n <;> simp [hm]
    rw [h, posFrom, ih]
    by_cases hm : m = n <;> simp [hm] <;> intros <;> omega

theorem mem_positions (n : ν) (l : List ν) (i : ℕ) : i ∈ positions n l ↔ l[i]? = some n := by
  unfold positions
  simp only [List.mem_filter, List.mem_range, decide_eq_true_eq, and_iff_right_iff_imp]
  intro h
  exact (List.getElem?_eq_some_iff.1 h).1

theorem positions_ne_nil (n : ν) (l : List ν) : positions n l ≠ [] ↔ n ∈ l := by
  constructor
  · intro h
    obtain ⟨i, hi⟩ := List.exists_mem_of_ne_nil _ h
    exact List.mem_of_getElem? ((mem_positions n l i).1 hi)
  · intro h he
    obtain ⟨i, hi⟩ := List.getElem?_of_mem h
    have := (mem_positions n l i).2 hi
    rw [he] at this; simp at this

theorem schemaFrom_get (n : ν) (names : List ν) : ∀ (i : ℕ) (s : PyDict ν (List ℕ)),
    PyDict.get? (schemaFrom i s names) n =
      if posFrom n i names = [] then PyDict.get? s n else some ((PyDict.get? s n).getD [] ++ posFrom n i names) := by
  induction names with
  | nil => intro i s; simp [schemaFrom, posFrom]
  | cons m r ih =>
    intro i s
    rw [schemaFrom, ih, PyDict.get?_set, posFrom]
    by_cases hm : m = n
    · subst hm
      simp
    · rw [if_neg hm, if_neg hm]; rfl

theorem schemaFrom_wf (names : List ν) : ∀ (i : ℕ) (s : PyDict ν (List ℕ)), PyDict.WF s → PyDict.WF (schemaFrom i s names) := by
  induction names with
  | nil => intro i s h; exact h
  | cons m r ih => intro i s h; exact ih _ _ (PyDict.WF_set h _ _)

theorem schema_wf (t : Table ν) : PyDict.WF (schema t) := schemaFrom_wf _ _ _ PyDict.WF_nil

theorem schema_get (t : Table ν) (n : ν) : PyDict.get? (schema t) n =
    if n ∈ t.cols.map Col.name then some (positions n (t.cols.map Col.name)) else none := by
  unfold schema
  rw [schemaFrom_get, posFrom_eq]
  by_cases h : n ∈ t.cols.map Col.name
  · rw [if_neg (by simpa using (positions_ne_nil n _).2 h), if_pos h]; simp
  · rw [if_pos (by
      by_contra hc
      exact h ((positions_ne_nil n _).1 (by simpa using hc))), if_neg h]
    rfl

theorem dictEq_iff {V : Type} [DecidableEq V] (a b : PyDict ν V) (ha : PyDict.WF a) (hb : PyDict.WF b) :
    dictEq a b = true ↔ ∀ k, PyDict.get? a k = PyDict.get? b k := by
  unfold dictEq
  simp only [Bool.and_eq_true, List.all_eq_true, beq_iff_eq]
  constructor
  · rintro ⟨h1, h2⟩ k
    cases h : PyDict.get? a k with
    | some v => exact (h1 (k, v) (PyDict.mem_of_get? h)).symm
    | none =>
      cases h' : PyDict.get? b k with
      | none => rfl
      | some w =>
        have := h2 (k, w) (PyDict.mem_of_get? h')
        rw [h] at this; cases this
  · intro h
    refine ⟨fun kv hk => ?_, fun kv hk => ?_⟩
    · rw [← h]; exact PyDict.get?_of_mem ha hk
    · rw [h]; exact PyDict.get?_of_mem hb hk

/-- The schemas are the same exactly if the columns have the same names in the same order. -/
theorem schema_same (a b : Table ν) : dictEq (schema a) (schema b) = true ↔ a.cols.map Col.name = b.cols.map Col.name := by
  rw [dictEq_iff _ _ (schema_wf a) (schema_wf b)]
  constructor
  · intro h
    have key : ∀ (c d : Table ν), (∀ k, PyDict.get? (schema c) k = PyDict.get? (schema d) k) →
        ∀ (i : ℕ) (n : ν), (c.cols.map Col.name)[i]? = some n → (d.cols.map Col.name)[i]? = some n := by
      intro c d h i n hn
      have hk := h n
      rw [schema_get, schema_get, if_pos (List.mem_of_getElem? hn)] at hk
      by_cases hd : n ∈ d.cols.map Col.name
      · rw [if_pos hd] at hk
        have := (mem_positions n _ i).2 hn
        rw [Option.some.inj hk] at this
        exact (mem_positions n _ i).1 this
      · rw [if_neg hd] at hk; cases hk
    apply List.ext_getElem?
    intro i
    cases h1 : (a.cols.map Col.name)[i]? with
    | some n => exact (key a b h i n h1).symm
    | none =>
      cases h2 : (b.cols.map Col.name)[i]? with
      | none => rfl
      | some n =>
        have := key b a (fun k => (h k).symm) i n h2
        rw [h1] at this; cases this
  · intro h k; rw [schema_get, schema_get, h]

theorem nums_eq (a b : Option Num) : nums a b = .ok (numD a b) := by
  have h := numLeaf_eq (τ := Unit) (ν := Unit) a b
  unfold numLeaf at h
  unfold nums
  cases hd : (diffNumbers ((a.map PV.num).getD .none) ((b.map PV.num).getD .none) : Except Err (Diff String)) with
  | error e => rw [hd] at h; cases h
  | ok d => rw [hd] at h; cases h; rfl

theorem global_ok (a b : Table ν) : globalDiff a b = .ok
    { fileType := diffStrings a.fileType b.fileType, encoding := diffStrings a.encoding b.encoding,
      samplesUsed := numD (some (.fin a.maxSamples)) (some (.fin b.maxSamples)),
      columnCount := numD (some (.fin a.cols.length)) (some (.fin b.cols.length)),
      rowCount := numD (some (.fin a.rows)) (some (.fin b.rows)), rowHasNull := numD a.rowHasNull b.rowHasNull,
      rowIsNull := numD a.rowIsNull b.rowIsNull, uniqueRow := numD a.uniqueRow b.uniqueRow,
      duplicates := numD a.duplicates b.duplicates, correlation := diffMatrices a.correlation b.correlation,
      chi2 := diffMatrices a.chi2 b.chi2, schema := schemaDiff (schema a) (schema b) } := by
  unfold globalDiff
  simp only [nums_eq]
  rfl

omit [DecidableEq ν] in
theorem colsDiff_spec : ∀ (as bs : List (Col ν)), as.length = bs.length →
    (∀ e, colsDiff T as bs = .error e → ∃ (i : ℕ) (c c' : Col ν), as[i]? = some c ∧ bs[i]? = some c' ∧ colDiff T c c' = .error e) ∧
    (∀ ds, colsDiff T as bs = .ok ds → ds.length = as.length ∧
      ∀ (i : ℕ) c c', as[i]? = some c → bs[i]? = some c' → ∃ d, ds[i]? = some d ∧ colDiff T c c' = .ok d)
  | [], bs, _ => by
    refine ⟨fun e h => (by cases h), fun ds h => ?_⟩
    cases h; exact ⟨rfl, fun i c c' h => by simp at h⟩
  | a :: as, [], h => by simp at h
  | a :: as, b :: bs, hl => by
    have ih := colsDiff_spec as bs (by simpa using hl)
    unfold colsDiff
    cases hd : colDiff T a b with
    | error e' =>
      refine ⟨fun e h => ?_, fun ds h => (by cases h)⟩
      cases h
      exact ⟨0, a, b, rfl, rfl, hd⟩
    | ok d =>
      cases hs : colsDiff T as bs with
      | error e' =>
        refine ⟨fun e h => ?_, fun ds h => (by cases h)⟩
        cases h
        obtain ⟨i, c, c', h1, h2, h3⟩ := ih.1 _ hs
        exact ⟨i + 1, c, c', by simpa using h1, by simpa using h2, h3⟩
      | ok ds' =>
        refine ⟨fun e h => (by cases h), fun ds h => ?_⟩
        cases h
        obtain ⟨h1, h2⟩ := ih.2 _ hs
        refine ⟨by simp [h1], fun i c c' hc hc' => ?_⟩
        cases i with
        | zero =>
          simp only [List.getElem?_cons_zero, Option.some.injEq] at hc hc'
          subst hc hc'
          exact ⟨d, rfl, hd⟩
        | succ i => simpa using h2 i c c' (by simpa using hc) (by simpa using hc')

/-- **C79** Two data sets are compared column by column, the i-th with the i-th, exactly if the columns have the same names
in the same order; otherwise no column is compared. -/
theorem C79_columns (a b : Table ν) (g : Global ν) (ds : List (PyDict String (NV (Leaf τ ν))))
    (h : tableDiff T a b = .ok (g, ds)) :
    (a.cols.map Col.name = b.cols.map Col.name → ds.length = a.cols.length ∧
      ∀ (i : ℕ) c c', a.cols[i]? = some c → b.cols[i]? = some c' → ∃ d, ds[i]? = some d ∧ colDiff T c c' = .ok d) ∧
    (a.cols.map Col.name ≠ b.cols.map Col.name → ds = []) := by
  unfold tableDiff dataStats at h
  rw [global_ok] at h
  constructor
  · intro hn
    rw [if_pos ((schema_same a b).2 hn)] at h
    cases hc : colsDiff T a.cols b.cols with
    | error e => rw [hc] at h; cases h
    | ok ds' =>
      rw [hc] at h; cases h
      exact (colsDiff_spec T a.cols b.cols (by simpa using congrArg List.length hn)).2 _ hc
  · intro hn
    rw [if_neg (by simpa using fun h => hn ((schema_same a b).1 h))] at h
    cases h; rfl

/-- **C79** The comparison raises exactly if the columns have the same names in the same order and the comparison of two
columns at the same place raises. -/
theorem C79_table_raises (a b : Table ν) :
    (∀ e, tableDiff T a b = .error e → a.cols.map Col.name = b.cols.map Col.name ∧
      ∃ (i : ℕ) (c c' : Col ν), a.cols[i]? = some c ∧ b.cols[i]? = some c' ∧ colDiff T c c' = .error e) ∧
    ((a.cols.map Col.name = b.cols.map Col.name ∧
      ∃ (i : ℕ) (c c' : Col ν) (e : Err), a.cols[i]? = some c ∧ b.cols[i]? = some c' ∧ colDiff T c c' = .error e) →
      ∃ e, tableDiff T a b = .error e) := by
  constructor
  · intro e h
    unfold tableDiff dataStats at h
    rw [global_ok] at h
    by_cases hn : a.cols.map Col.name = b.cols.map Col.name
    · refine ⟨hn, ?_⟩
      rw [if_pos ((schema_same a b).2 hn)] at h
      cases hc : colsDiff T a.cols b.cols with
      | error e' =>
        rw [hc] at h; cases h
        exact (colsDiff_spec T a.cols b.cols (by simpa using congrArg List.length hn)).1 _ hc
      | ok ds' => rw [hc] at h; cases h
    · rw [if_neg (by simpa using fun h => hn ((schema_same a b).1 h))] at h
      cases h
  · rintro ⟨hn, i, c, c', e, h1, h2, h3⟩
    cases ht : tableDiff T a b with
    | error e' => exact ⟨e', rfl⟩
    | ok p =>
      obtain ⟨d, -, h4⟩ := ((C79_columns T a b p.1 p.2 ht).1 hn).2 i c c' h1 h2
      rw [h3] at h4; cases h4

theorem getElem?_zipWith_zipWith (a b : Matrix) (i j : ℕ) (x y : Num) (r r' : List Num) (h1 : a[i]? = some r)
    (h2 : b[i]? = some r') (h3 : r[j]? = some x) (h4 : r'[j]? = some y) :
    ∃ r'', (matSub a b)[i]? = some r'' ∧ r''[j]? = some (Num.sub x y) :=
  ⟨List.zipWith Num.sub r r', by simp [matSub, List.getElem?_zipWith, h1, h2], by simp [List.getElem?_zipWith, h3, h4]⟩

theorem matrices_spec (a b : Option Matrix) : ReportsMatrix a b (diffMatrices a b) := by
  rcases a with _ | a <;> rcases b with _ | b
  · rfl
  · rfl
  · rfl
  · refine ⟨fun h => by simp [diffMatrices, sameShape, h], fun h => ⟨fun hs => ?_, fun hs => ?_⟩⟩
    · simp only [diffMatrices]
      rw [if_pos (by simp [sameShape, h]), if_pos]
      rw [List.all_eq_true]
      intro r'' hr
      rw [List.all_eq_true]
      intro z hz
      obtain ⟨i, hi⟩ := List.getElem?_of_mem hr
      obtain ⟨j, hj⟩ := List.getElem?_of_mem hz
      rw [matSub, List.getElem?_zipWith] at hi
      cases h1 : a[i]? with
      | none => rw [h1] at hi; simp at hi
      | some r =>
        cases h2 : b[i]? with
        | none => rw [h1, h2] at hi; simp at hi
        | some r' =>
          rw [h1, h2] at hi
          simp only [Option.some.injEq] at hi
          subst hi
          rw [List.getElem?_zipWith] at hj
          cases h3 : r[j]? with
          | none => rw [h3] at hj; simp at hj
          | some x =>
            cases h4 : r'[j]? with
            | none => rw [h3, h4] at hj; simp at hj
            | some y =>
              rw [h3, h4] at hj
              simp only [Option.some.injEq] at hj
              subst hj
              cases x with
              | nan => simp [Num.sub]
              | fin x =>
                cases y with
                | nan => simp [Num.sub]
                | fin y => simp [Num.sub, hs i j r r' x y h1 h2 h3 h4]
    · refine ⟨matSub a b, ?_, fun i j r r' x y h1 h2 h3 h4 => getElem?_zipWith_zipWith a b i j _ _ r r' h1 h2 h3 h4⟩
      simp only [diffMatrices]
      rw [if_pos (by simp [sameShape, h]), if_neg]
      intro hall
      obtain ⟨i, j, r, r', x, y, h1, h2, h3, h4, hne⟩ := hs
      obtain ⟨r'', h5, h6⟩ := getElem?_zipWith_zipWith a b i j _ _ r r' h1 h2 h3 h4
      rw [List.all_eq_true] at hall
      have := hall r'' (List.mem_of_getElem? h5)
      rw [List.all_eq_true] at this
      have := this _ (List.mem_of_getElem? h6)
      simp [Num.sub, sub_eq_zero, hne] at this

theorem schemaDiff_spec (a b : Table ν) :
    ReportsSchema (a.cols.map Col.name) (b.cols.map Col.name) (schemaDiff (schema a) (schema b)) := by
  have h1 := get?_filter (fun k => !PyDict.has (schema b) k) (schema a)
  have h2 := get?_filter (fun k => !PyDict.has (schema a) k) (schema b)
  have h3 := get?_filterMap (fun k v => (PyDict.get? (schema b) k).map fun w => diffLists (some v) (some w)) (schema a) (schema_wf a)
  simp only [Option.map_map, Function.comp_def] at h3
  have ga := schema_get a
  have gb := schema_get b
  have hasb : ∀ n, PyDict.has (schema b) n = decide (n ∈ b.cols.map Col.name) := by
    intro n; unfold PyDict.has; rw [gb n]; split <;> rename_i h <;> simp [h]
  have hasa : ∀ n, PyDict.has (schema a) n = decide (n ∈ a.cols.map Col.name) := by
    intro n; unfold PyDict.has; rw [ga n]; split <;> rename_i h <;> simp [h]
  constructor
  · rintro ⟨ha, hb⟩; simp [schemaDiff, schema, ha, hb, schemaFrom]
  · intro hne
    have hform : schemaDiff (schema a) (schema b) = .parts ((schema a).filter fun kv => !PyDict.has (schema b) kv.1)
        ((schema a).filterMap fun kv => (PyDict.get? (schema b) kv.1).map fun w => (kv.1, diffLists (some kv.2) (some w)))
        ((schema b).filter fun kv => !PyDict.has (schema a) kv.1) := by
      unfold schemaDiff
      dsimp only
      rw [if_neg]
      simp only [Bool.and_eq_true, List.isEmpty_iff, not_and]
      rintro ⟨e1, e2⟩ e3
      rcases hne with hne | hne
      · obtain ⟨n, hn⟩ := List.exists_mem_of_ne_nil _ hne
        have g1 := h1 n
        have g3 := h3 n
        rw [e1, PyDict.get?_nil, hasb, ga n, if_pos hn] at g1
        rw [e2, PyDict.get?_nil, ga n, gb n, if_pos hn] at g3
        by_cases hb : n ∈ b.cols.map Col.name
        · rw [if_pos hb] at g3; simp at g3
        · simp only [hb] at g1; simp at g1
      · obtain ⟨n, hn⟩ := List.exists_mem_of_ne_nil _ hne
        have g2 := h2 n
        have g3 := h3 n
        rw [e3, PyDict.get?_nil, hasa, gb n, if_pos hn] at g2
        rw [e2, PyDict.get?_nil, ga n, gb n, if_pos hn] at g3
        by_cases hb : n ∈ a.cols.map Col.name
        · rw [if_pos hb] at g3; simp at g3
        · simp only [hb] at g2; simp at g2
    refine ⟨_, _, _, hform, fun n => ⟨?_, ?_, ?_, ?_⟩⟩
    · rw [h1 n, hasb, ga n]
      by_cases ha : n ∈ a.cols.map Col.name <;> by_cases hb : n ∈ b.cols.map Col.name <;> simp only [ha, hb] <;> simp
    · rw [h2 n, hasa, gb n]
      by_cases ha : n ∈ a.cols.map Col.name <;> by_cases hb : n ∈ b.cols.map Col.name <;> simp only [ha, hb] <;> simp
    · intro hn
      rw [h3 n, ga n, gb n]
      by_cases ha : n ∈ a.cols.map Col.name <;> by_cases hb : n ∈ b.cols.map Col.name
      · exact absurd ⟨ha, hb⟩ hn
      all_goals (simp only [ha, hb]; simp)
    · intro ha hb
      refine ⟨_, ?_, diffLists_spec _ _⟩
      rw [h3 n, ga n, gb n, if_pos ha, if_pos hb]; rfl

theorem foldl_max (l : List ℕ) : ∀ m, l.foldl max m = m ⊔ l.foldl max 0 := by
  induction l with
  | nil => intro m; simp
  | cons x l ih => intro m; rw [List.foldl_cons, List.foldl_cons, ih, ih (max 0 x)]; omega

theorem largest_max (l : List ℕ) : Largest l (l.foldl max 0) := by
  induction l with
  | nil => exact ⟨by simp, Or.inr ⟨rfl, rfl⟩⟩
  | cons x l ih =>
    obtain ⟨h1, h2⟩ := ih
    rw [List.foldl_cons, foldl_max]
    refine ⟨?_, Or.inl ?_⟩
    · intro y hy
      rcases List.mem_cons.1 hy with rfl | hy
      · simp
      · have := h1 y hy; omega
    · rcases h2 with h2 | ⟨rfl, h2⟩
      · rcases Nat.le_total x (l.foldl max 0) with h | h
        · rw [show max (max 0 x) (l.foldl max 0) = l.foldl max 0 by omega]; exact List.mem_cons_of_mem _ h2
        · rw [show max (max 0 x) (l.foldl max 0) = x by omega]; exact List.mem_cons_self
      · simp

/-- **C79** What the report says about the data sets as wholes: file types, encodings, the sizes of the largest columns,
the numbers of columns and of rows, the ratios of rows with nulls, of null rows and of unique rows, the numbers of
duplicates, the matrices, and the positions of the columns by name. -/
theorem C79_global (a b : Table ν) (g : Global ν) (ds : List (PyDict String (NV (Leaf τ ν))))
    (h : tableDiff T a b = .ok (g, ds)) :
    ReportsText a.fileType b.fileType g.fileType ∧ ReportsText a.encoding b.encoding g.encoding ∧
    (∀ m m' : ℕ, Largest (a.cols.map Col.sampleSize) m → Largest (b.cols.map Col.sampleSize) m' →
      ReportsNum (some (.fin m)) (some (.fin m')) g.samplesUsed) ∧
    ReportsNum (some (.fin a.cols.length)) (some (.fin b.cols.length)) g.columnCount ∧
    ReportsNum (some (.fin a.rows)) (some (.fin b.rows)) g.rowCount ∧
    ReportsNum a.rowHasNull b.rowHasNull g.rowHasNull ∧ ReportsNum a.rowIsNull b.rowIsNull g.rowIsNull ∧
    ReportsNum a.uniqueRow b.uniqueRow g.uniqueRow ∧ ReportsNum a.duplicates b.duplicates g.duplicates ∧
    ReportsMatrix a.correlation b.correlation g.correlation ∧ ReportsMatrix a.chi2 b.chi2 g.chi2 ∧
    ReportsSchema (a.cols.map Col.name) (b.cols.map Col.name) g.schema := by
  have hg : globalDiff a b = .ok g := by
    unfold tableDiff at h
    cases hg : globalDiff a b with
    | error e => rw [hg] at h; cases h
    | ok g' =>
      cases hc : dataStats T a b with
      | error e => rw [hg, hc] at h; cases h
      | ok ds' => rw [hg, hc] at h; cases h; rfl
  rw [global_ok] at hg
  cases hg
  have hmax : ∀ (t : Table ν) (m : ℕ), Largest (t.cols.map Col.sampleSize) m → t.maxSamples = m := by
    intro t m hm
    have hl := largest_max (t.cols.map Col.sampleSize)
    have : t.maxSamples = (t.cols.map Col.sampleSize).foldl max 0 := by
      unfold Table.maxSamples; rw [List.foldl_map]
    rw [this]
    apply Nat.le_antisymm
    · rcases hl.2 with h | ⟨h, h'⟩
      · exact hm.1 _ h
      · rw [h']; exact Nat.zero_le _
    · rcases hm.2 with h | ⟨h, h'⟩
      · exact hl.1 _ h
      · rw [h']; exact Nat.zero_le _
  refine ⟨diffStrings_spec _ _, diffStrings_spec _ _, ?_, numD_spec _ _, numD_spec _ _, numD_spec _ _, numD_spec _ _,
    numD_spec _ _, numD_spec _ _, matrices_spec _ _, matrices_spec _ _, schemaDiff_spec a b⟩
  intro m m' hm hm'
  rw [← hmax a m hm, ← hmax b m' hm']
  exact numD_spec _ _

end Verif.Props.ProfileDiff
