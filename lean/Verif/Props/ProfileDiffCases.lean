import Verif.Props.ProfileDiffTable
import Mathlib.Tactic.NormNum
import Mathlib.Algebra.BigOperators.Group.List.Basic

/-! # C79: cases of the comparison of structured profiles -/

namespace Verif.Props.ProfileDiff

open Verif Verif.Diffs Verif.Nested Verif.ProfileDiff

variable {τ : Type} (T : Tests τ)

/-- The statistics of the integers 1, 2, 2. -/
def ints : NumCol where
  min := some (.fin 1)
  max := some (.fin 2)
  sum := some (.fin 5)
  mean := some (.fin (5 / 3))
  median := some (.fin 2)
  mode := [2]
  mad := some (.fin 0)
  variance := some (.fin (1 / 3))
  stddev := some .nan

/-- The categories of the integers 1, 2, 2. -/
def cats : CatCol where
  isMatch := true
  sampleSize := 3
  counts := [("1", 1), ("2", 2)]
  categories := ["1", "2"]
  uniqueCount := 2
  uniqueRatio := .fin (2 / 3)
  gini := some (.fin (4 / 9))
  unalike := some (.fin (2 / 3))

/-- Categories of no value. -/
def noCats : CatCol where
  isMatch := true
  sampleSize := 0
  counts := []
  categories := []
  uniqueCount := 0
  uniqueRatio := .fin 0
  gini := none
  unalike := none

/-- A column with the integers 1, 2, 2 and a null in row 3. -/
def intCol : Col String where
  name := "n"
  sampleSize := 4
  nullCount := 1
  nullRatio := some (.fin (1 / 4))
  nullTypes := [""]
  nullRows := [("", [3])]
  types := some { datetime := none, int := some ⟨some (.fin 1), ints⟩, float := none, text := none }
  stats := some { order := some (some "ascending"), categorical := some cats }
  label := none

/-- The same column without a profile of categories. -/
def intColOnly : Col String := { intCol with stats := some { order := some (some "ascending"), categorical := none } }

/-- A column with texts only, without a profile of categories. -/
def textColOnly : Col String := { intCol with
  types := some { datetime := none, int := some ⟨some (.fin 0), ints⟩, float := none,
                  text := some ⟨some (.fin 1), ⟨ints, some ["a", "b"]⟩⟩ }
  stats := some { order := some (some "random"), categorical := none } }

/-- A column of nulls only. -/
def nullCol : Col String where
  name := "n"
  sampleSize := 2
  nullCount := 2
  nullRatio := some (.fin 1)
  nullTypes := [""]
  nullRows := [("", [0, 1])]
  types := some { datetime := none, int := some ⟨some (.fin 0), ints⟩, float := none, text := none }
  stats := some { order := some none, categorical := some noCats }
  label := none

theorem intCol_type (c : Col String) (h : c.types = intCol.types) : HasType c "int" := by
  refine ⟨_, h, ?_, _, rfl, rfl⟩
  intro p hp; cases hp

/-- The comparison of a column with itself: the hypotheses of the theorems about columns hold. -/
example : ∃ r, colDiff T intCol intCol = .ok r ∧ Cats intCol intCol cats cats ∧ SameType intCol intCol "int" ∧
    PyDict.WF intCol.nullRows := by
  cases h : colDiff T intCol intCol with
  | ok r => exact ⟨r, rfl, ⟨⟨_, rfl, rfl⟩, _, rfl, rfl⟩, ⟨intCol_type _ rfl, intCol_type _ rfl⟩, by decide⟩
  | error e =>
    rcases (C79_raises T _ _ e).1 h with ⟨-, x, y, ⟨⟨s, h1, h2⟩, s', h3, h4⟩, -, -, -, hz⟩ | ⟨-, hn, -⟩
    · cases h1; cases h3; cases h2; cases h4
      simp [cats] at hz
    · exact absurd ⟨"int", intCol_type _ rfl, intCol_type _ rfl⟩ hn

/-- **C79** (failure) A categorical column with values cannot be compared with one in which every value is null. -/
theorem C79_no_values_fails : colDiff T intCol nullCol = .error .zeroDivision ∧ colDiff T nullCol intCol = .error .zeroDivision := by
  constructor
  · exact (C79_raises T _ _ _).2 (Or.inl ⟨rfl, cats, noCats, ⟨⟨_, rfl, rfl⟩, _, rfl, rfl⟩, rfl, rfl, by simp [cats], Or.inr rfl⟩)
  · exact (C79_raises T _ _ _).2 (Or.inl ⟨rfl, noCats, cats, ⟨⟨_, rfl, rfl⟩, _, rfl, rfl⟩, rfl, rfl, by simp [cats], Or.inl rfl⟩)

/-- **C79** (failure) Columns of different types cannot be compared when neither categories nor labels are profiled. -/
theorem C79_no_statistics_fails : colDiff T intColOnly textColOnly = .error .keyError := by
  refine (C79_raises T _ _ _).2 (Or.inr ⟨rfl, ?_, ?_, ?_⟩)
  · rintro ⟨ty, ⟨x, hx, h1⟩, y, hy, h2⟩
    cases hx; cases hy
    have h1 := (selects_iff _ _).1 h1
    have h2 := (selects_iff _ _).1 h2
    rw [← h2] at h1
    simp [TypeComp.selected, fits] at h1
  · rintro ⟨x, y, ⟨s, h1, h2⟩, -⟩
    cases h1; cases h2
  · rintro ⟨x, y, ⟨s, h1, h2⟩, -⟩
    cases h1

/-- **C79** (failure) For two columns of integers that are categorical as well, the stability index of the numbers is
computed and then replaced by that of the categories. -/
theorem C79_psi_fails (t t' : τ) (ht : t ≠ t') (T : Tests τ) (hT : ∀ a b, T.numPsi a b = t) (hT' : ∀ a b, T.catPsi a b = t')
    (r st : PyDict String (NV (Leaf τ String))) (h : colDiff T intCol intCol = .ok r)
    (hst : PyDict.get? r "statistics" = some (.dict st)) :
    PyDict.get? st "psi" ≠ some (.leaf (.test (T.numPsi ints ints))) := by
  have := (C79_psi_partial T _ _ _ _ h hst).1 cats cats ⟨⟨_, rfl, rfl⟩, _, rfl, rfl⟩ rfl rfl (by simp [cats])
  rw [this, hT, hT']
  intro he
  cases he
  exact ht rfl

/-- **C79** (failure) Rows that are null in the second profile only are not reported: rows 1 and 2 against row 1 and 3
give row 2, and row 1 against rows 1 and 3 gives no row. -/
theorem C79_null_rows_fails :
    rowsDiff [("", [1, 2])] [("", [1, 3])] = .parts [] [("", .minus [2])] [] ∧
    rowsDiff [("", [1])] [("", [1, 3])] = .parts [] [("", .minus [])] [] := by
  constructor <;> decide

/-- The tally after batches of `n` values with `k` nulls each. -/
def batches (t : NullTally) : List (ℕ × ℕ) → Except Err NullTally
  | [] => .ok t
  | (n, k) :: r => do
    let t' ← t.update n k
    batches t' r

/-- **C79** (partial) The numbers of values and nulls that are compared are the totals over all batches of data; the null
ratio is that of the last batch. Missing: the ratio of all nulls to all values (`C79_null_ratio_fails`). -/
theorem C79_null_ratio_partial (l : List (ℕ × ℕ)) : ∀ (t : NullTally) (n k : ℕ), (∀ p ∈ l, p.1 ≠ 0) → n ≠ 0 →
    ∃ t', batches t (l ++ [(n, k)]) = .ok t' ∧ t'.size = t.size + (l.map Prod.fst).sum + n ∧
      t'.nulls = t.nulls + (l.map Prod.snd).sum + k ∧ t'.ratio = some (.fin ((k : ℚ) / n)) := by
  induction l with
  | nil =>
    intro t n k _ hn
    exact ⟨{ size := t.size + n, nulls := t.nulls + k, ratio := some (.fin ((k : ℚ) / n)) },
      by simp [batches, NullTally.update, hn, bind, Except.bind], by simp, by simp, rfl⟩
  | cons p l ih =>
    obtain ⟨m, j⟩ := p
    intro t n k hl hn
    have hm : m ≠ 0 := hl (m, j) List.mem_cons_self
    obtain ⟨t', h1, h2, h3, h4⟩ := ih { size := t.size + m, nulls := t.nulls + j, ratio := some (.fin ((j : ℚ) / m)) } n k
      (fun p hp => hl p (List.mem_cons_of_mem _ hp)) hn
    refine ⟨t', ?_, ?_, ?_, h4⟩
    · simp only [List.cons_append, batches, NullTally.update, if_neg hm]
      exact h1
    · rw [h2]; simp only [List.map_cons, List.sum_cons]; omega
    · rw [h3]; simp only [List.map_cons, List.sum_cons]; omega

/-- **C79** (failure) After a second batch, or a merge, the null ratio is not the ratio of nulls to values: it is that of
the last batch, or of the right operand. -/
theorem C79_null_ratio_fails : ∃ a b t, NullTally.update .empty 4 4 = .ok a ∧ NullTally.update a 4 0 = .ok b ∧
    b.size = 8 ∧ b.nulls = 4 ∧ b.ratio = some (.fin 0) ∧
    NullTally.merge b a = .ok t ∧ t.size = 12 ∧ t.nulls = 8 ∧ t.ratio = some (.fin 1) := by
  refine ⟨{ size := 4, nulls := 4, ratio := some (.fin 1) }, { size := 8, nulls := 4, ratio := some (.fin 0) },
    { size := 12, nulls := 8, ratio := some (.fin 1) }, ?_, ?_, rfl, rfl, rfl, ?_, rfl, rfl, rfl⟩
  · simp [NullTally.update, NullTally.empty]
  · simp [NullTally.update]
  · simp [NullTally.merge, NullTally.update, NullTally.empty, bind, Except.bind]

/-- **C79** (failure) A column profile without data cannot be merged with another. -/
theorem C79_merge_empty_fails (a : NullTally) (ha : a.size ≠ 0) :
    NullTally.merge .empty a = .error .zeroDivision ∧ NullTally.merge a .empty = .error .zeroDivision := by
  constructor
  · simp [NullTally.merge, NullTally.update, NullTally.empty, bind, Except.bind]
  · simp [NullTally.merge, NullTally.update, NullTally.empty, bind, Except.bind, ha]

/-- A data set of one column. -/
def oneCol (c : Col String) : Table String where
  fileType := some "csv"
  encoding := none
  cols := [c]
  rows := 4
  rowHasNull := some (.fin (1 / 4))
  rowIsNull := some (.fin (1 / 4))
  uniqueRow := some (.fin (3 / 4))
  duplicates := some (.fin 1)
  correlation := none
  chi2 := none

/-- Data sets with different columns are compared without their columns. -/
example : ∃ g, tableDiff T (oneCol intCol) (oneCol { intCol with name := "m" }) = .ok (g, []) := by
  cases h : tableDiff T (oneCol intCol) (oneCol { intCol with name := "m" }) with
  | error e =>
    have := ((C79_table_raises T _ _).1 e h).1
    simp [oneCol, intCol] at this
  | ok p =>
    obtain ⟨g, ds⟩ := p
    have := (C79_columns T _ _ g ds h).2 (by simp [oneCol, intCol])
    exact ⟨g, by rw [this]⟩

end Verif.Props.ProfileDiff
