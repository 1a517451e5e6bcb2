import Mathlib.Data.List.Sort
import Mathlib.Data.List.Nodup
import Mathlib.Tactic.SplitIfs
import Mathlib.Tactic.Push
import Mathlib.Algebra.Order.Group.Int
import Verif.Spec.Nulls
import Verif.Lemmas.PyDict

namespace Verif.Nulls

open Verif Verif.NullsSpec

/-! ## Sets -/

theorem mem_unionSet (s xs : List ℤ) (x : ℤ) : x ∈ unionSet s xs ↔ x ∈ s ∨ x ∈ xs := by
  unfold unionSet
  induction xs generalizing s with
  | nil => simp
  | cons a xs ih =>
    rw [List.foldl_cons, ih]
    unfold addSet
    split_ifs with h
    · constructor
      · rintro (h' | h')
        · exact Or.inl h'
        · exact Or.inr (List.mem_cons_of_mem _ h')
      · rintro (h' | h')
        · exact Or.inl h'
        · rcases List.mem_cons.1 h' with rfl | h'
          · exact Or.inl h
          · exact Or.inr h'
    · simp only [List.mem_append, List.mem_singleton, List.mem_cons]; tauto

theorem unionSet_disjoint (s xs : List ℤ) (h : ∀ x ∈ xs, x ∉ s) (hx : xs.Nodup) : unionSet s xs = s ++ xs := by
  unfold unionSet
  induction xs generalizing s with
  | nil => simp
  | cons a xs ih =>
    rw [List.nodup_cons] at hx
    have ha : addSet s a = s ++ [a] := by unfold addSet; rw [if_neg (h a (by simp))]
    rw [List.foldl_cons, ha, ih]
    · simp
    · intro x hxx
      simp only [List.mem_append, List.mem_singleton]
      rintro (h1 | rfl)
      · exact h x (by simp [hxx]) h1
      · exact hx.1 hxx
    · exact hx.2

/-! ## The dictionary of nulls -/

theorem addNull_getD (d : PyDict String (List ℤ)) (c : Cell) (t : String) :
    PyDict.getD (addNull d c) t [] = PyDict.getD d t [] ++ (if c.2 = t then [c.1] else []) := by
  unfold addNull
  unfold PyDict.getD
  rw [PyDict.get?_set]
  split_ifs with h
  · subst h; rfl
  · simp

theorem foldl_addNull (cs : List Cell) (d : PyDict String (List ℤ)) (hd : PyDict.WF d) :
    PyDict.WF (cs.foldl addNull d) ∧
    (∀ t, PyDict.getD (cs.foldl addNull d) t [] = PyDict.getD d t [] ++ (cs.filter fun c => c.2 = t).map Prod.fst) ∧
    (∀ t, t ∈ PyDict.keys (cs.foldl addNull d) ↔ t ∈ PyDict.keys d ∨ t ∈ cs.map Prod.snd) := by
  induction cs generalizing d with
  | nil => simp [hd]
  | cons c cs ih =>
    rw [List.foldl_cons]
    obtain ⟨h1, h2, h3⟩ := ih (addNull d c) (PyDict.WF_set hd _ _)
    refine ⟨h1, ?_, ?_⟩
    · intro t
      rw [h2, addNull_getD, List.filter_cons]
      by_cases h : c.2 = t
      · simp [h]
      · simp [h]
    · intro t
      rw [h3]
      unfold addNull
      rw [PyDict.keys_set]
      split_ifs with h
      · simp only [List.map_cons, List.mem_cons]
        constructor
        · rintro (h' | h')
          · exact Or.inl h'
          · exact Or.inr (Or.inr h')
        · rintro (h' | rfl | h')
          · exact Or.inl h'
          · exact Or.inl h
          · exact Or.inr h'
      · simp only [List.mem_append, List.mem_singleton, List.map_cons, List.mem_cons]; tauto

/-! ## The sampling loop -/

/-- What the loop state says about the cells looked at. -/
structure AccOf (isNull : String → Bool) (cs : List Cell) (a : Acc) : Prop where
  total : a.total = cs.length
  trues : a.trues = (trueCells isNull cs).map Prod.fst
  wf : PyDict.WF a.na
  rows : ∀ t, PyDict.getD a.na t [] = ((nullCells isNull cs).filter fun c => c.2 = t).map Prod.fst
  keys : ∀ t, t ∈ PyDict.keys a.na ↔ t ∈ (nullCells isNull cs).map Prod.snd

theorem accOf_step {isNull : String → Bool} {cs chunk : List Cell} {a : Acc} (h : AccOf isNull cs a)
    (hn : ((cs ++ chunk).map Prod.fst).Nodup) : AccOf isNull (cs ++ chunk) (step isNull a chunk) := by
  have hf := foldl_addNull (chunk.filter fun c => isNull c.2) a.na h.wf
  constructor
  · simp [step, h.total]
  · simp only [step, h.trues, trueCells, List.filter_append, List.map_append]
    apply unionSet_disjoint
    · intro x hx hx'
      rw [List.map_append, List.nodup_append] at hn
      have e1 : x ∈ cs.map Prod.fst := (List.filter_sublist.map Prod.fst).subset hx'
      have e2 : x ∈ chunk.map Prod.fst := (List.filter_sublist.map Prod.fst).subset hx
      exact hn.2.2 x e1 x e2 rfl
    · rw [List.map_append, List.nodup_append] at hn
      exact hn.2.1.sublist (List.filter_sublist.map Prod.fst)
  · exact hf.1
  · intro t
    simp only [step]
    rw [hf.2.1, h.rows]
    simp [nullCells]
  · intro t
    simp only [step]
    rw [hf.2.2, h.keys]
    simp only [nullCells, List.filter_append, List.map_append, List.mem_append]

theorem iloc_eq (col : List Cell) (ps : List ℕ) (h : ∀ p ∈ ps, p < col.length) : iloc col ps = .ok (cellsAt col ps) := by
  unfold iloc cellsAt
  induction ps with
  | nil => rfl
  | cons p ps ih =>
    have hp := h p (by simp)
    rw [List.mapM_cons, ih (fun q hq => h q (by simp [hq]))]
    simp [hp]
    rfl

theorem cellsAt_append (col : List Cell) (a b : List ℕ) : cellsAt col (a ++ b) = cellsAt col a ++ cellsAt col b := by
  simp [cellsAt]

theorem cellsAt_length (col : List Cell) (ps : List ℕ) (h : ∀ p ∈ ps, p < col.length) :
    (cellsAt col ps).length = ps.length := by
  unfold cellsAt
  induction ps with
  | nil => rfl
  | cons p ps ih =>
    have hp := h p (by simp)
    rw [List.filterMap_cons]
    simp [hp, ih (fun q hq => h q (by simp [hq]))]

theorem mem_cellsAt {col : List Cell} {ps : List ℕ} {c : Cell} : c ∈ cellsAt col ps ↔ ∃ p ∈ ps, col[p]? = some c := by
  simp [cellsAt]

theorem cellsAt_subset {col : List Cell} {ps : List ℕ} {c : Cell} (h : c ∈ cellsAt col ps) : c ∈ col := by
  obtain ⟨p, _, hp⟩ := mem_cellsAt.1 h
  exact List.mem_of_getElem? hp

theorem cellsAt_nodup {col : List Cell} {ps : List ℕ} (hl : (col.map Prod.fst).Nodup) (hp : ps.Nodup) :
    ((cellsAt col ps).map Prod.fst).Nodup := by
  have e : (cellsAt col ps).map Prod.fst = ps.filterMap fun p => (col.map Prod.fst)[p]? := by
    simp [cellsAt, List.map_filterMap, List.getElem?_map]
  rw [e]
  apply List.Nodup.filterMap _ hp
  intro i j x hi hj
  simp only [Option.mem_def] at hi hj
  obtain ⟨h1, e1⟩ := List.getElem?_eq_some_iff.1 hi
  obtain ⟨h2, e2⟩ := List.getElem?_eq_some_iff.1 hj
  exact (List.Nodup.getElem_inj_iff hl).1 (e1.trans e2.symm)

theorem loop_spec (isNull : String → Bool) (col : List Cell) (ss mt : ℕ) (hl : (col.map Prod.fst).Nodup)
    (chunks : List (List ℕ)) (a : Acc) (pre : List ℕ) (ha : AccOf isNull (cellsAt col pre) a)
    (hn : (pre ++ chunks.flatten).Nodup) (hr : ∀ p ∈ chunks.flatten, p < col.length) (hne : chunks ≠ []) :
    ∃ k a', loop isNull col ss mt a chunks = .ok a' ∧ k ≤ chunks.length ∧ 0 < k ∧
      AccOf isNull (cellsAt col (pre ++ (chunks.take k).flatten)) a' ∧
      (k = chunks.length ∨ (mt ≤ (trueCells isNull (cellsAt col (pre ++ (chunks.take k).flatten))).length ∧
        ss ≤ (cellsAt col (pre ++ (chunks.take k).flatten)).length)) ∧
      ∀ j, 0 < j → j < k → ¬ (mt ≤ (trueCells isNull (cellsAt col (pre ++ (chunks.take j).flatten))).length ∧
        ss ≤ (cellsAt col (pre ++ (chunks.take j).flatten)).length) := by
  induction chunks generalizing a pre with
  | nil => exact absurd rfl hne
  | cons ps rest ih =>
    have hps : ∀ p ∈ ps, p < col.length := fun p hp => hr p (by simp [hp])
    have hn' : (pre ++ ps).Nodup := by
      refine hn.sublist ?_
      simp
    have hacc : AccOf isNull (cellsAt col (pre ++ ps)) (step isNull a (cellsAt col ps)) := by
      rw [cellsAt_append]
      apply accOf_step ha
      rw [← cellsAt_append]
      exact cellsAt_nodup hl hn'
    rw [loop, iloc_eq col ps hps]
    simp only
    rw [hacc.trues, hacc.total, List.length_map]
    by_cases hstop : mt ≤ (trueCells isNull (cellsAt col (pre ++ ps))).length ∧ ss ≤ (cellsAt col (pre ++ ps)).length
    · rw [if_pos hstop]
      refine ⟨1, _, rfl, by simp, by simp, ?_, ?_, ?_⟩
      · simpa using hacc
      · right; simpa using hstop
      · intro j h1 h2; omega
    · rw [if_neg hstop]
      by_cases hrest : rest = []
      · subst hrest
        refine ⟨1, _, rfl, by simp, by simp, by simpa using hacc, by simp, ?_⟩
        intro j h1 h2; omega
      · obtain ⟨k, a', h1, h2, h3, h4, h5, h6⟩ := ih (step isNull a (cellsAt col ps)) (pre ++ ps) hacc
          (by simpa using hn) (fun p hp => hr p (by simp only [List.flatten_cons, List.mem_append]; exact Or.inr hp)) hrest
        refine ⟨k + 1, a', h1, by simpa using h2, by omega, ?_, ?_, ?_⟩
        · simpa using h4
        · rcases h5 with h5 | h5
          · left; simp [h5]
          · right; simpa using h5
        · intro j hj1 hj2
          cases j with
          | zero => omega
          | succ j =>
            cases j with
            | zero => simpa using hstop
            | succ j =>
              have := h6 (j + 1) (by omega) (by omega)
              simpa using this

/-! ## Looking up labels -/

theorem filter_label {col : List Cell} (hl : (col.map Prod.fst).Nodup) {c : Cell} (hc : c ∈ col) :
    col.filter (fun d => decide (d.1 = c.1)) = [c] := by
  induction col with
  | nil => simp at hc
  | cons d col ih =>
    simp only [List.map_cons, List.nodup_cons] at hl
    rcases List.mem_cons.1 hc with rfl | hc
    · rw [List.filter_cons_of_pos (by simp)]
      congr 1
      rw [List.filter_eq_nil_iff]
      intro x hx
      simp only [decide_eq_true_eq]
      intro he
      exact hl.1 (he ▸ List.mem_map_of_mem hx)
    · rw [List.filter_cons_of_neg, ih hl.2 hc]
      simp only [decide_eq_true_eq]
      intro he
      exact hl.1 (he ▸ List.mem_map_of_mem hc)

theorem loc_labels {col : List Cell} (hl : (col.map Prod.fst).Nodup) (cs : List Cell) (hs : ∀ c ∈ cs, c ∈ col) :
    loc col (cs.map Prod.fst) = cs.map Prod.snd := by
  unfold loc
  induction cs with
  | nil => rfl
  | cons c cs ih =>
    rw [List.map_cons, List.flatMap_cons, ih (fun d hd => hs d (by simp [hd])), filter_label hl (hs c (by simp))]
    rfl

theorem loc_perm (col : List Cell) {l m : List ℤ} (h : l.Perm m) : (loc col l).Perm (loc col m) :=
  h.flatMap_right _

/-- Sorting the labels of a selection of an increasing column gives the selection in column order. -/
theorem sort_labels {col : List Cell} (hl : (col.map Prod.fst).Pairwise (· < ·)) (cs : List Cell)
    (hs : ∀ c ∈ cs, c ∈ col) (hn : (cs.map Prod.fst).Nodup) :
    (cs.map Prod.fst).insertionSort (· ≤ ·) = (col.filter fun c => decide (c ∈ cs)).map Prod.fst := by
  have hnd : (col.map Prod.fst).Nodup := hl.imp (fun h => ne_of_lt h)
  have hcn : cs.Nodup := hn.of_map
  have hcoln : col.Nodup := hnd.of_map
  have hperm : (cs.map Prod.fst).Perm ((col.filter fun c => decide (c ∈ cs)).map Prod.fst) := by
    apply List.Perm.map
    rw [List.perm_ext_iff_of_nodup hcn (hcoln.filter _)]
    intro c
    simp only [List.mem_filter, decide_eq_true_eq]
    exact ⟨fun h => ⟨hs c h, h⟩, fun h => h.2⟩
  refine List.Perm.eq_of_pairwise (le := (· ≤ ·)) ?_ (List.pairwise_insertionSort _ _) ?_
    ((List.perm_insertionSort _ _).trans hperm)
  · intro a b _ _ h1 h2; exact le_antisymm h1 h2
  · exact (hl.sublist (List.filter_sublist.map Prod.fst)).imp le_of_lt

/-! ## One batch -/

theorem idRange_bounds {col : List Cell} {lo hi : ℤ} (h : idRange col = some (lo, hi)) :
    (∀ c ∈ col, lo ≤ c.1 ∧ c.1 ≤ hi) ∧ (∃ c ∈ col, c.1 = lo) := by
  have hmin : ∀ (cs : List Cell) (m : ℤ), (cs.foldl (fun m d => min m d.1) m ≤ m) ∧
      (∀ c ∈ cs, cs.foldl (fun m d => min m d.1) m ≤ c.1) ∧
      (cs.foldl (fun m d => min m d.1) m = m ∨ ∃ c ∈ cs, c.1 = cs.foldl (fun m d => min m d.1) m) := by
    intro cs
    induction cs with
    | nil => intro m; simp
    | cons c cs ih =>
      intro m
      rw [List.foldl_cons]
      obtain ⟨h1, h2, h3⟩ := ih (min m c.1)
      refine ⟨h1.trans (min_le_left _ _), ?_, ?_⟩
      · intro d hd
        rcases List.mem_cons.1 hd with rfl | hd
        · exact h1.trans (min_le_right _ _)
        · exact h2 d hd
      · rcases h3 with h3 | ⟨d, hd, h3⟩
        · rcases min_choice m c.1 with h | h
          · left; rw [h3, h]
          · right; exact ⟨c, by simp, by rw [h3, h]⟩
        · right; exact ⟨d, by simp [hd], h3⟩
  have hmax : ∀ (cs : List Cell) (m : ℤ), (m ≤ cs.foldl (fun m d => max m d.1) m) ∧
      (∀ c ∈ cs, c.1 ≤ cs.foldl (fun m d => max m d.1) m) := by
    intro cs
    induction cs with
    | nil => intro m; simp
    | cons c cs ih =>
      intro m
      rw [List.foldl_cons]
      obtain ⟨h1, h2⟩ := ih (max m c.1)
      refine ⟨(le_max_left _ _).trans h1, ?_⟩
      intro d hd
      rcases List.mem_cons.1 hd with rfl | hd
      · exact (le_max_right _ _).trans h1
      · exact h2 d hd
  cases col with
  | nil => simp [idRange] at h
  | cons c cs =>
    simp only [idRange, Option.some.injEq, Prod.mk.injEq] at h
    obtain ⟨rfl, rfl⟩ := h
    obtain ⟨m1, m2, m3⟩ := hmin cs c.1
    obtain ⟨M1, M2⟩ := hmax cs c.1
    refine ⟨?_, ?_⟩
    · intro d hd
      rcases List.mem_cons.1 hd with rfl | hd
      · exact ⟨m1, M1⟩
      · exact ⟨m2 d hd, M2 d hd⟩
    · rcases m3 with m3 | ⟨d, hd, m3⟩
      · exact ⟨c, by simp, m3.symm⟩
      · exact ⟨d, by simp [hd], m3⟩

theorem true_null_length (isNull : String → Bool) (cs : List Cell) :
    (trueCells isNull cs).length + (nullCells isNull cs).length = cs.length := by
  unfold trueCells nullCells
  induction cs with
  | nil => rfl
  | cons c cs ih =>
    rw [List.filter_cons, List.filter_cons]
    cases isNull c.2 <;> simp <;> omega

theorem firstRows_positions {b : Batch} (hv : Valid b) (k : ℕ) :
    (b.chunks.take k).flatten.Nodup ∧ ∀ p ∈ (b.chunks.take k).flatten, p < b.col.length := by
  have hsub : (b.chunks.take k).flatten.Sublist b.chunks.flatten := by
    conv => rhs; rw [← List.take_append_drop k b.chunks]
    rw [List.flatten_append]
    exact List.sublist_append_left _ _
  exact ⟨hv.positions.sublist hsub, fun p hp => hv.inRange p (hsub.subset hp)⟩

theorem firstRows_nodup {b : Batch} (hv : Valid b) (k : ℕ) : ((firstRows b k).map Prod.fst).Nodup :=
  cellsAt_nodup hv.labels (firstRows_positions hv k).1

theorem firstRows_ne_nil {b : Batch} (hv : Valid b) {k : ℕ} (hk : 0 < k) : firstRows b k ≠ [] := by
  intro h
  have h1 := cellsAt_length b.col _ (firstRows_positions hv k).2
  unfold firstRows at h
  rw [h] at h1
  obtain ⟨c, cs, hc⟩ := List.exists_cons_of_ne_nil hv.some
  have h2 := hv.nonempty c (by rw [hc]; simp)
  rw [hc] at h1
  cases k with
  | zero => omega
  | succ k =>
    simp only [List.take_succ_cons, List.flatten_cons, List.length_append, List.length_nil] at h1
    have := List.length_pos_iff.2 h2
    omega

/-- What `clean` returns, in terms of the rows looked at. -/
theorem clean_spec {isNull : String → Bool} {setOrder : List ℤ → List ℤ} (hset : ∀ l, (setOrder l).Perm l) {b : Batch}
    (hv : Valid b) :
    ∃ k vals na, Taken isNull b k ∧
      clean isNull setOrder b.col b.sampleSize b.minTrue b.given b.chunks =
        .ok (vals, ⟨(firstRows b k).length, (nullCells isNull (firstRows b k)).length, na, idRange b.col⟩) ∧
      PyDict.WF na ∧
      (∀ t, PyDict.getD na t [] = ((nullCells isNull (firstRows b k)).filter fun c => c.2 = t).map Prod.fst) ∧
      (∀ t, t ∈ PyDict.keys na ↔ t ∈ (nullCells isNull (firstRows b k)).map Prod.snd) ∧
      vals.Perm ((trueCells isNull (firstRows b k)).map Prod.snd) ∧
      ((0 < b.minTrue ∨ b.given = false) → vals =
        loc b.col (((trueCells isNull (firstRows b k)).map Prod.fst).insertionSort (· ≤ ·))) ∧
      (¬ (0 < b.minTrue ∨ b.given = false) → vals =
        loc b.col (setOrder ((trueCells isNull (firstRows b k)).map Prod.fst))) := by
  have h0 : AccOf isNull (cellsAt b.col []) ⟨[], [], 0⟩ := by
    constructor <;> simp [cellsAt, trueCells, nullCells, PyDict.WF_nil, PyDict.getD, PyDict.get?, PyDict.keys]
  obtain ⟨k, a, h1, h2, h3, h4, h5, h6⟩ := loop_spec isNull b.col b.sampleSize b.minTrue hv.labels b.chunks ⟨[], [], 0⟩ []
    h0 (by simpa using hv.positions) hv.inRange hv.some
  simp only [List.nil_append] at h4 h5 h6
  have hne := firstRows_ne_nil hv h3
  have hcol : b.col ≠ [] := by
    intro he
    apply hne
    unfold firstRows cellsAt
    rw [he, List.filterMap_eq_nil_iff]
    intro p _
    rfl
  have hlen : a.total ≠ 0 := by
    rw [h4.total]
    exact fun h => hne (List.length_eq_zero_iff.1 h)
  have hsub : ∀ c ∈ trueCells isNull (firstRows b k), c ∈ b.col := fun c hc =>
    cellsAt_subset (List.mem_of_mem_filter hc)
  have hlab : ∀ l : List ℤ, l.Perm a.trues → (loc b.col l).Perm ((trueCells isNull (firstRows b k)).map Prod.snd) := by
    intro l hl
    rw [← loc_labels hv.labels _ hsub]
    apply loc_perm
    rw [h4.trues] at hl
    exact hl
  have hnc : ∀ l : List ℤ, l.Perm a.trues → a.total - l.length = (nullCells isNull (firstRows b k)).length := by
    intro l hl
    have := true_null_length isNull (firstRows b k)
    rw [hl.length_eq, h4.trues, h4.total, List.length_map]
    unfold firstRows at *
    omega
  refine ⟨k, loc b.col (if 0 < b.minTrue ∨ b.given = false then a.trues.insertionSort (· ≤ ·) else setOrder a.trues),
    a.na, ⟨h2, h3, h5, h6⟩, ?_, h4.wf, h4.rows, h4.keys, ?_, ?_, ?_⟩
  · unfold clean
    rw [if_neg hcol, h1]
    simp only [hlen, if_false]
    rw [hnc]
    · rw [h4.total]; rfl
    · split_ifs
      · exact List.perm_insertionSort _ _
      · exact hset _
  · apply hlab
    split_ifs
    · exact List.perm_insertionSort _ _
    · exact hset _
  · intro h; rw [if_pos h, h4.trues]; rfl
  · intro h; rw [if_neg h, h4.trues]; rfl

/-! ## Accumulation -/

/-- Base statistics `b` describe the cells `cs`, with all indices inside the id range. -/
structure BInv (isNull : String → Bool) (b : Base) (cs : List Cell) : Prop where
  sampleSize : b.sampleSize = cs.length
  nullCount : b.nullCount = (nullCells isNull cs).length
  wf : PyDict.WF b.nullTypes
  keys : ∀ t, t ∈ PyDict.keys b.nullTypes ↔ t ∈ (nullCells isNull cs).map Prod.snd
  rows : ∀ t, (PyDict.getD b.nullTypes t []).Nodup ∧
    (PyDict.getD b.nullTypes t []).length = (nullCells isNull cs).countP fun c => c.2 = t
  bound : ∀ t, ∀ x ∈ PyDict.getD b.nullTypes t [], ∃ lo hi, b.ids = some (lo, hi) ∧ lo ≤ x ∧ x ≤ hi
  ids : ∀ lo hi, b.ids = some (lo, hi) → 0 ≤ lo ∧ lo ≤ hi

theorem foldl_addRows (e d : PyDict String (List ℤ)) (he : PyDict.WF e) (hd : PyDict.WF d) :
    PyDict.WF (e.foldl addRows d) ∧
    (∀ t, PyDict.getD (e.foldl addRows d) t [] = unionSet (PyDict.getD d t []) (PyDict.getD e t [])) ∧
    (∀ t, t ∈ PyDict.keys (e.foldl addRows d) ↔ t ∈ PyDict.keys d ∨ t ∈ PyDict.keys e) := by
  induction e generalizing d with
  | nil => refine ⟨hd, ?_, ?_⟩ <;> simp [PyDict.getD, PyDict.get?, unionSet, PyDict.keys]
  | cons kv e ih =>
    obtain ⟨k, v⟩ := kv
    have hk : k ∉ PyDict.keys e := (List.nodup_cons.1 he).1
    have he' : PyDict.WF e := (List.nodup_cons.1 he).2
    rw [List.foldl_cons]
    obtain ⟨h1, h2, h3⟩ := ih (addRows d (k, v)) he' (PyDict.WF_set hd _ _)
    refine ⟨h1, ?_, ?_⟩
    · intro t
      rw [h2]
      unfold addRows
      have e0 : ∀ (x : List ℤ), PyDict.getD (PyDict.set d k x) t [] = if k = t then x else PyDict.getD d t [] := by
        intro x
        unfold PyDict.getD
        rw [PyDict.get?_set]
        split_ifs <;> rfl
      have e1 : PyDict.getD ((k, v) :: e) t [] = if k = t then v else PyDict.getD e t [] := by
        unfold PyDict.getD
        rw [PyDict.get?_cons]
        split_ifs <;> rfl
      rw [e0, e1]
      split_ifs with hkt
      · subst hkt
        have : PyDict.getD e k [] = [] := by
          unfold PyDict.getD; rw [(PyDict.get?_eq_none_iff e k).2 hk]; rfl
        rw [this]; rfl
      · rfl
    · intro t
      rw [h3]
      unfold addRows
      rw [PyDict.keys_set]
      have e1 : PyDict.keys ((k, v) :: e) = k :: PyDict.keys e := rfl
      rw [e1]
      split_ifs with h
      · simp only [List.mem_cons]
        constructor
        · rintro (h' | h')
          · exact Or.inl h'
          · exact Or.inr (Or.inr h')
        · rintro (h' | rfl | h')
          · exact Or.inl h'
          · exact Or.inl h
          · exact Or.inr h'
      · simp only [List.mem_append, List.mem_singleton, List.mem_cons]; tauto

theorem shift_dict (d : PyDict String (List ℤ)) (sh : ℤ) :
    PyDict.keys (d.map fun kv => (kv.1, kv.2.map (· + sh))) = PyDict.keys d ∧
    ∀ t, PyDict.getD (d.map fun kv => (kv.1, kv.2.map (· + sh))) t [] = (PyDict.getD d t []).map (· + sh) := by
  constructor
  · simp [PyDict.keys]
  · intro t
    unfold PyDict.getD
    induction d with
    | nil => simp [PyDict.get?]
    | cons kv d ih =>
      obtain ⟨k, v⟩ := kv
      rw [List.map_cons, PyDict.get?_cons, PyDict.get?_cons]
      split_ifs
      · simp
      · exact ih

theorem nullCells_append (isNull : String → Bool) (cs ds : List Cell) :
    nullCells isNull (cs ++ ds) = nullCells isNull cs ++ nullCells isNull ds := by simp [nullCells]

/-- A null index of the profile never coincides with a shifted index of the new batch. -/
theorem shift_disjoint {m n : Option (ℤ × ℤ)} {x y : ℤ}
    (hx : ∃ lo hi, m = some (lo, hi) ∧ lo ≤ x ∧ x ≤ hi) (hy : ∃ lo hi, n = some (lo, hi) ∧ lo ≤ y ∧ y ≤ hi)
    (hn : ∀ lo hi, n = some (lo, hi) → 0 ≤ lo ∧ lo ≤ hi) : x ≠ y + shiftOf m n := by
  obtain ⟨a, b, rfl, h1, h2⟩ := hx
  obtain ⟨c, d, rfl, h3, h4⟩ := hy
  have h5 := hn c d rfl
  unfold shiftOf
  simp only
  split_ifs with h
  · intro he; omega
  · simp only [overlap, decide_eq_true_eq] at h
    intro he
    omega

theorem updateBase_inv {isNull : String → Bool} {s : ColState} {b : Base} {cs ds : List Cell}
    (hs : BInv isNull s.asBase cs) (hb : BInv isNull b ds) (hd : ds ≠ []) :
    ∃ s', updateBase s b = .ok s' ∧ BInv isNull s'.asBase (cs ++ ds) ∧
      s'.nullTypes = combineUnique s.nullTypes (PyDict.keys b.nullTypes) ∧
      s'.nullRatio = some (((nullCells isNull ds).length : ℚ) / ds.length) := by
  have hne : b.sampleSize ≠ 0 := by
    rw [hb.sampleSize]; exact fun h => hd (List.length_eq_zero_iff.1 h)
  have hs1 : s.sampleSize = cs.length := hs.sampleSize
  have hs2 : s.nullCount = (nullCells isNull cs).length := hs.nullCount
  have hsw : PyDict.WF s.index := hs.wf
  obtain ⟨k1, k2⟩ := shift_dict b.nullTypes (shiftOf s.ids b.ids)
  have hwf : PyDict.WF (b.nullTypes.map fun kv => (kv.1, kv.2.map (· + shiftOf s.ids b.ids))) := by
    unfold PyDict.WF; rw [k1]; exact hb.wf
  obtain ⟨r1, r2, r3⟩ := foldl_addRows _ s.index hwf hsw
  have hdis : ∀ t, ∀ x ∈ (PyDict.getD b.nullTypes t []).map (· + shiftOf s.ids b.ids), x ∉ PyDict.getD s.index t [] := by
    intro t x hx hx'
    obtain ⟨y, hy, rfl⟩ := List.mem_map.1 hx
    exact shift_disjoint (hs.bound t _ hx') (hb.bound t y hy) hb.ids rfl
  have hun : ∀ t, unionSet (PyDict.getD s.index t []) ((PyDict.getD b.nullTypes t []).map (· + shiftOf s.ids b.ids)) =
      PyDict.getD s.index t [] ++ (PyDict.getD b.nullTypes t []).map (· + shiftOf s.ids b.ids) := by
    intro t
    apply unionSet_disjoint _ _ (hdis t)
    exact (hb.rows t).1.map (fun a b h => by simpa using h)
  refine ⟨_, by unfold updateBase; rw [if_neg hne], ?_, rfl, ?_⟩
  · constructor
    · simp [ColState.asBase, hs1, hb.sampleSize]
    · simp [ColState.asBase, hs2, hb.nullCount, nullCells_append]
    · exact r1
    · intro t
      show t ∈ PyDict.keys (List.foldl addRows s.index _) ↔ _
      rw [r3, k1, nullCells_append, List.map_append, List.mem_append, ← hs.keys, ← hb.keys]
      rfl
    · intro t
      show (PyDict.getD (List.foldl addRows s.index _) t []).Nodup ∧ _
      simp only [ColState.asBase]
      rw [r2, k2, hun, nullCells_append, List.countP_append, List.length_append, List.length_map, (hb.rows t).2]
      refine ⟨?_, ?_⟩
      · rw [List.nodup_append]
        refine ⟨(hs.rows t).1, (hb.rows t).1.map (fun a b h => by simpa using h), ?_⟩
        rintro x hx y hy rfl
        exact hdis t x hy hx
      · have := (hs.rows t).2
        simp only [ColState.asBase] at this
        rw [this]
    · intro t x hx
      simp only [ColState.asBase] at hx ⊢
      rw [r2, k2, hun] at hx
      rcases List.mem_append.1 hx with hx | hx
      · obtain ⟨lo, hi, h1, h2, h3⟩ := hs.bound t x hx
        have h1 : s.ids = some (lo, hi) := h1
        rw [h1]
        cases hb' : b.ids with
        | none => exact ⟨lo, hi, rfl, h2, h3⟩
        | some r =>
          refine ⟨_, _, rfl, ?_, ?_⟩
          · exact (min_le_left _ _).trans h2
          · exact h3.trans (le_max_left _ _)
      · obtain ⟨y, hy, rfl⟩ := List.mem_map.1 hx
        obtain ⟨lo, hi, h1, h2, h3⟩ := hb.bound t y hy
        generalize shiftOf s.ids b.ids = sh
        rw [h1]
        cases hs' : s.ids with
        | none => exact ⟨_, _, rfl, by simpa using h2, by simpa using h3⟩
        | some r =>
          refine ⟨_, _, rfl, ?_, ?_⟩
          · exact (min_le_right _ _).trans (by simpa using h2)
          · exact le_trans (by simpa using h3) (le_max_right _ _)
    · intro lo hi h
      simp only [ColState.asBase] at h
      have hsn : 0 ≤ shiftOf s.ids b.ids := by
        unfold shiftOf
        cases hs' : s.ids with
        | none => simp
        | some r =>
          obtain ⟨a, c⟩ := r
          have := hs.ids a c hs'
          simp only
          split_ifs <;> omega
      generalize shiftOf s.ids b.ids = sh at h hsn
      cases hs' : s.ids with
      | none =>
        rw [hs'] at h
        cases hb' : b.ids with
        | none => rw [hb'] at h; simp [mergeIds] at h
        | some r =>
          obtain ⟨a, c⟩ := r
          rw [hb'] at h
          simp only [mergeIds, Option.map_some, Option.some.injEq, Prod.mk.injEq] at h
          have := hb.ids a c hb'
          omega
      | some q =>
        obtain ⟨a', c'⟩ := q
        have hq := hs.ids a' c' hs'
        rw [hs'] at h
        cases hb' : b.ids with
        | none =>
          rw [hb'] at h
          simp only [mergeIds, Option.map_none, Option.some.injEq, Prod.mk.injEq] at h
          omega
        | some r =>
          obtain ⟨a, c⟩ := r
          rw [hb'] at h
          simp only [mergeIds, Option.map_some, Option.some.injEq, Prod.mk.injEq] at h
          have := hb.ids a c hb'
          omega
  · simp [hb.nullCount, hb.sampleSize]

theorem new_inv (isNull : String → Bool) : BInv isNull ColState.new.asBase [] := by
  constructor <;> simp [ColState.new, ColState.asBase, nullCells, PyDict.WF_nil, PyDict.keys, PyDict.getD, PyDict.get?]

theorem batch_inv {isNull : String → Bool} {setOrder : List ℤ → List ℤ} (hset : ∀ l, (setOrder l).Perm l) {b : Batch}
    (hv : Valid b) (hpos : ∀ c ∈ b.col, 0 ≤ c.1) :
    ∃ k base, Taken isNull b k ∧ batchBase isNull setOrder b = .ok base ∧ BInv isNull base (firstRows b k) ∧
      firstRows b k ≠ [] := by
  obtain ⟨k, vals, na, ht, hc, hwf, hrows, hkeys, _⟩ := clean_spec (isNull := isNull) hset hv
  refine ⟨k, _, ht, by unfold batchBase; rw [hc], ?_, firstRows_ne_nil hv ht.pos⟩
  have hcol : ∀ c ∈ firstRows b k, c ∈ b.col := fun c hc => cellsAt_subset hc
  constructor
  · rfl
  · rfl
  · exact hwf
  · exact hkeys
  · intro t
    simp only
    rw [hrows]
    refine ⟨?_, ?_⟩
    · exact (firstRows_nodup hv k).sublist ((List.filter_sublist.trans List.filter_sublist).map Prod.fst)
    · rw [List.length_map, List.countP_eq_length_filter]
  · intro t x hx
    simp only at hx ⊢
    rw [hrows] at hx
    obtain ⟨c, hc', rfl⟩ := List.mem_map.1 hx
    have hm : c ∈ b.col := hcol c (List.mem_of_mem_filter (List.mem_of_mem_filter hc'))
    cases hr : idRange b.col with
    | none =>
      cases hcc : b.col with
      | nil => rw [hcc] at hm; simp at hm
      | cons d ds => rw [hcc] at hr; simp [idRange] at hr
    | some r =>
      obtain ⟨lo, hi⟩ := r
      have := (idRange_bounds hr).1 c hm
      exact ⟨lo, hi, rfl, this.1, this.2⟩
  · intro lo hi h
    simp only at h
    obtain ⟨h1, c, hc', h2⟩ := idRange_bounds h
    have := h1 c hc'
    have := hpos c hc'
    omega

end Verif.Nulls
