import Mathlib.Tactic.NormNum
import Mathlib.Data.List.Dedup
import Mathlib.Algebra.BigOperators.Group.List.Basic
import Verif.Lemmas.Nulls
import Verif.Props.Shuffle
import Verif.Props.Chunks

/-!
# C17 — nulls and non-nulls partition the sample

`Valid` batches have distinct index labels and distinct sampled positions; both index generators of the code produce
such positions (`C17_own_chunks`, `C17_table_chunks`).
-/

namespace Verif.Nulls

open Verif Verif.NullsSpec

variable {isNull : String → Bool} {setOrder : List ℤ → List ℤ}

/-- The rows looked at are determined: the shortest non-empty run of chunks that suffices, or everything. -/
theorem C17_taken_unique {b : Batch} {k k' : ℕ} (h : Taken isNull b k) (h' : Taken isNull b k') : k = k' := by
  rcases lt_trichotomy k k' with hlt | heq | hlt
  · rcases h.stop with hs | hs
    · have := h'.le; omega
    · exact absurd hs (h'.first k h.pos hlt)
  · exact heq
  · rcases h'.stop with hs | hs
    · have := h.le; omega
    · exact absurd hs (h.first k' h'.pos hlt)

/-- Cleaning a batch: sample size, null count, the recorded positions of every null text and the values passed on
are exactly those of the rows looked at. -/
theorem C17_partition (hset : ∀ l, (setOrder l).Perm l) {b : Batch} (hv : Valid b) :
    ∃ k vals base, Taken isNull b k ∧
      clean isNull setOrder b.col b.sampleSize b.minTrue b.given b.chunks = .ok (vals, base) ∧
      base.sampleSize = (firstRows b k).length ∧
      base.nullCount = (nullCells isNull (firstRows b k)).length ∧
      base.nullCount + vals.length = base.sampleSize ∧
      vals.Perm ((trueCells isNull (firstRows b k)).map Prod.snd) ∧
      (∀ t, PyDict.getD base.nullTypes t [] =
        ((nullCells isNull (firstRows b k)).filter fun c => c.2 = t).map Prod.fst) ∧
      (∀ t, t ∈ PyDict.keys base.nullTypes ↔ t ∈ (nullCells isNull (firstRows b k)).map Prod.snd) := by
  obtain ⟨k, vals, na, h1, h2, _, h4, h5, h6, _⟩ := clean_spec (isNull := isNull) hset hv
  refine ⟨k, vals, _, h1, h2, rfl, rfl, ?_, h6, h4, h5⟩
  have := true_null_length isNull (firstRows b k)
  simp only
  rw [h6.length_eq, List.length_map]
  omega

/-- With increasing index labels and sorted positions (a minimum of true samples, or a column profiled on its own), the
values are passed on in column order. -/
theorem C17_in_order (hset : ∀ l, (setOrder l).Perm l) {b : Batch} (hv : Valid b)
    (hinc : (b.col.map Prod.fst).Pairwise (· < ·)) (hsort : 0 < b.minTrue ∨ b.given = false) :
    ∃ k vals base, Taken isNull b k ∧
      clean isNull setOrder b.col b.sampleSize b.minTrue b.given b.chunks = .ok (vals, base) ∧
      vals = (b.col.filter fun c => decide (c ∈ firstRows b k) && !isNull c.2).map Prod.snd := by
  obtain ⟨k, vals, na, h1, h2, _, h4, h5, h6, h7, _⟩ := clean_spec (isNull := isNull) hset hv
  refine ⟨k, vals, _, h1, h2, ?_⟩
  have hsub : ∀ c ∈ trueCells isNull (firstRows b k), c ∈ b.col := fun c hc =>
    cellsAt_subset (List.mem_of_mem_filter hc)
  rw [h7 hsort, sort_labels hinc _ hsub ((firstRows_nodup hv k).sublist (List.filter_sublist.map Prod.fst)),
    loc_labels hv.labels _ (fun c hc => List.mem_of_mem_filter hc)]
  congr 1
  apply List.filter_congr
  intro c _
  simp [trueCells]

/-- Looking at the whole column: the null count is the number of null texts, the values are all the others. -/
theorem C17_whole_column (hset : ∀ l, (setOrder l).Perm l) {b : Batch} (hv : Valid b)
    (hall : b.chunks.flatten.Perm (List.range b.col.length)) (hfull : b.col.length ≤ b.sampleSize) :
    ∃ vals base, clean isNull setOrder b.col b.sampleSize b.minTrue b.given b.chunks = .ok (vals, base) ∧
      base.sampleSize = b.col.length ∧ base.nullCount = b.col.countP (fun c => isNull c.2) ∧
      vals.Perm ((b.col.filter fun c => !isNull c.2).map Prod.snd) ∧
      ((b.col.map Prod.fst).Pairwise (· < ·) → (0 < b.minTrue ∨ b.given = false) →
        vals = (b.col.filter fun c => !isNull c.2).map Prod.snd) := by
  have hperm : ∀ k, Taken isNull b k → (firstRows b k).Perm b.col := by
    intro k hk
    have hpos := firstRows_positions hv k
    have hlen : (firstRows b k).length = (b.chunks.take k).flatten.length := cellsAt_length _ _ hpos.2
    have hle : b.col.length ≤ (b.chunks.take k).flatten.length := by
      rcases hk.stop with hs | hs
      · rw [hs, List.take_length, hall.length_eq, List.length_range]
      · have := hs.2; omega
    have hp : (b.chunks.take k).flatten.Perm (List.range b.col.length) := by
      refine List.Perm.trans ?_ hall
      have hsub : (b.chunks.take k).flatten.Sublist b.chunks.flatten := by
        conv => rhs; rw [← List.take_append_drop k b.chunks]
        rw [List.flatten_append]
        exact List.sublist_append_left _ _
      have h2 := hall.length_eq
      rw [List.length_range] at h2
      rw [hsub.eq_of_length_le (by omega)]
    have h2 : (firstRows b k).Perm (cellsAt b.col (List.range b.col.length)) := by
      unfold firstRows cellsAt
      exact hp.filterMap _
    refine h2.trans (List.Perm.of_eq ?_)
    unfold cellsAt
    apply List.ext_getElem?
    intro i
    have hmap : List.filterMap (fun p => b.col[p]?) (List.range b.col.length) = b.col := by
      have : ∀ n, n ≤ b.col.length → List.filterMap (fun p => b.col[p]?) (List.range n) = b.col.take n := by
        intro n hn
        induction n with
        | zero => simp
        | succ n ih =>
          rw [List.range_succ, List.filterMap_append, ih (by omega), List.take_add_one]
          simp [show n < b.col.length by omega]
      rw [this _ le_rfl, List.take_length]
    rw [hmap]
  obtain ⟨k, vals, base, h1, h2, h3, h4, _, h6, _, _⟩ := C17_partition (isNull := isNull) hset hv
  have hp := hperm k h1
  refine ⟨vals, base, h2, by rw [h3, hp.length_eq], ?_, ?_, ?_⟩
  · rw [h4, nullCells, ← List.countP_eq_length_filter]; exact hp.countP_eq _
  · exact h6.trans ((hp.filter _).map _)
  · intro hinc hsort
    obtain ⟨k', vals', base', g1, g2, g3⟩ := C17_in_order (isNull := isNull) hset hv hinc hsort
    rw [h2] at g2
    simp only [Except.ok.injEq, Prod.mk.injEq] at g2
    obtain rfl := C17_taken_unique h1 g1
    rw [g2.1, g3]
    congr 1
    apply List.filter_congr
    intro c hc
    simp [hp.mem_iff.2 hc]

/-- A column profiled on its own is given valid positions, whatever the random draws. -/
theorem C17_own_chunks (col : List Cell) (ss mt : ℕ) (draws : ℕ → ℕ) (hd : Shuffle.ValidDraws col.length draws)
    (hl : (col.map Prod.fst).Nodup) (hc : col ≠ []) (hs : 0 < ss) :
    Valid ⟨col, ss, mt, false, ownChunks col.length ss draws⟩ ∧
      (ownChunks col.length ss draws).flatten.Perm (List.range col.length) := by
  have hn : 0 < col.length := List.length_pos_iff.2 hc
  have hp : (ownChunks col.length ss draws).flatten.Perm (List.range col.length) :=
    Shuffle.C26_permutation col.length ss draws hs hd
  obtain ⟨hlen, hpos, _⟩ := Shuffle.C26_chunk_sizes col.length ss draws hn hs
  refine ⟨⟨hl, hp.nodup_iff.2 List.nodup_range, fun p h => List.mem_range.1 (hp.mem_iff.1 h), ?_, ?_⟩, hp⟩
  · intro he
    simp only [ownChunks] at he
    rw [he] at hlen
    simp at hlen
  · intro c hcm he
    subst he
    have : (0 : ℕ) ∈ (Shuffle.shuffleInChunks col.length ss draws).map List.length :=
      List.mem_map.2 ⟨[], hcm, rfl⟩
    rw [hlen] at this
    simp only [List.mem_append, List.mem_replicate, List.mem_singleton] at this
    omega

/-- A column profiled as part of a table is given valid positions, whatever the random draws; without a minimum of
true samples, exactly `min sampleSize n` rows in ascending order, in one chunk. -/
theorem C17_table_chunks (col : List Cell) (ss mt : ℕ) (draws : ℕ → ℕ) (hd : Shuffle.ValidDraws col.length draws)
    (hl : (col.map Prod.fst).Nodup) (hc : col ≠ []) (hs : 0 < ss) :
    ∃ chunks, tableChunks col.length ss mt draws = .ok chunks ∧ Valid ⟨col, ss, mt, true, chunks⟩ ∧
      (mt = 0 → ∃ ids, chunks = [ids] ∧ ids.length = min ss col.length ∧ ids.Pairwise (· < ·)) ∧
      (mt ≠ 0 ∨ col.length ≤ ss → chunks.flatten.Perm (List.range col.length)) := by
  have hn : 0 < col.length := List.length_pos_iff.2 hc
  have hp := Shuffle.C26_permutation col.length col.length draws hn hd
  obtain ⟨hlen, _, _⟩ := Shuffle.C26_chunk_sizes col.length col.length draws hn hn
  have hz : (col.length - 1) / col.length = 0 := Nat.div_eq_of_lt (by omega)
  rw [hz] at hlen
  simp only [List.replicate_zero, List.nil_append, Nat.mul_zero, Nat.sub_zero] at hlen
  obtain ⟨ids, hids⟩ : ∃ ids, Shuffle.shuffleInChunks col.length col.length draws = [ids] := by
    have := congrArg List.length hlen
    simp only [List.length_map, List.length_singleton] at this
    exact List.length_eq_one_iff.1 this
  rw [hids] at hp
  simp only [List.flatten_cons, List.flatten_nil, List.append_nil] at hp
  obtain ⟨ps, hps, hcut⟩ := (Chunks.C25_partition (sharedIds col.length ss mt draws) ss).1 hs
  have hsh : sharedIds col.length ss mt draws = if mt = 0 then (ids.take ss).insertionSort (· ≤ ·) else ids := by
    unfold sharedIds; rw [hids]; rfl
  have hnodup : (sharedIds col.length ss mt draws).Nodup := by
    rw [hsh]
    split_ifs
    · rw [(List.perm_insertionSort _ _).nodup_iff]
      exact (hp.nodup_iff.2 List.nodup_range).sublist (List.take_sublist _ _)
    · exact hp.nodup_iff.2 List.nodup_range
  have hrange : ∀ p ∈ sharedIds col.length ss mt draws, p < col.length := by
    intro p hpm
    rw [hsh] at hpm
    apply List.mem_range.1
    apply hp.mem_iff.1
    split_ifs at hpm
    · exact List.mem_of_mem_take ((List.perm_insertionSort _ _).mem_iff.1 hpm)
    · exact hpm
  have hidl : ids.length = col.length := by rw [hp.length_eq, List.length_range]
  have hne : sharedIds col.length ss mt draws ≠ [] := by
    intro he
    rw [hsh] at he
    split_ifs at he
    · have := congrArg List.length he
      rw [List.length_insertionSort, List.length_take] at this
      simp only [List.length_nil] at this
      omega
    · rw [he] at hidl; simp at hidl; omega
  refine ⟨ps, hps, ⟨hl, ?_, ?_, ?_, hcut.nonempty⟩, ?_, ?_⟩
  · simp only; rw [hcut.concat]; exact hnodup
  · simp only; rw [hcut.concat]; exact hrange
  · intro he
    simp only at he
    have := hcut.concat
    rw [he] at this
    exact hne this.symm
  · intro hm
    have hlen' : (sharedIds col.length ss mt draws).length = min ss col.length := by
      rw [hsh, if_pos hm, List.length_insertionSort, List.length_take, hidl]
    have h1 : ps.length = 1 := by
      have hpos : ps.length ≠ 0 := by
        intro h0
        have := hcut.concat
        rw [List.length_eq_zero_iff.1 h0] at this
        exact hne this.symm
      by_contra hne1
      match ps, hcut, hpos, hne1 with
      | a :: b :: r, hcut, _, _ =>
        have ha := hcut.full a (by simp)
        have hb := List.length_pos_iff.2 (hcut.nonempty b (by simp))
        have := congrArg List.length hcut.concat
        simp only [List.flatten_cons, List.length_append] at this
        omega
    obtain ⟨x, hx⟩ := List.length_eq_one_iff.1 h1
    have hxe : x = sharedIds col.length ss mt draws := by
      have := hcut.concat
      rw [hx] at this
      simpa using this
    refine ⟨x, hx, by rw [hxe, hlen'], ?_⟩
    have hsorted : x.Pairwise (· ≤ ·) := by
      rw [hxe, hsh, if_pos hm]
      exact List.pairwise_insertionSort _ _
    have hnd : x.Nodup := by rw [hxe]; exact hnodup
    have := hsorted.and hnd
    exact this.imp (fun h => lt_of_le_of_ne h.1 h.2)
  · intro h
    rw [hcut.concat, hsh]
    split_ifs with hm
    · have hss : col.length ≤ ss := by
        rcases h with h | h
        · exact absurd hm h
        · exact h
      rw [List.take_of_length_le (by omega)]
      exact (List.perm_insertionSort _ _).trans hp
    · exact hp

/-- Over any sequence of updates and merges of sensible batches the statistics describe all rows looked at, and every
null cell keeps its own place in the index, even when batches reuse the same labels. -/
theorem C17_history (hset : ∀ l, (setOrder l).Perm l) (h : History) (hs : Sensible h) :
    ∃ s cs, run isNull setOrder h = .ok s ∧ Sampled isNull h cs ∧ Describes isNull s cs ∧ (Fed h → cs ≠ []) := by
  suffices H : ∃ s cs, run isNull setOrder h = .ok s ∧ Sampled isNull h cs ∧ BInv isNull s.asBase cs ∧
      (s.nullTypes.Nodup ∧ ∀ t, t ∈ s.nullTypes ↔ t ∈ (nullCells isNull cs).map Prod.snd) ∧ (Fed h → cs ≠ []) by
    obtain ⟨s, cs, h1, h2, h3, h4, h5⟩ := H
    exact ⟨s, cs, h1, h2, ⟨h3.sampleSize, h3.nullCount, h4, h3.keys, h3.rows⟩, h5⟩
  induction h with
  | new => exact ⟨.new, [], rfl, .new, new_inv isNull, by simp [ColState.new, nullCells], fun hf => absurd hf id⟩
  | update h b ih =>
    obtain ⟨hs1, hs2, hs3⟩ := hs
    obtain ⟨s, cs, h1, h2, h3, h4, _⟩ := ih hs1
    obtain ⟨k, base, b1, b2, b3, b4⟩ := batch_inv (isNull := isNull) hset hs2 hs3
    obtain ⟨s', u1, u2, u3, _⟩ := updateBase_inv h3 b3 b4
    refine ⟨s', _, ?_, .update h2 b1, u2, ?_, fun _ => by simp [b4]⟩
    · rw [run, h1, b2]; exact u1
    · rw [u3]
      refine ⟨List.nodup_dedup _, ?_⟩
      intro t
      simp only [combineUnique, List.mem_dedup, List.mem_append, h4.2, b3.keys, nullCells_append, List.map_append]
  | merge g h ihg ihh =>
    obtain ⟨hs1, hs2, hs3, hs4⟩ := hs
    obtain ⟨s, cs, g1, g2, g3, g4, g5⟩ := ihg hs1
    obtain ⟨s', ds, h1, h2, h3, h4, h5⟩ := ihh hs2
    obtain ⟨m, u1, u2, u3, _⟩ := updateBase_inv (new_inv isNull) g3 (g5 hs3)
    obtain ⟨m', v1, v2, v3, _⟩ := updateBase_inv u2 h3 (h5 hs4)
    refine ⟨m', cs ++ ds, ?_, .merge g2 h2, ?_, ?_, fun _ => by simp [g5 hs3]⟩
    · rw [run, g1, h1]
      show mergeState s s' = _
      unfold mergeState
      rw [u1]
      exact v1
    · simpa using v2
    · rw [v3, u3]
      refine ⟨List.nodup_dedup _, ?_⟩
      intro t
      simp only [combineUnique, List.mem_dedup, List.mem_append, nullCells_append, List.map_append, ColState.new,
        List.nil_append]
      rw [g3.keys, h3.keys]

/-- The reported total of null positions is the null count. -/
theorem C17_index_total (hset : ∀ l, (setOrder l).Perm l) (h : History) (hs : Sensible h) :
    ∃ s, run isNull setOrder h = .ok s ∧
      (s.nullTypes.map fun t => (PyDict.getD s.index t []).length).sum = s.nullCount := by
  obtain ⟨s, cs, h1, _, h3, _⟩ := C17_history (isNull := isNull) hset h hs
  refine ⟨s, h1, ?_⟩
  rw [h3.nullCount]
  have key : ∀ (ts : List String) (l : List Cell), ts.Nodup → (∀ c ∈ l, c.2 ∈ ts) →
      (ts.map fun t => l.countP fun c => decide (c.2 = t)).sum = l.length := by
    intro ts l hn hm
    induction l with
    | nil => induction ts <;> simp_all
    | cons c l ih =>
      have hc := hm c (by simp)
      have ih' := ih (fun d hd => hm d (by simp [hd]))
      have e : (ts.map fun t => (c :: l).countP fun c => decide (c.2 = t)) =
          ts.map fun t => (l.countP fun c => decide (c.2 = t)) + if c.2 = t then 1 else 0 := by
        apply List.map_congr_left
        intro t _
        rw [List.countP_cons]
        simp
      rw [e, List.sum_map_add (f := fun t => l.countP fun c => decide (c.2 = t)), ih']
      have : (ts.map fun t => if c.2 = t then 1 else 0).sum = 1 := by
        clear e ih' ih hm
        induction ts with
        | nil => simp at hc
        | cons t ts iht =>
          rw [List.nodup_cons] at hn
          rw [List.map_cons, List.sum_cons]
          by_cases h : c.2 = t
          · have hz : (ts.map fun t => if c.2 = t then 1 else 0).sum = 0 := by
              rw [List.sum_eq_zero]
              intro x hx
              obtain ⟨t', ht', rfl⟩ := List.mem_map.1 hx
              rw [if_neg]
              rintro rfl
              exact hn.1 (h ▸ ht')
            rw [if_pos h, hz]
          · rw [if_neg h, iht hn.2 (by simpa [h] using hc)]
      rw [this]
      simp
  rw [← key s.nullTypes _ h3.types.1 (fun c hc => (h3.types.2 _).2 (List.mem_map_of_mem hc))]
  congr 1
  apply List.map_congr_left
  intro t _
  exact (h3.indexRows t).2

/-- As long as the label ranges do not overlap, positions are recorded unshifted: the index of a null text gains
exactly the labels of the new batch. -/
theorem C17_positions_unshifted (s s' : ColState) (b : Base) (hb : PyDict.WF b.nullTypes) (hs : PyDict.WF s.index)
    (ho : overlap s.ids b.ids = false) (hu : updateBase s b = .ok s') (t : String) (x : ℤ) :
    x ∈ PyDict.getD s'.index t [] ↔ x ∈ PyDict.getD s.index t [] ∨ x ∈ PyDict.getD b.nullTypes t [] := by
  have hsh : shiftOf s.ids b.ids = 0 := by
    unfold shiftOf
    cases h : s.ids with
    | none => rfl
    | some r => obtain ⟨a, c⟩ := r; rw [h] at ho; simp [ho]
  unfold updateBase at hu
  split_ifs at hu with hz
  rw [hsh] at hu
  simp only [Int.add_zero, List.map_id'] at hu
  have hu := Except.ok.inj hu
  rw [← hu]
  simp only
  rw [(foldl_addRows _ _ hb hs).2.1, mem_unionSet]

/-! ## Where the English claim fails -/

theorem iloc_foreign (col : List Cell) (ps : List ℕ) (h : ∃ p ∈ ps, col.length ≤ p) : iloc col ps = .error .indexError := by
  unfold iloc
  induction ps with
  | nil => simp at h
  | cons p ps ih =>
    rw [List.mapM_cons]
    by_cases hp : col.length ≤ p
    · rw [List.getElem?_eq_none hp]; rfl
    · obtain ⟨q, hq, hl⟩ := h
      have hq' : q ∈ ps := by
        rcases List.mem_cons.1 hq with e | e
        · exact absurd (e ▸ hl) hp
        · exact e
      rw [List.getElem?_eq_getElem (not_le.1 hp), ih ⟨q, hq', hl⟩]
      rfl

/-- **C17** Rows asked for that the column does not have are an error, and not taken as empty cells. -/
theorem C17_foreign (col : List Cell) (hc : col ≠ []) (ss mt : ℕ) (given : Bool) (ps : List ℕ) (rest : List (List ℕ))
    (h : ∃ p ∈ ps, col.length ≤ p) : clean isNull setOrder col ss mt given (ps :: rest) = .error .indexError := by
  rw [clean, if_neg hc, loop, iloc_foreign col ps h]

example : clean (fun s => s == "") id [(0, "a"), (1, "")] 2 0 true [[0, 2]] = .error .indexError :=
  C17_foreign _ (by simp) 2 0 true [0, 2] [] ⟨2, by simp, by simp⟩

/-- Two rows sharing an index label, none of them null: one null is counted, and both values are passed on. -/
theorem C17_duplicate_labels_fails :
    (clean (fun t => t == "") id [(0, "a"), (0, "b")] 2 0 true [[0, 1]]).map
      (fun r => (r.1, r.2.sampleSize, r.2.nullCount)) = .ok (["a", "b"], 2, 1) := by decide +kernel

/-- Without a minimum of true samples the values come in the iteration order of a Python set, which is not the column
order (CPython iterates `{3, 8}` as 8, 3). -/
theorem C17_in_order_fails :
    ∃ setOrder : List ℤ → List ℤ, (∀ l, (setOrder l).Perm l) ∧
      (clean (fun t => t == "") setOrder [(3, "a"), (8, "b")] 2 0 true [[0, 1]]).map (fun r => r.1) = .ok ["b", "a"] :=
  ⟨List.reverse, fun l => List.reverse_perm l, by decide +kernel⟩

/-- The null ratio is that of the last batch only. -/
theorem C17_ratio_fails :
    (run (fun t => t == "") id (.update (.update .new ⟨[(0, ""), (1, "")], 2, 0, true, [[0, 1]]⟩)
      ⟨[(2, "a"), (3, "b")], 2, 0, true, [[0, 1]]⟩)).map (fun s => (s.sampleSize, s.nullCount, s.nullRatio)) =
      .ok (4, 2, some 0) := by decide +kernel

/-- Merging with a column profile that has seen nothing raises. -/
theorem C17_merge_fresh_fails (h : History) (hs : run isNull setOrder h = .ok s) :
    run isNull setOrder (.merge .new h) = .error .zeroDivision := by
  rw [run, hs]
  rfl

/-- Negative labels: the shift of overlapping batches does not separate them, and two nulls end up in one place. -/
theorem C17_negative_labels_fails :
    (run (fun t => t == "") id (.update (.update .new ⟨[(-4, ""), (-2, "")], 2, 0, true, [[0, 1]]⟩)
      ⟨[(-3, ""), (-1, "")], 2, 0, true, [[0, 1]]⟩)).map (fun s => (s.nullCount, PyDict.getD s.index "" [])) =
      .ok (4, [-4, -2]) := by decide +kernel

/-! ## A concrete, non-trivial case -/

/-- Two batches reusing the labels 0..3, then a merge. -/
def demo : History :=
  .merge (.update (.update .new ⟨[(0, "a"), (1, ""), (2, "nan"), (3, "b")], 3, 2, true, [[2, 1, 0], [3]]⟩)
      ⟨[(0, ""), (1, "c"), (2, ""), (3, "d")], 4, 0, true, [[0, 1, 2, 3]]⟩)
    (.update .new ⟨[(0, ""), (1, "x")], 2, 0, false, [[1], [0]]⟩)

/-- See `demo`. -/
def demoNull (t : String) : Bool := t == "" || t == "nan"

example : (run demoNull id demo).map (fun s => (s.sampleSize, s.nullCount, s.index)) =
    .ok (10, 5, [("nan", [2]), ("", [1, 4, 6, 8])]) := by decide +kernel

example : Sensible demo := by
  simp only [Sensible, demo, Fed, and_true, true_and]
  refine ⟨⟨⟨⟨?_, ?_, ?_, ?_, ?_⟩, ?_⟩, ⟨?_, ?_, ?_, ?_, ?_⟩, ?_⟩, ⟨?_, ?_, ?_, ?_, ?_⟩, ?_⟩ <;> decide +kernel

end Verif.Nulls
