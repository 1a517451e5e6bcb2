import Verif.Spec.Unstructured
import Verif.Props.Nulls
import Verif.Props.Words

/-! # Lemmas on profiles of unstructured text -/

namespace Verif.Unstructured

open Verif Verif.UnstructuredSpec
open Verif.Words (Chars Word)

variable {ch : Chars} {mem : List String → ℚ}

theorem blank_eq (s : String) : blank ch s = decide (Blank ch s) := by
  rw [Bool.eq_iff_iff, decide_eq_true_iff, blank, List.all_eq_true, Blank]

theorem blank_not (s : String) : (!blank ch s) = decide (¬Blank ch s) := by
  rw [blank_eq]; by_cases h : Blank ch s <;> simp [h]

theorem zip_snd {α β : Type} (f : ℕ → α) : ∀ (l : List β) (k : ℕ),
    ((List.range' k l.length).zipWith (fun i x => (f i, x)) l).map Prod.snd = l ∧
      ((List.range' k l.length).zipWith (fun i x => (f i, x)) l).map Prod.fst = (List.range' k l.length).map f
  | [], _ => ⟨rfl, rfl⟩
  | x :: xs, k => by
    obtain ⟨h1, h2⟩ := zip_snd f xs (k + 1)
    simp only [List.length_cons, List.range'_succ, List.zipWith_cons_cons, List.map_cons]
    exact ⟨by rw [h1], by rw [h2]⟩

/-- The series has the lines of the data and distinct labels. -/
theorem series_spec {d : Data} (hd : Distinct d) (hl : len d ≠ 0) {name : Option String} {col : List Nulls.Cell}
    (hs : series d = .ok (name, col)) : col.map Prod.snd = lines d ∧ (col.map Prod.fst).Nodup ∧ col ≠ [] := by
  cases d with
  | text s =>
    simp only [series, Except.ok.injEq, Prod.mk.injEq] at hs
    obtain ⟨-, rfl⟩ := hs
    refine ⟨?_, by simp, by simp⟩
    have : s ≠ "" := by rintro rfl; exact hl rfl
    simp [lines, this]
  | list ls =>
    simp only [series, Except.ok.injEq, Prod.mk.injEq, List.range_eq_range'] at hs
    obtain ⟨-, rfl⟩ := hs
    obtain ⟨h1, h2⟩ := zip_snd (fun i : ℕ => (i : ℤ)) ls 0
    refine ⟨h1, ?_, ?_⟩
    · rw [h2]
      exact (List.nodup_range').map Nat.cast_injective
    · intro h
      rw [h] at h1
      rw [← h1] at hl
      exact hl rfl
  | series nm cs =>
    simp only [series, Except.ok.injEq, Prod.mk.injEq] at hs
    obtain ⟨-, rfl⟩ := hs
    refine ⟨rfl, hd, ?_⟩
    rintro rfl
    exact hl rfl
  | frame ix cols =>
    simp only [series] at hs
    split_ifs at hs with h1
    match cols, hs, h1, hd with
    | [], hs, _, _ => cases hs
    | [c], hs, _, hd =>
      simp only [Except.ok.injEq, Prod.mk.injEq] at hs
      obtain ⟨-, rfl⟩ := hs
      have hlen := hd.2 c (List.mem_singleton.2 rfl)
      refine ⟨?_, ?_, ?_⟩
      · rw [List.map_snd_zip hlen.le]; rfl
      · rw [List.map_fst_zip hlen.ge]
        exact hd.1
      · intro h
        have : (ix.zip c.2).length = 0 := by rw [h]; rfl
        rw [List.length_zip] at this
        have h0 : ix.length ≠ 0 := hl
        omega
    | c :: c' :: cs, _, h1, _ => exact absurd (by simp) h1
  | other => exact absurd rfl hl

theorem len_extent {d : Data} (hd : Distinct d) (hok : ∀ e, series d ≠ .error e) : len d = extent d := by
  cases d with
  | text s => rfl
  | list ls => rfl
  | series nm cs => simp [len, extent, lines]
  | frame ix cols =>
    match cols, hok, hd with
    | [], hok, _ => exact absurd rfl (hok .indexError)
    | [c], _, hd => simp [len, extent, lines, hd.2 c]
    | c :: c' :: cs, hok, _ => exact absurd (by simp [series]) (hok .valueError)
  | other => exact absurd rfl (hok .typeError)

theorem chosen_wanted (o : Opts) (b : Batch) (hd : len b.data = extent b.data) :
    SampleSize.chosen b.sampleSize o.perUpdate o.ratio 5000 (len b.data) = wanted o b := by
  rw [hd]
  unfold SampleSize.chosen SampleSize.ofProfiler SampleSize.bySize wanted
  rcases b.sampleSize with _ | n
  · rcases o.perUpdate with _ | m
    · simp only [if_true, ne_eq, not_true_eq_false, if_false]
      split_ifs with h
      · rfl
      · rw [max_comm]; rfl
    · simp
  · simp

theorem wanted_pos (o : Opts) (b : Batch) (hd : extent b.data ≠ 0) : 0 < wanted o b := by
  unfold wanted
  rcases b.sampleSize with _ | n
  · rcases o.perUpdate with _ | m
    · simp only
      split_ifs with h
      · exact Nat.pos_of_ne_zero hd
      · exact lt_of_lt_of_le (by omega) (le_max_left _ _)
    · simp
  · simp

open NullsSpec in
theorem firstRows_subperm {b : Nulls.Batch} (hv : Valid b) (k : ℕ) : List.Subperm (firstRows b k) b.col := by
  obtain ⟨h1, h2⟩ := Nulls.firstRows_positions hv k
  have hs : List.Subperm (b.chunks.take k).flatten (List.range b.col.length) :=
    List.subperm_of_subset h1 fun p hp => List.mem_range.2 (h2 p hp)
  obtain ⟨l, hl1, hl2⟩ := hs
  have e : (List.range b.col.length).filterMap (b.col[·]?) = b.col := by
    have : ∀ n, n ≤ b.col.length → List.filterMap (fun p => b.col[p]?) (List.range n) = b.col.take n := by
      intro n hn
      induction n with
      | zero => simp
      | succ n ih =>
        rw [List.range_succ, List.filterMap_append, ih (by omega), List.take_add_one]
        simp [show n < b.col.length by omega]
    rw [this _ le_rfl, List.take_length]
  refine ⟨l.filterMap (b.col[·]?), hl1.filterMap _, ?_⟩
  conv => rhs; rw [← e]
  exact hl2.filterMap _

open NullsSpec in
/-- What cleaning does with a column. -/
theorem clean_spec {col : List Nulls.Cell} (hl : (col.map Prod.fst).Nodup) (hc : col ≠ []) {ss : ℕ} (hs : 0 < ss) (mt : ℕ)
    {draws : ℕ → ℕ} (hd : Shuffle.ValidDraws col.length draws) :
    ∃ rest seen, clean ch col ss mt draws = .ok (rest, seen.length, (seen.filter fun l => Blank ch l).length) ∧
      rest.Perm (seen.filter fun l => ¬Blank ch l) ∧ List.Subperm seen (col.map Prod.snd) ∧
      (seen.length = col.length ∨ (ss ≤ seen.length ∧ mt ≤ (seen.filter fun l => ¬Blank ch l).length)) := by
  obtain ⟨hv, hp⟩ := Nulls.C17_own_chunks col ss mt draws hd hl hc hs
  obtain ⟨k, vals, base, h1, h2, h3, h4, _, h6, _, _⟩ :=
    Nulls.C17_partition (isNull := blank ch) (setOrder := id) (fun _ => List.Perm.refl _) hv
  have hcl : clean ch col ss mt draws = .ok (vals, base.sampleSize, base.nullCount) := by
    unfold Nulls.clean at h2
    unfold clean
    rw [if_neg hc] at h2 ⊢
    simp only [Nulls.ownChunks] at h2
    revert h2
    cases Nulls.loop (blank ch) col ss mt ⟨[], [], 0⟩ (Shuffle.shuffleInChunks col.length ss draws) with
    | error e => intro h; cases h
    | ok a =>
      simp only [or_true, if_true]
      split_ifs with h0
      · intro h; cases h
      · intro h
        simp only [Except.ok.injEq, Prod.mk.injEq] at h
        obtain ⟨rfl, rfl⟩ := h
        rfl
  have hft : ∀ cs : List Nulls.Cell, (trueCells (blank ch) cs).map Prod.snd =
      (cs.map Prod.snd).filter fun l => decide (¬Blank ch l) := by
    intro cs
    rw [List.filter_map]
    congr 1
    exact List.filter_congr fun c _ => blank_not c.2
  have hfn : ∀ cs : List Nulls.Cell, (nullCells (blank ch) cs).map Prod.snd =
      (cs.map Prod.snd).filter fun l => decide (Blank ch l) := by
    intro cs
    rw [List.filter_map]
    congr 1
    exact List.filter_congr fun c _ => blank_eq c.2
  refine ⟨vals, (firstRows ⟨col, ss, mt, false, Nulls.ownChunks col.length ss draws⟩ k).map Prod.snd, ?_, ?_, ?_, ?_⟩
  · rw [hcl, h3, h4, ← hfn, List.length_map, List.length_map]
  · rw [← hft]; exact h6
  · obtain ⟨l, p, q⟩ := firstRows_subperm hv k
    exact ⟨l.map Prod.snd, p.map _, q.map _⟩
  · rw [← hft, List.length_map, List.length_map]
    rcases h1.stop with h | h
    · left
      rw [firstRows, h, List.take_length]
      have hr : (Nulls.ownChunks col.length ss draws).flatten.length = col.length := by
        rw [hp.length_eq, List.length_range]
      rw [Nulls.cellsAt_length _ _ fun p hpm => List.mem_range.1 (hp.mem_iff.1 hpm), hr]
    · right
      exact ⟨h.2, h.1⟩

end Verif.Unstructured
