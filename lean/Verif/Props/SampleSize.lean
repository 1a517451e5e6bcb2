import Mathlib.Algebra.Order.Floor.Ring
import Mathlib.Tactic.Positivity
import Mathlib.Tactic.Linarith
import Verif.Model.SampleSize
import Verif.Props.Nulls

/-!
# C29 — how many rows are sampled
-/

namespace Verif.SampleSize

open Verif Verif.Nulls Verif.NullsSpec

/-- **Bounds**: for a ratio up to one the sample size never exceeds the data, is at least the smaller of the data and
the minimum, is all of the data up to the minimum, and beyond that the ratio (rounded down) or the minimum. -/
theorem C29_bounds (ratio : ℚ) (hr : 0 ≤ ratio ∧ ratio ≤ 1) (m n : ℕ) :
    bySize ratio m n ≤ n ∧ min n m ≤ bySize ratio m n ∧ (n ≤ m → bySize ratio m n = n) ∧
    (m < n → m ≤ bySize ratio m n ∧ ratio * n - 1 < bySize ratio m n ∧
      (bySize ratio m n = m ∨ (bySize ratio m n : ℚ) ≤ ratio * n)) := by
  have hpos : 0 ≤ ratio * n := mul_nonneg hr.1 (by positivity)
  have hle : ratio * n ≤ n := by
    have : (0 : ℚ) ≤ n := by positivity
    nlinarith [hr.2]
  have hf : ((⌊ratio * n⌋.toNat : ℕ) : ℤ) = ⌊ratio * n⌋ := Int.toNat_of_nonneg (Int.floor_nonneg.2 hpos)
  have hfq : ((⌊ratio * n⌋.toNat : ℕ) : ℚ) = (⌊ratio * n⌋ : ℚ) := by exact_mod_cast hf
  have h1 : ((⌊ratio * n⌋.toNat : ℕ) : ℚ) ≤ ratio * n := hfq ▸ Int.floor_le _
  have h2 : ratio * n - 1 < ((⌊ratio * n⌋.toNat : ℕ) : ℚ) := by rw [hfq]; exact Int.sub_one_lt_floor _
  have h3 : ⌊ratio * n⌋.toNat ≤ n := by exact_mod_cast h1.trans hle
  unfold bySize
  split_ifs with h
  · refine ⟨le_refl _, min_le_left _ _, fun _ => rfl, fun h' => by omega⟩
  · refine ⟨by omega, by omega, fun h' => absurd h' h, fun _ => ⟨le_max_right _ _, ?_, ?_⟩⟩
    · exact h2.trans_le (by exact_mod_cast le_max_left _ _)
    · rcases max_choice ⌊ratio * n⌋.toNat m with e | e
      · right; rw [e]; exact h1
      · left; exact e

/-- **More data, no fewer samples.** -/
theorem C29_monotone (ratio : ℚ) (hr : 0 ≤ ratio ∧ ratio ≤ 1) (m n n' : ℕ) (h : n ≤ n') :
    bySize ratio m n ≤ bySize ratio m n' := by
  unfold bySize
  split_ifs with h1 h2 h2
  · exact h
  · exact h1.trans (le_max_right _ _)
  · omega
  · apply max_le_max_right
    apply Int.toNat_le_toNat
    apply Int.floor_le_floor
    exact mul_le_mul_of_nonneg_left (by exact_mod_cast h) hr.1

/-- **Rows looked at**: whatever sample size is asked for, by the caller, by the profiler or by the ratio, a column of a
non-empty table is given at least the smaller of that and the table, never more than the table, and exactly that
when no minimum of true values is set. -/
theorem C29_rows_looked_at (isNull : String → Bool) (setOrder : List ℤ → List ℤ) (hset : ∀ l, (setOrder l).Perm l)
    (col : List Cell) (hl : (col.map Prod.fst).Nodup) (hc : col ≠ [])
    (arg perUpdate m mt : ℕ) (hm : 0 < m) (ratio : ℚ) (hr : 0 < ratio ∧ ratio ≤ 1)
    (draws : ℕ → ℕ) (hd : Shuffle.ValidDraws col.length draws) :
    ∃ chunks vals base, tableChunks col.length (chosen arg perUpdate ratio m col.length) mt draws = .ok chunks ∧
      clean isNull setOrder col (chosen arg perUpdate ratio m col.length) mt true chunks = .ok (vals, base) ∧
      base.sampleSize ≤ col.length ∧
      min (chosen arg perUpdate ratio m col.length) col.length ≤ base.sampleSize ∧
      (mt = 0 → base.sampleSize = min (chosen arg perUpdate ratio m col.length) col.length) ∧
      (arg ≠ 0 → mt = 0 → base.sampleSize = min arg col.length) ∧
      (arg = 0 → perUpdate ≠ 0 → mt = 0 → base.sampleSize = min perUpdate col.length) ∧
      (arg = 0 → perUpdate = 0 → mt = 0 → base.sampleSize = bySize ratio m col.length) ∧
      (mt ≤ vals.length ∨ mt = 0 ∨ base.sampleSize = col.length) := by
  have hn : 0 < col.length := List.length_pos_iff.2 hc
  have hb := C29_bounds ratio ⟨hr.1.le, hr.2⟩ m col.length
  have hpos : 0 < chosen arg perUpdate ratio m col.length := by
    unfold chosen ofProfiler
    split_ifs with h1 h2
    · omega
    · have := hb.2.1; omega
    · omega
  have hdef : arg = 0 → perUpdate = 0 → chosen arg perUpdate ratio m col.length = bySize ratio m col.length := by
    intro h1 h2
    simp [chosen, ofProfiler, h1, h2]
  have harg : arg ≠ 0 → chosen arg perUpdate ratio m col.length = arg := by
    intro h1
    simp [chosen, h1]
  have hper : arg = 0 → perUpdate ≠ 0 → chosen arg perUpdate ratio m col.length = perUpdate := by
    intro h1 h2
    simp [chosen, ofProfiler, h1, h2]
  generalize chosen arg perUpdate ratio m col.length = ss at hpos hdef harg hper ⊢
  obtain ⟨chunks, h1, hv, h3, h4⟩ := C17_table_chunks col ss mt draws hd hl hc hpos
  obtain ⟨k, vals, base, t1, t2, t3, _, _, t6, _⟩ := C17_partition (isNull := isNull) hset hv
  have hp := firstRows_positions hv k
  have hlen : (firstRows ⟨col, ss, mt, true, chunks⟩ k).length = (chunks.take k).flatten.length :=
    cellsAt_length _ _ hp.2
  have hle : (chunks.take k).flatten.length ≤ col.length := by
    have := List.subperm_of_subset hp.1 (fun p h => List.mem_range.2 (hp.2 p h))
    simpa using this.length_le
  have heq : mt = 0 → base.sampleSize = min ss col.length := by
    intro h0
    obtain ⟨ids, e1, e2, _⟩ := h3 h0
    have hk : k = 1 := by
      have a := t1.le
      have b := t1.pos
      simp only [e1, List.length_singleton] at a
      omega
    rw [t3, hlen, hk, e1]
    simpa using e2
  refine ⟨chunks, vals, base, h1, t2, by omega, ?_, heq, fun a c => by rw [heq c, harg a],
    fun a b c => by rw [heq c, hper a b], ?_, ?_⟩
  · by_cases h0 : mt = 0
    · exact (heq h0).ge
    · rcases t1.stop with hs | hs
      · have : (chunks.take k).flatten.length = col.length := by
          rw [hs, List.take_length, (h4 (.inl h0)).length_eq, List.length_range]
        omega
      · have : ss ≤ (firstRows ⟨col, ss, mt, true, chunks⟩ k).length := hs.2
        omega
  · intro a b c
    rw [heq c, hdef a b]
    exact min_eq_left hb.1
  · rcases t1.stop with hs | hs
    · by_cases h0 : mt = 0
      · exact .inr (.inl h0)
      · right; right
        rw [t3, hlen, hs, List.take_length, (h4 (.inl h0)).length_eq, List.length_range]
    · left
      have : mt ≤ (trueCells isNull (firstRows ⟨col, ss, mt, true, chunks⟩ k)).length := hs.1
      rw [t6.length_eq, List.length_map]
      exact this

/-- **Counterexample**: a fixed number of samples per update is used as it is, even beyond the data. -/
theorem C29_per_update_fails : ofProfiler 10 (1 / 5) 5000 3 = 10 := by decide +kernel

-- the defaults: all of 5000 rows, 5000 of 20000 rows, 20000 of 100000 rows
example : bySize (1 / 5) 5000 5000 = 5000 ∧ bySize (1 / 5) 5000 20000 = 5000 ∧ bySize (1 / 5) 5000 100000 = 20000 := by
  decide +kernel

-- three of five rows are looked at, and all five when three true values are wanted
example : ((tableChunks 5 3 0 id).bind fun ch => (clean (· == "") id
      [(0, "a"), (1, ""), (2, ""), (3, "b"), (4, "c")] (chosen 3 0 (1 / 5) 5000 5) 0 true ch).map fun r =>
        (r.1, r.2.sampleSize)) = .ok (["a"], 3) ∧
    ((tableChunks 5 3 3 id).bind fun ch => (clean (· == "") id
      [(0, "a"), (1, ""), (2, ""), (3, "b"), (4, "c")] (chosen 3 0 (1 / 5) 5000 5) 3 true ch).map fun r =>
        (r.1, r.2.sampleSize)) = .ok (["a", "b", "c"], 5) := by
  constructor <;> decide +kernel

end Verif.SampleSize
