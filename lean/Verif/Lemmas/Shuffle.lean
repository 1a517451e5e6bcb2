import Mathlib.Data.List.Perm.Basic
import Mathlib.Data.List.Nodup
import Mathlib.Data.List.Perm.Subperm
import Mathlib.Logic.Function.Basic
import Mathlib.Tactic.SplitIfs
import Verif.Model.Shuffle
import Verif.Spec.Shuffle
import Verif.Lemmas.PyDict

/-! Helper lemmas about the chunked shuffle. -/

namespace Verif.Shuffle

open Verif

theorem look_swapIn (d : PyDict ℕ ℕ) (j k i : ℕ) :
    look (swapIn d j k) i = if i = k then look d j else if i = j then look d k else look d i := by
  unfold swapIn look PyDict.getD
  simp only [PyDict.get?_set]
  by_cases h1 : i = k
  · subst h1; simp
  · by_cases h2 : i = j
    · subst h2; simp [h1, Ne.symm h1]
    · simp [h1, h2, Ne.symm h1, Ne.symm h2]

/-- The dictionary after processing positions `0..m-1` in one go. -/
def stateAfter (draws : ℕ → ℕ) : ℕ → PyDict ℕ ℕ
  | 0 => []
  | m + 1 => swapIn (stateAfter draws m) m (draws m)

/-- The value emitted for position `j`. -/
def emitted (draws : ℕ → ℕ) (j : ℕ) : ℕ := look (stateAfter draws (j + 1)) j

theorem inner_eq (draws : ℕ → ℕ) (cnt j : ℕ) :
    inner draws cnt j (stateAfter draws j) =
      ((List.range' j cnt).map (emitted draws), stateAfter draws (j + cnt)) := by
  induction cnt generalizing j with
  | zero => simp [inner]
  | succ m ih =>
    simp only [inner]
    have h := ih (j + 1)
    rw [show stateAfter draws (j + 1) = swapIn (stateAfter draws j) j (draws j) from rfl] at h
    rw [h]
    simp only [List.range'_succ, List.map_cons, Prod.mk.injEq]
    exact ⟨rfl, by rw [show j + 1 + m = j + (m + 1) by omega]⟩

theorem outer_eq (n c : ℕ) (draws : ℕ → ℕ) (a m : ℕ) (h : c * (a + m) < n + c) (ha : c * a ≤ n) :
    outer n c draws (List.range' a m) (c * a) (stateAfter draws (c * a)) =
      (List.range' a m).map fun i =>
        (List.range' (c * i) (min c (n - c * i))).map (emitted draws) := by
  induction m generalizing a with
  | zero => simp [outer]
  | succ m ih =>
    rw [List.range'_succ]
    simp only [outer, inner_eq, List.map_cons]
    congr 1
    cases m with
    | zero => simp [outer]
    | succ m =>
      have e1 : c * (a + 1) = c * a + c := by rw [Nat.mul_add, Nat.mul_one]
      have e2 : c * (a + (m + 1 + 1)) = c * a + (c * m + c + c) := by
        simp [Nat.mul_add]
      have hlt : c * a + c ≤ n := by
        rw [e2] at h; omega
      have := ih (a + 1) (by rw [show a + 1 + (m + 1) = a + (m + 1 + 1) by omega]; exact h)
        (by rw [e1]; exact hlt)
      rw [e1] at this
      rw [show min c (n - c * a) = c by omega]
      exact this

theorem stateAfter_inj (draws : ℕ → ℕ) (m : ℕ) :
    Function.Injective (look (stateAfter draws m)) := by
  induction m with
  | zero =>
    intro a b h
    simpa [stateAfter, look, PyDict.getD] using h
  | succ m ih =>
    intro a b h
    simp only [stateAfter, look_swapIn] at h
    split_ifs at h <;> first | omega | (have := ih h; omega)

theorem stateAfter_lt {n : ℕ} {draws : ℕ → ℕ} (hv : ValidDraws n draws) {m : ℕ} (hm : m ≤ n) :
    ∀ i, i < n → look (stateAfter draws m) i < n := by
  induction m with
  | zero => intro i hi; simpa [stateAfter, look, PyDict.getD] using hi
  | succ m ih =>
    intro i hi
    have := hv m (by omega)
    have ih := ih (by omega)
    simp only [stateAfter, look_swapIn]
    split
    · exact ih _ (by omega)
    · split
      · exact ih _ this.2
      · exact ih _ hi

/-- Later swaps never touch a position already emitted. -/
theorem stateAfter_stable {n : ℕ} {draws : ℕ → ℕ} (hv : ValidDraws n draws) {j m : ℕ}
    (hj : j < m) (hm : m ≤ n) : look (stateAfter draws m) j = emitted draws j := by
  induction m with
  | zero => omega
  | succ m ih =>
    by_cases h : j = m
    · subst h; rfl
    · rw [← ih (by omega) (by omega)]
      have := hv m (by omega)
      simp only [stateAfter, look_swapIn]
      rw [if_neg (by omega), if_neg h]

theorem emitted_eq (draws : ℕ → ℕ) (j : ℕ) :
    emitted draws j = look (stateAfter draws j) (draws j) := by
  simp only [emitted, stateAfter, look_swapIn]
  split
  · rename_i h; rw [← h]
  · simp

theorem map_emitted_perm {n : ℕ} {draws : ℕ → ℕ} (hv : ValidDraws n draws) :
    ((List.range n).map (emitted draws)).Perm (List.range n) := by
  have e : (List.range n).map (emitted draws) = (List.range n).map (look (stateAfter draws n)) := by
    apply List.map_congr_left
    intro i hi
    exact (stateAfter_stable hv (by simpa using hi) (Nat.le_refl _)).symm
  rw [e]
  have hnd : ((List.range n).map (look (stateAfter draws n))).Nodup :=
    List.nodup_range.map (stateAfter_inj draws n)
  have hsub : ((List.range n).map (look (stateAfter draws n))) ⊆ List.range n := by
    intro x hx
    obtain ⟨i, hi, rfl⟩ := List.mem_map.1 hx
    simpa using stateAfter_lt hv (Nat.le_refl _) i (by simpa using hi)
  exact (List.subperm_of_subset hnd hsub).perm_of_length_le (by simp)

theorem shuffle_eq {n c : ℕ} (draws : ℕ → ℕ) (hn : 0 < n) (hc : 0 < c) :
    shuffleInChunks n c draws =
      (List.range ((n + c - 1) / c)).map fun i =>
        (List.range' (c * i) (min c (n - c * i))).map (emitted draws) := by
  unfold shuffleInChunks
  rw [if_neg (by omega)]
  have h1 : 1 ≤ (n + c - 1) / c := by
    rw [Nat.le_div_iff_mul_le hc]; omega
  rw [Nat.max_eq_left h1, List.range_eq_range']
  have := outer_eq n c draws 0 ((n + c - 1) / c)
    (by have := Nat.mul_div_le (n + c - 1) c; rw [Nat.zero_add]; omega) (by simp)
  simpa [stateAfter] using this

theorem flatten_ranges (c n m : ℕ) (h : c * m < n + c) :
    ((List.range m).map fun i => List.range' (c * i) (min c (n - c * i))).flatten =
      List.range (min (c * m) n) := by
  induction m with
  | zero => simp
  | succ m ih =>
    have e : c * (m + 1) = c * m + c := by rw [Nat.mul_add, Nat.mul_one]
    rw [List.range_succ, List.map_append, List.flatten_append, ih (by omega)]
    simp only [List.map_cons, List.map_nil, List.flatten_cons, List.flatten_nil, List.append_nil]
    rw [show min (c * m) n = c * m by omega, show min (c * (m + 1)) n = c * m + min c (n - c * m) by omega]
    rw [List.range_eq_range', List.range_eq_range']
    have := List.range'_append (s := 0) (m := c * m) (n := min c (n - c * m)) (step := 1)
    simpa using this

theorem shuffle_flatten {n c : ℕ} (draws : ℕ → ℕ) (hn : 0 < n) (hc : 0 < c) :
    (shuffleInChunks n c draws).flatten = (List.range n).map (emitted draws) := by
  rw [shuffle_eq draws hn hc]
  have hlt : c * ((n + c - 1) / c) < n + c := by
    have := Nat.mul_div_le (n + c - 1) c; omega
  have hge : n ≤ c * ((n + c - 1) / c) := by
    have h1 := Nat.div_add_mod (n + c - 1) c
    have h2 := Nat.mod_lt (n + c - 1) hc
    omega
  have := flatten_ranges c n _ hlt
  rw [show min (c * ((n + c - 1) / c)) n = n by omega] at this
  rw [← this, List.map_flatten, List.map_map]
  rfl

end Verif.Shuffle
