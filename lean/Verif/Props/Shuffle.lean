import Verif.Lemmas.Shuffle

/-! # C26: the chunked shuffle -/

namespace Verif.Shuffle

open Verif

/-- **C26** Whatever the random generator returns, the chunks together are a permutation of
`0 … n-1`. -/
theorem C26_permutation (n c : ℕ) (draws : ℕ → ℕ) (hc : 0 < c) (hv : ValidDraws n draws) :
    (shuffleInChunks n c draws).flatten.Perm (List.range n) := by
  by_cases hn : n = 0
  · subst hn; simp [shuffleInChunks]
  · rw [shuffle_flatten draws (by omega) hc]
    exact map_emitted_perm hv

/-- **C26** Every chunk has the requested size except possibly the last, and none is empty. -/
theorem C26_chunk_sizes (n c : ℕ) (draws : ℕ → ℕ) (hn : 0 < n) (hc : 0 < c) :
    (shuffleInChunks n c draws).map List.length =
      List.replicate ((n - 1) / c) c ++ [n - c * ((n - 1) / c)] ∧
    0 < n - c * ((n - 1) / c) ∧ n - c * ((n - 1) / c) ≤ c := by
  have h1 := Nat.div_add_mod (n - 1) c
  have h2 := Nat.mod_lt (n - 1) hc
  refine ⟨?_, by omega, by omega⟩
  rw [shuffle_eq draws hn hc]
  have e : (n + c - 1) / c = (n - 1) / c + 1 := by
    rw [show n + c - 1 = (n - 1) + c by omega, Nat.add_div_right _ hc]
  rw [e, List.range_succ]
  simp only [List.map_append, List.map_map, List.map_cons, List.map_nil, List.length_map,
    List.length_range']
  congr 1
  · apply List.ext_getElem
    · simp
    · intro i hi _
      simp at hi
      have : c * (i + 1) ≤ c * ((n - 1) / c) := Nat.mul_le_mul_left c hi
      rw [Nat.mul_add, Nat.mul_one] at this
      simp
      omega
  · congr 1
    omega

/-- **C26** Cutting into chunks does not change the order of visits: two chunk sizes give the same
sequence for the same draws. -/
theorem C26_chunking_irrelevant (n c c' : ℕ) (draws : ℕ → ℕ) (hc : 0 < c) (hc' : 0 < c') :
    (shuffleInChunks n c draws).flatten = (shuffleInChunks n c' draws).flatten := by
  by_cases hn : n = 0
  · subst hn; simp [shuffleInChunks]
  · rw [shuffle_flatten draws (by omega) hc, shuffle_flatten draws (by omega) hc']

/-- **C26** Different draws give different orders. There are `n!` valid sequences of draws and `n!`
orders, so every order arises from exactly one sequence of draws: uniform draws give a uniform
shuffle. -/
theorem C26_draws_determine_order (n c : ℕ) (hc : 0 < c) (d1 d2 : ℕ → ℕ)
    (he : (shuffleInChunks n c d1).flatten = (shuffleInChunks n c d2).flatten) :
    ∀ j, j < n → d1 j = d2 j := by
  by_cases hn : n = 0
  · intro j hj; omega
  rw [shuffle_flatten d1 (by omega) hc, shuffle_flatten d2 (by omega) hc] at he
  have hem : ∀ j, j < n → emitted d1 j = emitted d2 j := by
    intro j hj
    have := congrArg (fun l => l[j]?) he
    simpa [hj] using this
  have key : ∀ m, m ≤ n → stateAfter d1 m = stateAfter d2 m ∧ ∀ j, j < m → d1 j = d2 j := by
    intro m
    induction m with
    | zero => intro _; exact ⟨rfl, by intro j hj; omega⟩
    | succ m ih =>
      intro hm
      obtain ⟨hs, hd⟩ := ih (by omega)
      have e := hem m (by omega)
      rw [emitted_eq, emitted_eq, hs] at e
      have e' := stateAfter_inj d2 m e
      refine ⟨by simp only [stateAfter, hs, e'], ?_⟩
      intro j hj
      by_cases hjm : j = m
      · subst hjm; exact e'
      · exact hd j (by omega)
  exact (key n (Nat.le_refl _)).2

/-- **C26** Conversely every order is produced by some valid draws. -/
theorem C26_every_order_possible (n c : ℕ) (hn : 0 < n) (hc : 0 < c) (order : List ℕ)
    (ho : order.Perm (List.range n)) :
    ∃ draws, ValidDraws n draws ∧ (shuffleInChunks n c draws).flatten = order := by
  have hlen : order.length = n := by simpa using ho.length_eq
  have hnd : order.Nodup := ho.nodup_iff.2 List.nodup_range
  -- build the draws position by position
  have key : ∀ m, m ≤ n → ∃ draws, ValidDraws n draws ∧ ∀ j, j < m → emitted draws j = order[j]! := by
    intro m
    induction m with
    | zero => intro _; exact ⟨fun j => j, fun j hj => ⟨(Nat.le_refl _), hj⟩, by intro j hj; omega⟩
    | succ m ih =>
      intro hm
      obtain ⟨draws, hv, he⟩ := ih (by omega)
      have hperm := map_emitted_perm hv
      -- some position k < n holds the wanted value
      have hx : order[m]! < n := by
        have : order[m]! ∈ order := by
          rw [List.getElem!_eq_getElem?_getD, List.getElem?_eq_getElem (by omega)]
          simp
        simpa using ho.mem_iff.1 this
      have hfull : ∃ k, k < n ∧ look (stateAfter draws m) k = order[m]! := by
        have hsub : ((List.range n).map (look (stateAfter draws m))) ⊆ List.range n := by
          intro x hx
          obtain ⟨i, hi, rfl⟩ := List.mem_map.1 hx
          simpa using stateAfter_lt hv (by omega) i (by simpa using hi)
        have hp : ((List.range n).map (look (stateAfter draws m))).Perm (List.range n) :=
          (List.subperm_of_subset (List.nodup_range.map (stateAfter_inj draws m))
            hsub).perm_of_length_le (by simp)
        have := hp.mem_iff.2 (show order[m]! ∈ List.range n by simpa using hx)
        obtain ⟨k, hk, e⟩ := List.mem_map.1 this
        exact ⟨k, by simpa using hk, e⟩
      obtain ⟨k, hk, hke⟩ := hfull
      have hkm : m ≤ k := by
        by_contra hlt
        have hlt : k < m := by omega
        rw [stateAfter_stable hv hlt (by omega), he k hlt] at hke
        have : order[k]'(by omega) = order[m]'(by omega) := by
          simpa [hlen, show k < n by omega, show m < n by omega] using hke
        have := (hnd.getElem_inj_iff).1 this
        omega
      refine ⟨fun j => if j = m then k else draws j, ?_, ?_⟩
      · intro j hj
        by_cases h : j = m
        · subst h; simp [hkm, hk]
        · simpa [h] using hv j hj
      · have hst : ∀ i, i ≤ m →
            stateAfter (fun j => if j = m then k else draws j) i = stateAfter draws i := by
          intro i
          induction i with
          | zero => intro _; rfl
          | succ i ihi =>
            intro hi
            simp only [stateAfter, ihi (by omega), if_neg (show i ≠ m by omega)]
        intro j hj
        rw [emitted_eq, hst j (by omega)]
        by_cases h : j = m
        · subst h; simpa using hke
        · simp only [if_neg h]
          rw [← emitted_eq]; exact he j (by omega)
  obtain ⟨draws, hv, he⟩ := key n (Nat.le_refl _)
  refine ⟨draws, hv, ?_⟩
  rw [shuffle_flatten draws hn hc]
  apply List.ext_getElem
  · simp [hlen]
  · intro i h1 h2
    simp at h1
    simp [he i h1, h2]

/-- A concrete run: 5 elements in chunks of 2, with draws 3, 1, 4, 3, 4. -/
example : shuffleInChunks 5 2 (fun j => [3, 1, 4, 3, 4][j]!) = [[3, 1], [4, 0], [2]] := by decide

example : ValidDraws 5 (fun j => [3, 1, 4, 3, 4][j]!) := by
  unfold ValidDraws; decide

end Verif.Shuffle
