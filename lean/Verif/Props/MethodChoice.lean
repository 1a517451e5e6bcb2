import Verif.Lemmas.BinVariance

/-!
# C106: the choice of a binning method
-/

namespace Verif.Props.MethodChoice

open Verif Verif.MethodChoice Verif.Spec.MethodChoice

/-- Every method gets its loss added, and the one selected is the first with the most bins among those with the least loss so far. -/
theorem C106_selected (exact : ℚ) (est total run : List ℚ) (ms : List Method)
    (h1 : ms.length ≤ est.length) (h2 : ms.length ≤ total.length) (h3 : ms.length ≤ run.length) :
    (select exact est total run ms).2 = ms.mapIdx (fun i m =>
      { m with current := lossOf exact est total run i, total := m.total + lossOf exact est total run i }) ∧
    (ms = [] → (select exact est total run ms).1 = .ok "") ∧
    (ms ≠ [] → ∃ m, Best (select exact est total run ms).2 m ∧ (select exact est total run ms).1 = .ok m.name) := by
  have hl := loop_ok ⟨est.map fun e => |exact - e|, total, run⟩ (lossOf exact est total run) 0 none ms
    fun j _ hj => lossAt_eq exact est total run j (by omega) (by omega) (by omega)
  unfold select
  rw [hl]
  refine ⟨?_, ?_, ?_⟩
  · dsimp only
    rw [added_eq]
    simp only [Nat.zero_add]
  · rintro rfl; rfl
  · intro hne
    cases ms with
    | nil => exact absurd rfl hne
    | cons m ms =>
      obtain ⟨b, hb, hbest⟩ := foldl_better (added (lossOf exact est total run) 1 ms)
        { m with current := lossOf exact est total run 0, total := m.total + lossOf exact est total run 0 }
      refine ⟨b, hbest, ?_⟩
      dsimp only [added, List.foldl_cons, better]
      rw [hb]
      rfl

/-- There is only one such method. -/
theorem C106_unique (ms : List Method) (m m' : Method) (h : Best ms m) (h' : Best ms m') : m = m' := by
  obtain ⟨pre, post, h1, h2, h3⟩ := h
  obtain ⟨pre', post', h1', h2', h3'⟩ := h'
  rw [h1] at h1'
  rcases List.append_eq_append_iff.1 h1' with ⟨as, ha, hb⟩ | ⟨as, ha, hb⟩
  · cases as with
    | nil => simpa using (List.cons.inj hb).1
    | cons a as =>
      obtain ⟨rfl, hb2⟩ := List.cons.inj hb
      have hb' : m' ∈ post := by rw [hb2]; simp
      rcases h2' m (by rw [ha]; simp) with h4 | ⟨h4, h5⟩ <;> rcases h3 m' hb' with h6 | ⟨h6, h7⟩
      · exact absurd (lt_trans h4 h6) (lt_irrefl _)
      · exact absurd h4 (by rw [h6]; exact lt_irrefl _)
      · exact absurd h6 (by rw [h4]; exact lt_irrefl _)
      · omega
  · cases as with
    | nil => simpa using (List.cons.inj hb).1.symm
    | cons a as =>
      obtain ⟨rfl, hb2⟩ := List.cons.inj hb
      have hb' : m ∈ post' := by rw [hb2]; simp
      rcases h2 m' (by rw [ha]; simp) with h4 | ⟨h4, h5⟩ <;> rcases h3' m hb' with h6 | ⟨h6, h7⟩
      · exact absurd (lt_trans h4 h6) (lt_irrefl _)
      · exact absurd h4 (by rw [h6]; exact lt_irrefl _)
      · exact absurd h6 (by rw [h4]; exact lt_irrefl _)
      · omega

/-- Two methods estimate the variance 4 as 3 and 5: the one with less variance in its bins is selected. With the same losses it is the one
with more bins. -/
example : (select 4 [3, 5] [2, 1] [0, 0] [⟨"auto", 10, 0, 0⟩, ⟨"fd", 5, 0, 0⟩]).1.toOption = some "fd" ∧
    (select 4 [3, 5] [1, 1] [0, 0] [⟨"auto", 5, 0, 0⟩, ⟨"fd", 10, 0, 0⟩, ⟨"rice", 10, 0, 0⟩]).1.toOption = none ∧
    (select 4 [3, 5, 5] [1, 1, 1] [0, 0, 0] [⟨"auto", 5, 0, 0⟩, ⟨"fd", 10, 0, 0⟩, ⟨"rice", 10, 0, 0⟩]).1.toOption = some "fd" := by
  decide +kernel

/-- If something was not measured for a method, an exception says so. -/
theorem C106_short (exact : ℚ) (est total run : List ℚ) (ms : List Method)
    (h : est.length < ms.length ∨ total.length < ms.length ∨ run.length < ms.length) :
    (select exact est total run ms).1 = .error .indexError := by
  have key : ∀ (q : Measures) (ms : List Method) (i : ℕ) (best : Option Method),
      (∀ j e, lossAt q j = .error e → e = .indexError) →
      (∃ j, j < ms.length ∧ lossAt q (i + j) = .error .indexError) → (loop q i best ms).1 = .error .indexError := by
    intro q ms
    induction ms with
    | nil => rintro i best _ ⟨j, hj, _⟩; simp at hj
    | cons m ms ih =>
      rintro i best he ⟨j, hj, hx⟩
      rw [loop]
      cases hl : lossAt q i with
      | error e => rw [he i e hl]
      | ok l =>
        dsimp only
        cases j with
        | zero => rw [Nat.add_zero, hl] at hx; cases hx
        | succ j => exact ih (i + 1) _ he ⟨j, by simpa using hj, by rw [← hx]; congr 1; omega⟩
  have hk := key ⟨est.map fun e => |exact - e|, total, run⟩ ms 0 none
    (fun j e he => by
      unfold lossAt at he
      split at he
      · cases he
      · cases he; rfl)
    ⟨ms.length - 1, by omega, lossAt_short _ _ (by simp only [List.length_map]; omega)⟩
  unfold select
  dsimp only
  rw [hk]
  rfl

/-! ### Losses -/

theorem sum_excess (l : List ℚ) : (l.map (excess l)).sum = 0 := by
  unfold excess
  by_cases h : 0 < l.sum
  · simp only [if_pos h]
    have key : ∀ l' : List ℚ, (l'.map fun x => x * l.length / l.sum - 1).sum = l'.sum * l.length / l.sum - l'.length := by
      intro l'
      induction l' with
      | nil => simp
      | cons a l' ih =>
        rw [List.map_cons, List.sum_cons, ih, List.sum_cons, List.length_cons]
        push_cast
        ring
    rw [key l, mul_comm, mul_div_assoc, div_self (ne_of_gt h), mul_one, sub_self]
  · simp [if_neg h]

theorem sum_getD (l : List ℚ) (f : ℚ → ℚ) : ((List.range l.length).map fun i => f (l.getD i 0)).sum = (l.map f).sum := by
  congr 1
  apply List.ext_getElem (by simp)
  intro i h1 h2
  simp at h1
  simp [List.getD_eq_getElem?_getD, h1]

/-- The losses of all methods together are their penalties for time: what one is better than the average the others are worse. -/
theorem C106_zero_sum (exact : ℚ) (est total run : List ℚ) (n : ℕ) (h1 : est.length = n) (h2 : total.length = n) (h3 : run.length = n) :
    ((List.range n).map (lossOf exact est total run)).sum = (run.map (penalty run)).sum := by
  unfold lossOf
  rw [List.sum_map_add, List.sum_map_add]
  have e1 : ((List.range n).map fun i => excess (est.map fun e => |exact - e|) |exact - est.getD i 0|).sum = 0 := by
    rw [← h1, sum_getD est fun x => excess (est.map fun e => |exact - e|) |exact - x|]
    have := sum_excess (est.map fun e => |exact - e|)
    rwa [List.map_map] at this
  have e2 : ((List.range n).map fun i => excess total (total.getD i 0)).sum = 0 := by
    rw [← h2, sum_getD total (excess total)]
    exact sum_excess total
  rw [e1, e2, ← h3, sum_getD run (penalty run)]
  ring

/-- So if no method is a second slower than the average, the method selected from fresh ones is not worse than the average. -/
theorem C106_average (exact : ℚ) (est total run : List ℚ) (ms : List Method) (h1 : est.length = ms.length) (h2 : total.length = ms.length)
    (h3 : run.length = ms.length) (hr : ∀ r ∈ run, r < run.sum / run.length + 1) (hf : ∀ m ∈ ms, m.total = 0) (m : Method)
    (hm : Best (select exact est total run ms).2 m) : m.total ≤ 0 := by
  have hs := (C106_selected exact est total run ms h1.ge h2.ge h3.ge).1
  have hp : (run.map (penalty run)).sum = 0 := by
    apply List.sum_eq_zero
    intro x hx
    obtain ⟨r, hr', rfl⟩ := List.mem_map.1 hx
    unfold penalty
    rw [if_neg (not_le.2 (hr r hr'))]
  have hz := C106_zero_sum exact est total run ms.length h1 h2 h3
  rw [hp] at hz
  by_contra hc
  push Not at hc
  obtain ⟨pre, post, he, ha, hb⟩ := hm
  have hall : ∀ m' ∈ (select exact est total run ms).2, 0 < m'.total := by
    intro m' hm'
    rw [he] at hm'
    rcases List.mem_append.1 hm' with h | h
    · rcases ha m' h with h | ⟨h, _⟩
      · exact lt_trans hc h
      · rw [← h]; exact hc
    · rcases List.mem_cons.1 h with rfl | h
      · exact hc
      · rcases hb m' h with h | ⟨h, _⟩
        · exact lt_trans hc h
        · rw [← h]; exact hc
  have hpos : ∀ i < ms.length, 0 < lossOf exact est total run i := by
    intro i hi
    have : { ms[i] with current := lossOf exact est total run i, total := ms[i].total + lossOf exact est total run i } ∈
        (select exact est total run ms).2 := by
      rw [hs]
      exact List.mem_mapIdx.2 ⟨i, hi, rfl⟩
    have := hall _ this
    dsimp only at this
    rwa [hf _ (List.getElem_mem hi), zero_add] at this
  have hne : ms ≠ [] := by
    rintro rfl
    simp [hs] at he
  have : 0 < ((List.range ms.length).map (lossOf exact est total run)).sum := by
    apply List.sum_pos
    · intro x hx
      obtain ⟨i, hi, rfl⟩ := List.mem_map.1 hx
      exact hpos i (List.mem_range.1 hi)
    · simp [hne]
  rw [hz] at this
  exact lt_irrefl _ this

/-- A method that is at least as close to the variance, has at most the variance in its bins and is at most as slow has at most the loss. -/
theorem C106_dominates (exact : ℚ) (est total run : List ℚ) (i j : ℕ) (ht : ∀ r ∈ run, 0 ≤ r)
    (h1 : |exact - est.getD i 0| ≤ |exact - est.getD j 0|) (h2 : total.getD i 0 ≤ total.getD j 0) (h3 : run.getD i 0 ≤ run.getD j 0) :
    lossOf exact est total run i ≤ lossOf exact est total run j := by
  have he : ∀ (l : List ℚ) (x y : ℚ), x ≤ y → excess l x ≤ excess l y := by
    intro l x y hxy
    unfold excess
    split
    · rename_i h
      have : x * l.length / l.sum ≤ y * l.length / l.sum := by gcongr
      linarith
    · exact le_rfl
  have hm : 0 ≤ run.sum / run.length := div_nonneg (List.sum_nonneg ht) (Nat.cast_nonneg _)
  have hp : penalty run (run.getD i 0) ≤ penalty run (run.getD j 0) := by
    unfold penalty
    split
    · rw [if_pos (by linarith)]
      gcongr
    · split
      · rename_i h
        exact div_nonneg (by linarith) hm
      · exact le_rfl
  unfold lossOf
  linarith [he (est.map fun e => |exact - e|) _ _ h1, he total _ _ h2]

/-- Two methods, one of which is better in all respects. -/
example : (List.range 2).map (lossOf 4 [3, 6] [1, 3] [0, 4]) = [-(1 / 3) - 1 / 2, 1 / 3 + 1 / 2 + 1] := by decide +kernel

/-- Losses add up over batches: after any number of rounds the total of a method is the sum of its losses, and its name and number of bins
are unchanged. -/
theorem C106_rounds (rounds : List (ℚ × List ℚ × List ℚ × List ℚ)) (ms : List Method)
    (h : ∀ q ∈ rounds, ms.length ≤ q.2.1.length ∧ ms.length ≤ q.2.2.1.length ∧ ms.length ≤ q.2.2.2.length) :
    let out := rounds.foldl (fun ms q => (select q.1 q.2.1 q.2.2.1 q.2.2.2 ms).2) ms
    out.length = ms.length ∧ ∀ i (hi : i < ms.length), ∃ m, out[i]? = some m ∧ m.name = ms[i].name ∧ m.bins = ms[i].bins ∧
      m.total = ms[i].total + (rounds.map fun q => lossOf q.1 q.2.1 q.2.2.1 q.2.2.2 i).sum := by
  induction rounds generalizing ms with
  | nil => exact ⟨rfl, fun i hi => ⟨ms[i], by simp [hi], rfl, rfl, by simp⟩⟩
  | cons q rounds ih =>
    obtain ⟨h1, h2, h3⟩ := h q (by simp)
    have hs := (C106_selected q.1 q.2.1 q.2.2.1 q.2.2.2 ms h1 h2 h3).1
    dsimp only at ih ⊢
    rw [List.foldl_cons, hs]
    obtain ⟨i1, i2⟩ := ih (ms.mapIdx fun i m => { m with current := lossOf q.1 q.2.1 q.2.2.1 q.2.2.2 i, total := m.total + lossOf q.1 q.2.1 q.2.2.1 q.2.2.2 i }) (by simpa using fun q' hq' => h q' (by simp [hq']))
    refine ⟨by rw [i1]; simp, fun i hi => ?_⟩
    obtain ⟨m, e1, e2, e3, e4⟩ := i2 i (by simpa using hi)
    refine ⟨m, e1, ?_, ?_, ?_⟩
    · rw [e2]; simp
    · rw [e3]; simp
    · rw [e4, List.map_cons, List.sum_cons]
      simp
      ring

/-! ### What is measured -/

/-- The estimated variance belongs to the values moved to the middles of their bins, so its root is within half the width of the widest
bin of the standard deviation of the values. -/
theorem C106_estimate (counts edges : List ℚ) (bin : ℚ → ℕ) (xs : List ℚ) (h : HistOf counts edges bin xs) (hx : xs ≠ []) (w : ℚ)
    (hw : ∀ i < counts.length, edges.getD (i + 1) 0 - edges.getD i 0 ≤ w) :
    ∃ v, estimate counts edges = .ok v ∧ 0 ≤ v ∧ |Real.sqrt v - Real.sqrt (variance xs)| ≤ w / 2 := by
  refine ⟨_, estimate_hist h hx, variance_nonneg _, ?_⟩
  obtain ⟨a, ha⟩ := List.exists_mem_of_ne_nil xs hx
  have hw0 : 0 ≤ w := by
    obtain ⟨h1, h2, h3⟩ := h.inside a ha
    linarith [hw (bin a) h1]
  have := sd_close xs (fun x => (edges.getD (bin x) 0 + edges.getD (bin x + 1) 0) / 2) (w / 2) (by linarith) fun x hx => by
    obtain ⟨h1, h2, h3⟩ := h.inside x hx
    have := hw (bin x) h1
    rw [abs_le]
    constructor <;> linarith
  exact_mod_cast this

/-- There is no estimate without values, and none if counts and edges do not fit. -/
theorem C106_estimate_error (counts edges : List ℚ) :
    (edges.length - 1 ≠ counts.length → estimate counts edges = .error .typeError) ∧
    (edges.length - 1 = counts.length → counts.sum = 0 → estimate counts edges = .error .zeroDivision) := by
  have hl : (mids edges).length = edges.length - 1 := by unfold mids; simp
  constructor
  · intro h
    simp only [estimate, average, hl, if_pos h]
  · intro h h0
    simp only [estimate, average, hl, h, h0, ne_eq, not_true_eq_false, if_false, if_true]

/-- The values 0, 1, 3 and 4 in two bins of width two. -/
example : HistOf [2, 2] [0, 2, 4] (fun x => if x < 2 then 0 else 1) [0, 1, 3, 4] ∧
    (estimate [2, 2] [0, 2, 4]).toOption = some 1 ∧ variance [0, 1, 3, 4] = 5 / 2 := by
  refine ⟨⟨by decide, ?_, ?_⟩, by decide +kernel, by decide +kernel⟩
  · decide +kernel
  · decide +kernel

theorem zero_of_sum (l : List ℚ) (h : ∀ x ∈ l, 0 ≤ x) (h0 : l.sum = 0) : ∀ x ∈ l, x = 0 := by
  induction l with
  | nil => simp
  | cons a l ih =>
    rw [List.sum_cons] at h0
    have h1 := h a (by simp)
    have h2 : 0 ≤ l.sum := List.sum_nonneg fun x hx => h x (by simp [hx])
    intro x hx
    rcases List.mem_cons.1 hx with rfl | hx
    · linarith
    · exact ih (fun x hx => h x (by simp [hx])) (by linarith) x hx

/-- The variance inside the bins is the sum of the variances of the values in each bin. It is at most the sum of the squares of half the
widths, and zero exactly if the values of each bin are the same. -/
theorem C106_inside (counts edges : List ℚ) (bin : ℚ → ℕ) (xs : List ℚ) (h : HistOf counts edges bin xs) (hs : edges.Pairwise (· < ·))
    (hb : ∀ x ∈ xs, x < edges.getD (bin x + 1) 0 ∨ bin x + 1 = counts.length) :
    ∃ v, totalVariance 0 counts edges xs = some v ∧
      v = ((List.range counts.length).map fun i => variance (xs.filter fun x => decide (bin x = i))).sum ∧ 0 ≤ v ∧
      v ≤ ((List.range counts.length).map fun i => ((edges.getD (i + 1) 0 - edges.getD i 0) / 2) ^ 2).sum ∧
      (v = 0 ↔ ∀ x ∈ xs, ∀ y ∈ xs, bin x = bin y → x = y) := by
  have hnn : ∀ x ∈ (List.range counts.length).map fun i => variance (xs.filter fun x => decide (bin x = i)), 0 ≤ x := by
    intro y hy
    obtain ⟨i, _, rfl⟩ := List.mem_map.1 hy
    exact variance_nonneg _
  refine ⟨_, totalVariance_eq h hs hb, rfl, List.sum_nonneg hnn, ?_, ?_⟩
  · apply List.sum_le_sum
    intro i hi
    apply variance_le
    intro x hx
    obtain ⟨hx1, hx2⟩ := List.mem_filter.1 hx
    have : bin x = i := by simpa using hx2
    subst this
    exact (h.inside x hx1).2
  · constructor
    · intro h0 x hx y hy hxy
      have := zero_of_sum _ hnn h0 _ (List.mem_map.2 ⟨bin x, List.mem_range.2 (h.inside x hx).1, rfl⟩)
      exact (variance_zero _).1 this x (List.mem_filter.2 ⟨hx, by simp⟩) y (List.mem_filter.2 ⟨hy, by simp [hxy]⟩)
    · intro hall
      apply List.sum_eq_zero
      intro y hy
      obtain ⟨i, _, rfl⟩ := List.mem_map.1 hy
      refine (variance_zero _).2 fun x hx y hy => ?_
      obtain ⟨hx1, hx2⟩ := List.mem_filter.1 hx
      obtain ⟨hy1, hy2⟩ := List.mem_filter.1 hy
      have e1 : bin x = i := by simpa using hx2
      have e2 : bin y = i := by simpa using hy2
      exact hall x hx1 y hy1 (e1.trans e2.symm)

example : totalVariance 0 [2, 2] [0, 2, 4] [0, 1, 3, 4] = some (1 / 2) := by decide +kernel

/-- A series, which divides by one less than the number of values: one bin with a single value and the sum is not a number. -/
theorem C106_series_fails (counts edges : List ℚ) (bin : ℚ → ℕ) (xs : List ℚ) (h : HistOf counts edges bin xs) (hs : edges.Pairwise (· < ·))
    (hb : ∀ x ∈ xs, x < edges.getD (bin x + 1) 0 ∨ bin x + 1 = counts.length) (i : ℕ) (hi : i < counts.length) (h1 : counts.getD i 0 = 1) :
    totalVariance 1 counts edges xs = none := by
  have hn := h.number i hi
  rw [h1] at hn
  have hlen : (xs.filter fun x => decide (bin x = i)).length = 1 := by exact_mod_cast hn.symm
  have hd : (xs.filter fun x => decide (digitize (moved edges) x = i + 1)) = xs.filter fun x => decide (bin x = i) := by
    apply List.filter_congr
    intro x hx
    obtain ⟨h2, h3, h4⟩ := h.inside x hx
    rw [digitize_eq edges counts.length (bin x) x h.size hs h2 h3 h4 (hb x hx)]
    simp
  have hmem : i + 1 ∈ nonZero counts := by
    unfold nonZero
    refine List.mem_map.2 ⟨i, List.mem_filter.2 ⟨List.mem_range.2 hi, ?_⟩, rfl⟩
    rw [h1]
    decide
  unfold totalVariance
  have key : ∀ (l : List ℕ) (a : Option ℚ), (a = none ∨ i + 1 ∈ l) →
      l.foldl (fun acc j => addUp acc (var 1 (xs.filter fun x => decide (digitize (moved edges) x = j)))) a = none := by
    intro l
    induction l with
    | nil => rintro a (rfl | h); exacts [rfl, by simp at h]
    | cons j l ih =>
      intro a ha
      rw [List.foldl_cons]
      apply ih
      rcases ha with rfl | ha
      · exact .inl rfl
      · rcases List.mem_cons.1 ha with rfl | ha
        · left
          rw [hd, var, if_pos (by omega)]
          cases a <;> rfl
        · exact .inr ha
  exact key _ _ (.inr hmem)

example : totalVariance 1 [2, 1] [0, 2, 4] [0, 1, 4] = none ∧ totalVariance 1 [2, 2] [0, 2, 4] [0, 1, 3, 4] = some 1 := by decide +kernel

end Verif.Props.MethodChoice
