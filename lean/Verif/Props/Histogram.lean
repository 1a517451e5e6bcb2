import Mathlib.Tactic.IntervalCases
import Verif.Lemmas.HistogramFold
import Verif.Lemmas.HistogramStream

/-!
# C07–C11: histograms

`Whole x` says `x` is a non-negative whole number, `endingBefore`, `startingBefore`, `startingBy`,
`maximalBins` and `massWithin` are defined in `Verif.Spec.Histogram` from counts and edges alone.
-/

namespace Verif.Histogram

open Verif Verif.HistSpec

/-! ## C07: re-binning -/

/-- **C07** Assimilating a histogram into `n ≥ 1` destination bins never writes outside the destination
array (no `IndexError`), keeps the number of bins, and adds exactly the source total. Counts and edges are
arbitrary, the destination edges may even be unsorted. -/
theorem C07_mass (cs es dc de : List ℚ) (n : ℕ) (hn : 0 < n) (hlen : es.length = cs.length + 1)
    (hdc : dc.length = n) (hde : de.length = n + 1) :
    ∃ out loss, assimilate cs es dc de n = .ok (out, loss) ∧ out.length = n ∧
      out.sum = dc.sum + cs.sum := by
  obtain ⟨s', h1, h2, h3, _⟩ := aLoop_spec de n hde cs es ⟨0, dc, 0⟩ hlen hdc hn
  exact ⟨s'.dest, s'.loss, by simp only [assimilate, h1]; rfl, h2, h3⟩

example : assimilate [2, 3, 5] [0, 1, 2, 4] [0, 0] [0, 3 / 2, 4] 2 = .ok ([4, 6], 25 / 8) := by
  decide +kernel

/-- **C07** Whole counts stay whole and non-negative, and the loss is non-negative. -/
theorem C07_whole (cs es dc de : List ℚ) (n : ℕ) (hn : 0 < n) (hlen : es.length = cs.length + 1)
    (hdc : dc.length = n) (hde : de.length = n + 1) (hc : ∀ c ∈ cs, Whole c) (hd : ∀ c ∈ dc, Whole c)
    (out : List ℚ) (loss : ℚ) (h : assimilate cs es dc de n = .ok (out, loss)) :
    (∀ c ∈ out, Whole c ∧ 0 ≤ c) ∧ 0 ≤ loss := by
  obtain ⟨s', h1, h2, h3, h4, h5, _⟩ := aLoop_spec de n hde cs es ⟨0, dc, 0⟩ hlen hdc hn
  simp only [assimilate, h1] at h
  have h' : (s'.dest, s'.loss) = (out, loss) := by
    have : (Except.ok (s'.dest, s'.loss) : Except Err _) = .ok (out, loss) := h
    simpa using this
  simp only [Prod.mk.injEq] at h'
  obtain ⟨rfl, rfl⟩ := h'
  exact ⟨fun c hcm => ⟨h4 hc hd c hcm, (h4 hc hd c hcm).nonneg⟩, h5 hc (le_refl _)⟩

/-- **C07** (where the mass goes) For sorted edges and whole counts, what is added to the first `j` bins is
at least the source count ending before the `j`-th destination edge and at most the source count starting
before it: mass never moves past a bin it does not touch. -/
theorem C07_local (cs es dc de : List ℚ) (n : ℕ) (hn : 0 < n) (hlen : es.length = cs.length + 1)
    (hdc : dc.length = n) (hde : de.length = n + 1) (hc : ∀ c ∈ cs, Whole c)
    (hes : es.Pairwise (· ≤ ·)) (hdes : de.Pairwise (· ≤ ·))
    (out : List ℚ) (loss : ℚ) (h : assimilate cs es dc de n = .ok (out, loss))
    (j : ℕ) (x : ℚ) (hj : 0 < j) (hjn : j < n) (hx : de[j]? = some x) :
    (dc.take j).sum + endingBefore cs es x ≤ (out.take j).sum ∧
    (out.take j).sum ≤ (dc.take j).sum + startingBefore cs es x := by
  obtain ⟨s', h1, h2, h3, h4, h5, h6⟩ := aLoop_spec de n hde cs es ⟨0, dc, 0⟩ hlen hdc hn
  simp only [assimilate, h1] at h
  have h' : (s'.dest, s'.loss) = (out, loss) := by
    have : (Except.ok (s'.dest, s'.loss) : Except Err _) = .ok (out, loss) := h
    simpa using this
  simp only [Prod.mk.injEq] at h'
  obtain ⟨rfl, rfl⟩ := h'
  have := h6 hdes hes hc (Or.inl rfl) j x hj hjn hx
  constructor <;> linarith [this.1, this.2]

example : endingBefore [2, 3, 5] [0, 1, 2, 4] (3 / 2) = 2 ∧ startingBefore [2, 3, 5] [0, 1, 2, 4] (3 / 2) = 5 := by
  decide +kernel

/-- **C07** Regenerating a stored histogram with `n ≥ 1` bins succeeds; the result has `n` bins, the same
total, whole counts if the stored ones were whole, and evenly spaced edges from the first to the last stored
edge, for float and for integer columns. -/
theorem C07_regenerate (cs es : List ℚ) (n : ℕ) (isFloat : Bool) (hn : 0 < n)
    (hlen : es.length = cs.length + 1) :
    ∃ h loss, regenerate cs es n isFloat none = .ok (h, loss) ∧ h.counts.length = n ∧
      h.counts.sum = cs.sum ∧ ((∀ c ∈ cs, Whole c) → ∀ c ∈ h.counts, Whole c) ∧
      h.edges.length = n + 1 ∧ h.edges.head? = es.head? ∧ h.edges.getLast? = es.getLast? := by
  have hne : es ≠ [] := by intro h; subst h; simp at hlen
  have ha := List.head?_eq_some_head hne
  have hb := List.getLast?_eq_some_getLast hne
  set a := es.head hne
  set b := es.getLast hne
  set es' := (if isFloat then es else es.map fun e => (pyRound e : ℚ)) with hes'
  have hl' : es'.length = cs.length + 1 := by rw [hes']; split <;> simp [hlen]
  obtain ⟨out, loss, h1, h2, h3⟩ := C07_mass cs es' (List.replicate n 0) (linspace a b n) n hn hl'
    (by simp) (linspace_length _ _ _)
  refine ⟨⟨out, linspace a b n⟩, loss, ?_, h2, ?_, ?_, linspace_length _ _ _, ?_, ?_⟩
  · unfold regenerate
    rw [firstLast_ok es a b ha hb]
    show (do
      let r ← assimilate cs es' (List.replicate n 0) (linspace a b n) n
      (Except.ok (⟨r.1, linspace a b n⟩, r.2) : Except Err (Hist × ℚ))) = _
    rw [h1]; rfl
  · rw [h3]; simp
  · intro hw c hc
    exact ((C07_whole cs es' _ _ n hn hl' (by simp) (linspace_length _ _ _) hw
      (fun c hc => ⟨0, by simpa using (List.mem_replicate.1 hc).2⟩) out loss h1).1 c hc).1
  · rw [linspace_head, ha]
  · rw [linspace_last _ _ _ hn, hb]

example : regenerate [1, 2, 4] [0, 1, 2, 3] 2 true none = .ok (⟨[2, 5], [0, 3 / 2, 3]⟩, 23 / 16) := by
  decide +kernel

/-- With no destination bin a non-empty source bin is written out of range. -/
theorem C07_no_bins (c e0 e1 x : ℚ) (cs es : List ℚ) (hc : c ≠ 0) :
    assimilate (c :: cs) (e0 :: e1 :: es) [] [x] 0 = .error .indexError := by
  simp only [assimilate, aLoop_cons, aStep, if_neg hc]
  rw [advance]
  rfl

/-! ## C08: merging and streaming -/

/-- **C08** Merging two histograms with `n ≥ 1` bins succeeds and the total is the sum of the totals; whole
counts stay whole. -/
theorem C08_merge_total (h1 h2 : Hist) (n : ℕ) (lo hi : Option ℚ) (hn : 0 < n)
    (hl1 : h1.edges.length = h1.counts.length + 1) (hl2 : h2.edges.length = h2.counts.length + 1) :
    ∃ h loss, mergeHist h1 h2 n lo hi = .ok (h, loss) ∧ h.counts.length = n ∧
      h.edges.length = n + 1 ∧ h.counts.sum = h1.counts.sum + h2.counts.sum ∧
      ((∀ c ∈ h1.counts, Whole c) → (∀ c ∈ h2.counts, Whole c) → (∀ c ∈ h.counts, Whole c) ∧ 0 ≤ loss) := by
  have hne1 : h1.edges ≠ [] := by intro h; rw [h] at hl1; simp at hl1
  have hne2 : h2.edges ≠ [] := by intro h; rw [h] at hl2; simp at hl2
  obtain ⟨r, hr⟩ : ∃ r, mergedRange lo hi h1.edges h2.edges = .ok r := by
    unfold mergedRange
    rw [firstLast_ok _ _ _ (List.head?_eq_some_head hne1) (List.getLast?_eq_some_getLast hne1),
      firstLast_ok _ _ _ (List.head?_eq_some_head hne2) (List.getLast?_eq_some_getLast hne2)]
    exact ⟨_, rfl⟩
  obtain ⟨o1, l1, a1, a2, a3⟩ := C07_mass h1.counts h1.edges (List.replicate n 0) (linspace r.1 r.2 n) n hn
    hl1 (by simp) (linspace_length _ _ _)
  obtain ⟨o2, l2, b1, b2, b3⟩ := C07_mass h2.counts h2.edges o1 (linspace r.1 r.2 n) n hn
    hl2 a2 (linspace_length _ _ _)
  refine ⟨⟨o2, linspace r.1 r.2 n⟩, l1 + l2, ?_, b2, linspace_length _ _ _, ?_, ?_⟩
  · unfold mergeHist
    rw [hr]
    show (do
      let a ← assimilate h1.counts h1.edges (List.replicate n 0) (linspace r.1 r.2 n) n
      let b ← assimilate h2.counts h2.edges a.1 (linspace r.1 r.2 n) n
      (Except.ok (⟨b.1, linspace r.1 r.2 n⟩, a.2 + b.2) : Except Err (Hist × ℚ))) = _
    rw [a1]
    show (do
      let b ← assimilate h2.counts h2.edges o1 (linspace r.1 r.2 n) n
      (Except.ok (⟨b.1, linspace r.1 r.2 n⟩, l1 + b.2) : Except Err (Hist × ℚ))) = _
    rw [b1]; rfl
  · rw [b3, a3]; simp
  · intro w1 w2
    have c1 := C07_whole _ _ _ _ n hn hl1 (by simp) (linspace_length _ _ _) w1
      (fun c hc => ⟨0, by simpa using (List.mem_replicate.1 hc).2⟩) o1 l1 a1
    have c2 := C07_whole _ _ _ _ n hn hl2 a2 (linspace_length _ _ _) w2 (fun c hc => (c1.1 c hc).1) o2 l2 b1
    exact ⟨fun c hc => (c2.1 c hc).1, by linarith [c1.2, c2.2]⟩

/-- The edges of a successful merge. -/
theorem mergeHist_edges (h1 h2 : Hist) (n : ℕ) (lo hi : Option ℚ) (h : Hist) (loss : ℚ)
    (hm : mergeHist h1 h2 n lo hi = .ok (h, loss)) :
    ∃ r, mergedRange lo hi h1.edges h2.edges = .ok r ∧ h.edges = linspace r.1 r.2 n := by
  unfold mergeHist at hm
  cases hr : mergedRange lo hi h1.edges h2.edges with
  | error e => rw [hr] at hm; simp [bind, Except.bind] at hm
  | ok r =>
    rw [hr] at hm
    refine ⟨r, rfl, ?_⟩
    simp only [bind, Except.bind] at hm
    cases ha : assimilate h1.counts h1.edges (List.replicate n 0) (linspace r.1 r.2 n) n with
    | error e => rw [ha] at hm; simp at hm
    | ok a =>
      rw [ha] at hm
      simp only at hm
      cases hb : assimilate h2.counts h2.edges a.1 (linspace r.1 r.2 n) n with
      | error e => rw [hb] at hm; simp at hm
      | ok b =>
        rw [hb] at hm
        simp only [Except.ok.injEq, Prod.mk.injEq] at hm
        rw [← hm.1]

/-- **C08** (partial) The merged edges run from at most every operand edge to at least every operand edge,
provided the merged profile's minimum and maximum (used for the edges when known) bound the operands' edges.
Missing from the full claim: the profile minimum can exceed an operand's edges after a merge with a
minimum of zero, see `C08_range_fails`. -/
theorem C08_merge_range_partial (h1 h2 : Hist) (n : ℕ) (lo hi : Option ℚ) (hn : 0 < n)
    (hs1 : h1.edges.Pairwise (· ≤ ·)) (hs2 : h2.edges.Pairwise (· ≤ ·))
    (hlo : ∀ x, lo = some x → ∀ e ∈ h1.edges ++ h2.edges, x ≤ e)
    (hhi : ∀ x, hi = some x → ∀ e ∈ h1.edges ++ h2.edges, e ≤ x)
    (h : Hist) (loss : ℚ) (hm : mergeHist h1 h2 n lo hi = .ok (h, loss)) :
    ∃ a b, h.edges.head? = some a ∧ h.edges.getLast? = some b ∧ a ≤ b ∧
      ∀ e ∈ h1.edges ++ h2.edges, a ≤ e ∧ e ≤ b := by
  obtain ⟨r, hr, hE⟩ := mergeHist_edges h1 h2 n lo hi h loss hm
  have bounds : ∀ l : List ℚ, l.Pairwise (· ≤ ·) → ∀ a b, firstLast l = .ok (a, b) →
      (∀ e ∈ l, a ≤ e ∧ e ≤ b) ∧ a ∈ l := by
    intro l hl a b hab
    unfold firstLast at hab
    cases h1 : l.head? with
    | none => rw [h1] at hab; simp at hab
    | some x =>
      cases h2 : l.getLast? with
      | none => rw [h1, h2] at hab; simp at hab
      | some y =>
        rw [h1, h2] at hab
        simp only [Except.ok.injEq, Prod.mk.injEq] at hab
        obtain ⟨rfl, rfl⟩ := hab
        refine ⟨?_, List.mem_of_mem_head? h1⟩
        intro e he
        constructor
        · cases l with
          | nil => simp at h1
          | cons z l =>
            simp only [List.head?_cons, Option.some.injEq] at h1
            subst h1
            rcases List.mem_cons.1 he with rfl | he
            · exact le_refl _
            · exact (List.pairwise_cons.1 hl).1 e he
        · obtain ⟨ys, rfl⟩ := List.getLast?_eq_some_iff.1 h2
          rcases List.mem_append.1 he with he | he
          · exact (List.pairwise_append.1 hl).2.2 e he y (by simp)
          · simp only [List.mem_singleton] at he; rw [he]
  unfold mergedRange at hr
  cases f1 : firstLast h1.edges with
  | error e => rw [f1] at hr; simp [bind, Except.bind] at hr
  | ok p1 =>
    cases f2 : firstLast h2.edges with
    | error e => rw [f1, f2] at hr; simp [bind, Except.bind] at hr
    | ok p2 =>
      rw [f1, f2] at hr
      simp only [bind, Except.bind, Except.ok.injEq] at hr
      obtain ⟨b1, m1⟩ := bounds _ hs1 p1.1 p1.2 f1
      obtain ⟨b2, m2⟩ := bounds _ hs2 p2.1 p2.2 f2
      have hall : ∀ e ∈ h1.edges ++ h2.edges, r.1 ≤ e ∧ e ≤ r.2 := by
        intro e he
        rw [← hr]
        constructor
        · cases lo with
          | some x => exact hlo x rfl e he
          | none =>
            rcases List.mem_append.1 he with h | h
            · exact le_trans (min_le_left _ _) (b1 e h).1
            · exact le_trans (min_le_right _ _) (b2 e h).1
        · cases hi with
          | some x => exact hhi x rfl e he
          | none =>
            rcases List.mem_append.1 he with h | h
            · exact le_trans (b1 e h).2 (le_max_left _ _)
            · exact le_trans (b2 e h).2 (le_max_right _ _)
      refine ⟨r.1, r.2, by rw [hE, linspace_head], by rw [hE, linspace_last _ _ _ hn], ?_, hall⟩
      have := hall p1.1 (List.mem_append_left _ m1)
      linarith [this.1, this.2]

example : mergeHist ⟨[2, 3], [0, 1, 2]⟩ ⟨[4], [1, 5]⟩ 2 (some 0) (some 5) =
    .ok (⟨[7, 2], [0, 5 / 2, 5]⟩, 137 / 16) := by decide +kernel

/-- **C08 fails** without the proviso: merging data with minimum 0 and data with minimum 5 leaves the
merged minimum at 5 (`C05_merge_zero_fails`), and the merged edges then start above the first histogram. -/
theorem C08_range_fails :
    ∃ h loss, mergeHist ⟨[2, 3], [0, 1, 2]⟩ ⟨[4], [5, 9]⟩ 2 (some 5) (some 9) = .ok (h, loss) ∧
      h.edges.head? = some 5 := by
  refine ⟨⟨[7, 2], [5, 7, 9]⟩, 501 / 4, ?_, rfl⟩
  decide +kernel

/-- A histogram built from data, with its counts as numbers. -/
def IHist.toHist (h : IHist) : Hist := ⟨h.counts.map fun c : ℕ => (c : ℚ), h.edges⟩

theorem sum_cast (l : List ℕ) : (l.map fun c : ℕ => (c : ℚ)).sum = (l.sum : ℕ) := by
  induction l with
  | nil => simp
  | cons x l ih => simp [ih]

/-- **C08** (end to end) Profile two data sets in any batches and merge the histograms, with the merged profile's
minimum and maximum being those of all data: the result counts every value of both data sets, has whole counts
and evenly spaced, sorted edges running exactly from the smallest to the largest value. -/
theorem C08_merge_streams (isFloat : Bool) (bs1 bs2 : List (List ℚ × ℕ)) (n : ℕ) (hn : 0 < n)
    (h1 h2 : IHist) (lo hi : ℚ)
    (hn1 : ∀ b ∈ bs1, 0 < b.2) (hn2 : ∀ b ∈ bs2, 0 < b.2)
    (hint1 : isFloat = false → ∀ v ∈ (bs1.map Prod.fst).flatten, ∃ z : ℤ, v = z)
    (hint2 : isFloat = false → ∀ v ∈ (bs2.map Prod.fst).flatten, ∃ z : ℤ, v = z)
    (hr1 : runUpdates isFloat .absent bs1 = .ints h1) (hr2 : runUpdates isFloat .absent bs2 = .ints h2)
    (hlo : Least lo ((bs1.map Prod.fst).flatten ++ (bs2.map Prod.fst).flatten))
    (hhi : Greatest hi ((bs1.map Prod.fst).flatten ++ (bs2.map Prod.fst).flatten)) :
    ∃ h loss, mergeHist h1.toHist h2.toHist n (some lo) (some hi) = .ok (h, loss) ∧
      h.counts.sum = ((bs1.map Prod.fst).flatten ++ (bs2.map Prod.fst).flatten).length ∧
      (∀ c ∈ h.counts, Whole c) ∧ h.counts.length = n ∧ h.edges.Pairwise (· ≤ ·) ∧
      h.edges.head? = some lo ∧ h.edges.getLast? = some hi := by
  have get : ∀ (bs : List (List ℚ × ℕ)) (h : IHist), (∀ b ∈ bs, 0 < b.2) →
      (isFloat = false → ∀ v ∈ (bs.map Prod.fst).flatten, ∃ z : ℤ, v = z) →
      runUpdates isFloat .absent bs = .ints h →
      h.edges.length = h.counts.length + 1 ∧ h.counts.sum = (bs.map Prod.fst).flatten.length := by
    intro bs h hb hi hr
    have := tracks_run isFloat .absent [] bs hb (by simpa [IsInt] using hi) (Or.inl ⟨rfl, rfl⟩)
    simp only [List.nil_append] at this
    rcases this with ⟨_, h0⟩ | ⟨h', _, _, e1, e2, _⟩
    · rw [hr] at h0; simp at h0
    · rw [hr] at e1
      simp only [Stored.ints.injEq] at e1
      subst e1
      exact ⟨e2.len, e2.total⟩
  obtain ⟨l1, t1⟩ := get bs1 h1 hn1 hint1 hr1
  obtain ⟨l2, t2⟩ := get bs2 h2 hn2 hint2 hr2
  have whole : ∀ h : IHist, ∀ c ∈ h.toHist.counts, Whole c := by
    intro h c hc
    obtain ⟨m, _, rfl⟩ := List.mem_map.1 hc
    exact ⟨m, rfl⟩
  obtain ⟨h, loss, m1, m2, m3, m4, m5⟩ := C08_merge_total h1.toHist h2.toHist n (some lo) (some hi) hn
    (by simpa [IHist.toHist] using l1) (by simpa [IHist.toHist] using l2)
  obtain ⟨r, r1, r2⟩ := mergeHist_edges _ _ _ _ _ _ _ m1
  have hrr : r = (lo, hi) := by
    have ne : ∀ h : IHist, h.edges.length = h.counts.length + 1 → ∃ p, firstLast h.toHist.edges = .ok p := by
      intro h hl
      have hne : h.edges ≠ [] := by intro h0; rw [h0] at hl; simp at hl
      exact ⟨_, firstLast_ok _ _ _ (List.head?_eq_some_head hne) (List.getLast?_eq_some_getLast hne)⟩
    obtain ⟨p1, q1⟩ := ne h1 l1
    obtain ⟨p2, q2⟩ := ne h2 l2
    unfold mergedRange at r1
    rw [q1, q2] at r1
    simp only [bind, Except.bind, Except.ok.injEq, Option.getD_some] at r1
    exact r1.symm
  refine ⟨h, loss, m1, ?_, (m5 (whole h1) (whole h2)).1, m2, ?_, ?_, ?_⟩
  · rw [m4]
    simp only [IHist.toHist]
    rw [sum_cast, sum_cast, t1, t2, List.length_append]; push_cast; rfl
  · rw [r2, hrr]; exact linspace_sorted _ _ _ (hlo.2 hi hhi.1)
  · rw [r2, hrr, linspace_head]
  · rw [r2, hrr, linspace_last _ _ _ hn]

/-- **C08** The bins of a merge: only methods both profiles use are kept, a merge with no common method is
refused, and when both profiles were given a number of bins the larger one is used. -/
theorem C08_bin_methods (m1 m2 : List String) (u1 u2 : Option ℕ) (minBins : ℕ) :
    (mergeBinCount m1 m2 u1 u2 minBins = .error .valueError ↔ ∀ x ∈ m1, x ∉ m2) ∧
    (∀ ms n, mergeBinCount m1 m2 u1 u2 minBins = .ok (ms, n) →
      (∀ x, x ∈ ms ↔ x ∈ m1 ∧ x ∈ m2) ∧
      (∀ a b, u1 = some a → u2 = some b → 0 < a → 0 < b → n = max a b) ∧
      (u1 = none ∨ u2 = none → n = minBins)) := by
  have hempty : (m1.filter fun x => m2.contains x).isEmpty = true ↔ ∀ x ∈ m1, x ∉ m2 := by
    rw [List.isEmpty_iff, List.filter_eq_nil_iff]
    simp
  constructor
  · unfold mergeBinCount
    simp only
    by_cases h : (m1.filter fun x => m2.contains x).isEmpty = true
    · rw [if_pos h]; simp only [true_iff]; exact hempty.1 h
    · rw [if_neg h]
      constructor
      · intro hx
        split at hx
        · split_ifs at hx
        · simp at hx
      · intro hx; exact absurd (hempty.2 hx) h
  · intro ms n hm
    unfold mergeBinCount at hm
    simp only at hm
    by_cases h : (m1.filter fun x => m2.contains x).isEmpty = true
    · rw [if_pos h] at hm; simp at hm
    · rw [if_neg h] at hm
      split at hm
      · rename_i a b
        split_ifs at hm with hab
        · simp only [Except.ok.injEq, Prod.mk.injEq] at hm
          obtain ⟨rfl, rfl⟩ := hm
          refine ⟨fun x => by simp, ?_, ?_⟩
          · rintro _ _ ⟨⟩ ⟨⟩ _ _; rfl
          · rintro (h | h) <;> simp at h
        · simp only [Except.ok.injEq, Prod.mk.injEq] at hm
          obtain ⟨rfl, rfl⟩ := hm
          refine ⟨fun x => by simp, ?_, ?_⟩
          · rintro _ _ ⟨⟩ ⟨⟩ h1 h2; exact absurd ⟨by omega, by omega⟩ hab
          · rintro (h | h) <;> simp at h
      · rename_i hno
        simp only [Except.ok.injEq, Prod.mk.injEq] at hm
        obtain ⟨rfl, rfl⟩ := hm
        refine ⟨fun x => by simp, ?_, fun _ => rfl⟩
        rintro a b rfl rfl _ _
        exact absurd rfl (hno a b rfl)

example : mergeBinCount ["auto", "doane"] ["doane", "rice"] (some 4) (some 7) 1000 = .ok (["doane"], 7) := by
  decide

/-- **C08** (streaming) Whatever the batches and the numbers of bins chosen, the stored histogram counts every
value of every batch exactly once and its edges run from the smallest to the largest value of all data. In an
integer column the data are integers. -/
theorem C08_stream (isFloat : Bool) (bs : List (List ℚ × ℕ)) (hn : ∀ b ∈ bs, 0 < b.2)
    (hint : isFloat = false → ∀ v ∈ (bs.map Prod.fst).flatten, ∃ z : ℤ, v = z)
    (hdata : (bs.map Prod.fst).flatten ≠ []) :
    ∃ h lo hi, runUpdates isFloat .absent bs = .ints h ∧
      h.edges.length = h.counts.length + 1 ∧
      h.counts.sum = (bs.map Prod.fst).flatten.length ∧
      h.edges.Pairwise (· ≤ ·) ∧
      h.edges.head? = some lo ∧ h.edges.getLast? = some hi ∧
      (lo ∈ (bs.map Prod.fst).flatten ∧ ∀ v ∈ (bs.map Prod.fst).flatten, lo ≤ v) ∧
      (hi ∈ (bs.map Prod.fst).flatten ∧ ∀ v ∈ (bs.map Prod.fst).flatten, v ≤ hi) := by
  have := tracks_run isFloat .absent [] bs hn (by simpa [IsInt] using hint) (Or.inl ⟨rfl, rfl⟩)
  simp only [List.nil_append] at this
  rcases this with ⟨h, _⟩ | ⟨h, lo, hi, h1, h2, h3, h4⟩
  · exact absurd h hdata
  · exact ⟨h, lo, hi, h1, h2.len, h2.total, h2.sorted, h2.head, h2.last, h3, h4⟩

example : runUpdates true .absent [([1, 2, 5], 2), ([], 3), ([0, 9], 3)] =
    .ints ⟨[3, 1, 1], [0, 3, 6, 9]⟩ := by decide +kernel

/-- **C08** (one batch) The first histogram of non-constant data is exact: bin `i` counts the values from its
left edge (included) to its right edge (excluded, except for the last bin). -/
theorem C08_single_batch_exact (vs : List ℚ) (n i : ℕ) (a b : ℚ)
    (hne : vs.foldl min (vs.headD 0) ≠ vs.foldl max (vs.headD 0))
    (ha : (getHistogram vs n).edges[i]? = some a) (hb : (getHistogram vs n).edges[i + 1]? = some b) :
    (getHistogram vs n).counts[i]? = some (vs.countP fun v =>
      decide (a ≤ v ∧ (if i + 1 = n then v ≤ b else v < b))) := by
  have hg : getHistogram vs n = ⟨binValues vs (linspace (vs.foldl min (vs.headD 0))
      (vs.foldl max (vs.headD 0)) n), linspace (vs.foldl min (vs.headD 0))
      (vs.foldl max (vs.headD 0)) n⟩ := by
    unfold getHistogram
    simp only
    rw [if_neg hne]
  rw [hg] at ha hb ⊢
  simp only at ha hb ⊢
  rw [binValues_get vs _ i a b ha hb]
  simp only [linspace_length]
  congr 1
  have : (i + 2 = n + 1) = (i + 1 = n) := by simp
  simp only [this]

example : getHistogram [1, 1, 2, 3, 4, 5] 2 = ⟨[3, 3], [1, 3, 5]⟩ := by decide +kernel

/-- **C08 fails** for an update after a merge: the merged counts are floats, expanding them raises a
`TypeError` which is swallowed, and the histogram ignores all later data. -/
theorem C08_update_after_merge_fails (isFloat : Bool) (h : Hist) (bs : List (List ℚ × ℕ)) :
    runUpdates isFloat (.floats h) bs = .floats h := by
  induction bs with
  | nil => rfl
  | cons b bs ih =>
    obtain ⟨b, n⟩ := b
    rw [runUpdates]
    have : updateSafely isFloat (.floats h) b n = .floats h := by
      unfold updateSafely updateHistogram
      cases b <;> rfl
    rw [this, ih]

/-- **C08** The histogram chosen for the report comes from one of the methods and, when nothing was cached,
has the stored total and the stored outer edges, and the suggested number of bins. -/
theorem C08_reported_total (h : Hist) (storedLoss : ℚ) (isFloat : Bool) (ms : List (String × Method))
    (hlen : h.edges.length = h.counts.length + 1) (hms : ∀ p ∈ ms, p.2.cached = none ∧ 0 < p.2.suggested) :
    ∃ r, bestHistogram h storedLoss isFloat ms = .ok r ∧ (r = none ↔ ms = []) ∧
      ∀ name g, r = some (name, g) → ∃ m, (name, m) ∈ ms ∧ g.counts.length = m.suggested ∧
        g.counts.sum = h.counts.sum ∧ g.edges.head? = h.edges.head? ∧ g.edges.getLast? = h.edges.getLast? := by
  have key : ∀ p ∈ ms, ∃ g l, histogramForProfile h storedLoss isFloat p.2 = .ok (g, l) ∧
      g.counts.length = p.2.suggested ∧
      g.counts.sum = h.counts.sum ∧ g.edges.head? = h.edges.head? ∧ g.edges.getLast? = h.edges.getLast? := by
    intro p hp
    obtain ⟨hc, hs⟩ := hms p hp
    unfold histogramForProfile
    rw [hc]
    simp only
    split_ifs with hl
    · exact ⟨h, storedLoss, rfl, hl, rfl, rfl, rfl⟩
    · obtain ⟨g, l, a1, a2, a3, _, _, a5, a6⟩ := C07_regenerate h.counts h.edges p.2.suggested isFloat hs hlen
      exact ⟨g, l, a1, a2, a3, a5, a6⟩
  have loop : ∀ (rest : List (String × Method)) (best : Option ℚ) (sel : Option (String × Hist)),
      (∀ p ∈ rest, p ∈ ms) → (sel = none → best = none) →
      ∃ r, bestLoop h storedLoss isFloat rest best sel = .ok r ∧
        (r = none ↔ rest = [] ∧ sel = none) ∧
        (r = sel ∨ ∃ name g m, r = some (name, g) ∧ (name, m) ∈ ms ∧ g.counts.length = m.suggested ∧
          g.counts.sum = h.counts.sum ∧ g.edges.head? = h.edges.head? ∧
          g.edges.getLast? = h.edges.getLast?) := by
    intro rest
    induction rest with
    | nil => intro best sel _ _; exact ⟨sel, rfl, by simp, Or.inl rfl⟩
    | cons p rest ih =>
      obtain ⟨name, m⟩ := p
      intro best sel hsub hsel
      obtain ⟨g, l, e1, e2⟩ := key (name, m) (hsub _ (by simp))
      have hb : bestLoop h storedLoss isFloat ((name, m) :: rest) best sel =
          if better best l then bestLoop h storedLoss isFloat rest (some l) (some (name, g))
          else bestLoop h storedLoss isFloat rest best sel := by
        rw [bestLoop, e1]; rfl
      rw [hb]
      by_cases hbt : better best l = true
      · rw [if_pos hbt]
        obtain ⟨r, r1, r2, r3⟩ := ih (some l) (some (name, g)) (fun p hp => hsub p (by simp [hp])) (by simp)
        refine ⟨r, r1, ?_, ?_⟩
        · rw [r2]; simp
        · rcases r3 with r3 | r3
          · right; exact ⟨name, g, m, r3, hsub _ (by simp), e2⟩
          · exact Or.inr r3
      · rw [if_neg hbt]
        have hne : best ≠ none := by
          intro h0; rw [h0] at hbt; exact hbt rfl
        have hsne : sel ≠ none := fun h0 => hne (hsel h0)
        obtain ⟨r, r1, r2, r3⟩ := ih best sel (fun p hp => hsub p (by simp [hp])) hsel
        refine ⟨r, r1, ?_, r3⟩
        rw [r2]; simp [hsne]
  obtain ⟨r, r1, r2, r3⟩ := loop ms none none (fun p hp => hp) (fun _ => rfl)
  refine ⟨r, r1, by rw [r2]; simp, ?_⟩
  intro name g hr
  rcases r3 with r3 | ⟨name', g', m, e1, e2, e3⟩
  · rw [r3] at hr; simp at hr
  · rw [e1] at hr
    simp only [Option.some.injEq, Prod.mk.injEq] at hr
    obtain ⟨rfl, rfl⟩ := hr
    exact ⟨m, e2, e3⟩

example : bestHistogram ⟨[1, 2, 4], [0, 1, 2, 3]⟩ 0 true [("rice", ⟨none, 2, 0⟩), ("doane", ⟨none, 3, 0⟩)] =
    .ok (some ("doane", ⟨[1, 2, 4], [0, 1, 2, 3]⟩)) := by decide +kernel

/-- **C08** (partial) When every candidate has a positive loss, the reported histogram is one of least loss.
Missing: a candidate with loss 0 is displaced by any later one, see `C08_zero_loss_displaced_fails`. -/
theorem C08_least_loss_partial (h : Hist) (storedLoss : ℚ) (isFloat : Bool) (ms : List (String × Method))
    (cand : String × Method → Hist × ℚ)
    (hok : ∀ p ∈ ms, histogramForProfile h storedLoss isFloat p.2 = .ok (cand p)) (hpos : ∀ p ∈ ms, 0 < (cand p).2)
    (name : String) (g : Hist) (hr : bestHistogram h storedLoss isFloat ms = .ok (some (name, g))) :
    ∃ p ∈ ms, p.1 = name ∧ (cand p).1 = g ∧ ∀ q ∈ ms, (cand p).2 ≤ (cand q).2 := by
  have loop : ∀ (rest done : List (String × Method)) (best : Option ℚ) (sel : Option (String × Hist)),
      ms = done ++ rest →
      ((best = none ∧ sel = none ∧ done = []) ∨
        ∃ p ∈ done, best = some (cand p).2 ∧ sel = some (p.1, (cand p).1) ∧ ∀ q ∈ done, (cand p).2 ≤ (cand q).2) →
      bestLoop h storedLoss isFloat rest best sel = .ok (some (name, g)) →
      ∃ p ∈ ms, p.1 = name ∧ (cand p).1 = g ∧ ∀ q ∈ ms, (cand p).2 ≤ (cand q).2 := by
    intro rest
    induction rest with
    | nil =>
      intro done best sel hsplit hinv hrun
      simp only [bestLoop, Except.ok.injEq] at hrun
      rcases hinv with ⟨_, h2, _⟩ | ⟨p, hp, _, h2, h3⟩
      · rw [h2] at hrun; simp at hrun
      · rw [h2] at hrun
        simp only [Option.some.injEq, Prod.mk.injEq] at hrun
        rw [List.append_nil] at hsplit
        subst hsplit
        exact ⟨p, hp, hrun.1, hrun.2, h3⟩
    | cons x rest ih =>
      intro done best sel hsplit hinv hrun
      have hx : x ∈ ms := by rw [hsplit]; simp
      have hb : bestLoop h storedLoss isFloat (x :: rest) best sel =
          if better best (cand x).2 then bestLoop h storedLoss isFloat rest (some (cand x).2) (some (x.1, (cand x).1))
          else bestLoop h storedLoss isFloat rest best sel := by
        obtain ⟨nm, m⟩ := x
        rw [bestLoop, hok _ hx]; rfl
      rw [hb] at hrun
      rcases hinv with ⟨h1, h2, h3⟩ | ⟨p, hp, h1, h2, h3⟩
      · subst h1; subst h3
        rw [if_pos (show better none (cand x).2 = true from rfl)] at hrun
        exact ih [x] _ _ (by simpa using hsplit) (Or.inr ⟨x, by simp, rfl, rfl, by simp⟩) hrun
      · subst h1
        have hpm : p ∈ ms := by rw [hsplit]; simp [hp]
        have hp0 : (cand p).2 ≠ 0 := (hpos p hpm).ne'
        by_cases hlt : (cand x).2 < (cand p).2
        · rw [if_pos (by simp [better, hlt])] at hrun
          refine ih (done ++ [x]) _ _ (by simpa using hsplit) (Or.inr ⟨x, by simp, rfl, rfl, ?_⟩) hrun
          intro q hq
          rcases List.mem_append.1 hq with hq | hq
          · exact le_trans hlt.le (h3 q hq)
          · simp only [List.mem_singleton] at hq; rw [hq]
        · rw [if_neg (by simp [better, hlt, hp0])] at hrun
          refine ih (done ++ [x]) _ _ (by simpa using hsplit) (Or.inr ⟨p, by simp [hp], rfl, h2, ?_⟩) hrun
          intro q hq
          rcases List.mem_append.1 hq with hq | hq
          · exact h3 q hq
          · simp only [List.mem_singleton] at hq; rw [hq]; linarith
  exact loop ms [] none none rfl (Or.inl ⟨rfl, rfl, rfl⟩) hr

/-- **C08 fails** for a perfect candidate: `not best_hist_loss` is true for a loss of 0, so the exact histogram
is displaced by a later, coarser one. -/
theorem C08_zero_loss_displaced_fails :
    histogramForProfile ⟨[1, 2, 4], [0, 1, 2, 3]⟩ 0 true ⟨none, 3, 0⟩ = .ok (⟨[1, 2, 4], [0, 1, 2, 3]⟩, 0) ∧
    bestHistogram ⟨[1, 2, 4], [0, 1, 2, 3]⟩ 0 true [("doane", ⟨none, 3, 0⟩), ("rice", ⟨none, 2, 0⟩)] =
      .ok (some ("rice", ⟨[2, 5], [0, 3 / 2, 3]⟩)) := by decide +kernel

/-! ## C09: percentiles -/

theorem percentile1_cases (cs es : List ℚ) (p : ℚ) :
    percentile1 cs es p = interp (cdfPoints cs es) (p / 100) ∨
    (p = 50 ∧ ∃ m, medianValue cs es = some m ∧ percentile1 cs es p = m) := by
  unfold percentile1
  cases h : medianValue cs es with
  | none => exact Or.inl rfl
  | some m =>
    simp only
    split_ifs with h1
    · exact Or.inr ⟨h1.2, m, rfl, rfl⟩
    · exact Or.inl rfl

/-- A sorted, non-empty list lies between its ends. -/
theorem sorted_between (es : List ℚ) (hs : es.Pairwise (· ≤ ·)) (lo hi : ℚ) (h1 : es.head? = some lo)
    (h2 : es.getLast? = some hi) : ∀ e ∈ es, lo ≤ e ∧ e ≤ hi := by
  intro e he
  constructor
  · cases es with
    | nil => simp at h1
    | cons z l =>
      simp only [List.head?_cons, Option.some.injEq] at h1
      subst h1
      rcases List.mem_cons.1 he with rfl | he
      · exact le_refl _
      · exact (List.pairwise_cons.1 hs).1 e he
  · obtain ⟨ys, rfl⟩ := List.getLast?_eq_some_iff.1 h2
    rcases List.mem_append.1 he with he | he
    · exact (List.pairwise_append.1 hs).2.2 e he hi (by simp)
    · simp only [List.mem_singleton] at he; rw [he]

/-- **C09** Every percentile of a histogram (whole counts, positive total of at most 10¹⁵) lies between its
first and last edge. -/
theorem C09_range (h : Hist) (lo hi p : ℚ) (hlen : h.edges.length = h.counts.length + 1)
    (hw : ∀ c ∈ h.counts, Whole c) (ht : 0 < h.counts.sum) (hb : h.counts.sum ≤ 10 ^ 15)
    (hs : h.edges.Pairwise (· ≤ ·)) (h1 : h.edges.head? = some lo) (h2 : h.edges.getLast? = some hi) :
    ∀ v ∈ percentiles h [p], lo ≤ v ∧ v ≤ hi := by
  intro v hv
  simp only [percentiles, List.map_cons, List.map_nil, List.mem_singleton] at hv
  subst hv
  have hbt := sorted_between h.edges hs lo hi h1 h2
  rcases percentile1_cases h.counts h.edges p with hc | ⟨_, m, hm, hc⟩
  · rw [hc]
    have hris := cdfPoints_rising h.counts h.edges hw ht hb hs hlen
    have hmem : ∀ q ∈ cdfPoints h.counts h.edges, q.2 ∈ h.edges := by
      intro q hq
      unfold cdfPoints at hq
      exact (List.of_mem_zip hq).2
    have hne : cdfPoints h.counts h.edges ≠ [] := by
      intro hnil
      have h3 : (cdfPoints h.counts h.edges).length = 0 := by rw [hnil]; rfl
      unfold cdfPoints at h3
      simp [cumsum_length, hlen] at h3
    constructor
    · cases hP : cdfPoints h.counts h.edges with
      | nil => exact absurd hP hne
      | cons q l =>
        rw [hP] at hris hmem
        exact le_trans (hbt q.2 (hmem q (by simp))).1 (interp_ge_head q l hris _)
    · exact le_trans (interp_le_last _ hris _ (List.getLast?_eq_some_getLast hne) _)
        (hbt _ (hmem _ (List.getLast_mem hne))).2
  · rw [hc]
    simp only [medianValue] at hm
    split_ifs at hm with hl
    simp only [Option.some.injEq] at hm
    subst hm
    have hmem : ∀ e ∈ halfEdges h.counts h.edges, e ∈ h.edges := by
      intro e he
      obtain ⟨i, c, hi, _⟩ := halfEdges_mem _ _ e he
      exact List.mem_of_mem_tail (List.mem_of_getElem? hi)
    exact ⟨le_avg _ (by omega) _ fun e he => (hbt e (hmem e he)).1,
      avg_le _ (by omega) _ fun e he => (hbt e (hmem e he)).2⟩

example : percentiles ⟨[1, 2, 1], [0, 1, 2, 3]⟩ [0, 25, 50, 90, 100] = [0, 1, 3 / 2, 13 / 5, 3] := by
  decide +kernel

/-- **C09** (partial) Larger percentiles are not smaller, for histograms with whole counts and a total below
5·10⁹, when no request falls strictly between 50 and 50 + 10⁻¹³. Missing: requests in that sliver, where the
averaged median can exceed them, see `C09_monotone_fails`. -/
theorem C09_monotone_partial (h : Hist) (p q : ℚ) (hlen : h.edges.length = h.counts.length + 1)
    (hw : ∀ c ∈ h.counts, Whole c) (ht : 0 < h.counts.sum) (hb : h.counts.sum < 5 * 10 ^ 9)
    (hs : h.edges.Pairwise (· ≤ ·)) (hpq : p ≤ q) (hq : q ≤ 50 ∨ 50 + 1 / 10 ^ 13 ≤ q) :
    ∀ u ∈ percentiles h [p], ∀ v ∈ percentiles h [q], u ≤ v := by
  intro u hu v hv
  simp only [percentiles, List.map_cons, List.map_nil, List.mem_singleton] at hu hv
  subst hu; subst hv
  have hris := cdfPoints_rising h.counts h.edges hw ht (by linarith) hs hlen
  have hmono := interp_mono _ hris (p / 100) (q / 100) (by linarith)
  by_cases hEq : p = q
  · rw [hEq]
  have hlt : p < q := lt_of_le_of_ne hpq hEq
  rcases percentile1_cases h.counts h.edges p with hc | ⟨hp50, m, hm, hc⟩
  · rcases percentile1_cases h.counts h.edges q with hd | ⟨hq50, m, hm, hd⟩
    · rw [hc, hd]; exact hmono
    · rw [hc, hd]
      exact (medianValue_bounds _ _ hw ht hb hlen hs m hm).1 _ (by linarith)
  · rcases percentile1_cases h.counts h.edges q with hd | ⟨hq50, m', hm', hd⟩
    · rw [hc, hd]
      refine (medianValue_bounds _ _ hw ht hb hlen hs m hm).2 _ ?_
      unfold tinyStep
      rcases hq with hq | hq
      · linarith
      · linarith
    · exfalso; linarith

/-- **C09 fails** in the sliver above 50: the 50th percentile of `[1,0,1]` over `[1,2,3,4]` is 5/2, the
(50 + 10⁻¹⁴)th is 21/10. -/
theorem C09_monotone_fails :
    percentiles ⟨[1, 0, 1], [1, 2, 3, 4]⟩ [50, 50 + 1 / 10 ^ 14] = [5 / 2, 21 / 10] := by
  decide +kernel

/-- **C09** Percentiles come back in the order asked, one for each request. -/
theorem C09_order (h : Hist) (ps : List ℚ) (i : ℕ) :
    (percentiles h ps).length = ps.length ∧
    ∀ p, ps[i]? = some p → ∃ v, (percentiles h ps)[i]? = some v ∧ percentiles h [p] = [v] := by
  refine ⟨by simp [percentiles], ?_⟩
  intro p hp
  exact ⟨percentile1 h.counts h.edges p, by simp [percentiles, hp], rfl⟩

/-- **C09** The reported quantiles (`n` bins, at most 10¹⁴) are non-decreasing: there are `n - 1` of them, at
most one is in the middle, and the sliver of `C09_monotone_fails` is never requested. -/
theorem C09_quantiles_sorted (h : Hist) (n : ℕ) (hlen : h.edges.length = h.counts.length + 1)
    (hw : ∀ c ∈ h.counts, Whole c) (ht : 0 < h.counts.sum) (hb : h.counts.sum < 5 * 10 ^ 9)
    (hs : h.edges.Pairwise (· ≤ ·)) (hn : 0 < n) (hn2 : n ≤ 10 ^ 14) :
    (quantiles h n).length = n - 1 ∧ (quantiles h n).Pairwise (· ≤ ·) := by
  have hnq : (0 : ℚ) < n := by exact_mod_cast hn
  have hn2q : (n : ℚ) ≤ 10 ^ 14 := by exact_mod_cast hn2
  constructor
  · simp [quantiles, percentiles, linspace_length]
  · unfold quantiles percentiles
    rw [List.pairwise_map]
    have hmem : ∀ q ∈ (linspace 0 100 n).tail.dropLast, q ≤ 50 ∨ 50 + 1 / 10 ^ 13 ≤ q := by
      intro q hq
      have hq' : q ∈ linspace 0 100 n := List.mem_of_mem_tail (List.mem_of_mem_dropLast hq)
      unfold linspace at hq'
      obtain ⟨i, _, rfl⟩ := List.mem_map.1 hq'
      have hform : (0 : ℚ) + (i : ℚ) * ((100 - 0) / n) = 100 * i / n := by field_simp; ring
      rw [hform]
      rcases Nat.lt_or_ge n (2 * i) with hlt | hge
      · right
        rw [le_div_iff₀ hnq]
        have h1 : (n : ℚ) + 1 ≤ 2 * i := by exact_mod_cast hlt
        have h2 : (1 / 10 ^ 13 : ℚ) * n ≤ 10 := by
          rw [div_mul_eq_mul_div, div_le_iff₀ (by norm_num)]; linarith
        linarith
      · left
        rw [div_le_iff₀ hnq]
        have h1 : (2 : ℚ) * i ≤ n := by exact_mod_cast hge
        linarith
    have hsorted : ((linspace 0 100 n).tail.dropLast).Pairwise (· ≤ ·) :=
      (((linspace_sorted 0 100 n (by norm_num)).sublist (List.tail_sublist _)).sublist
        (List.dropLast_sublist _))
    refine List.Pairwise.imp_of_mem ?_ hsorted
    intro p q _ hqm hpq
    exact C09_monotone_partial h p q hlen hw ht hb hs hpq (hmem q hqm) _ (by simp [percentiles]) _
      (by simp [percentiles])

example : quantiles ⟨[1, 2, 1], [0, 1, 2, 3]⟩ 4 = [1, 3 / 2, 2] := by decide +kernel

/-- **C09** What a percentile means: at most `p` per cent of the values lie in bins ending before it, and at
least `p` per cent (up to 10⁻¹⁵ of the total) in bins starting at or before it. -/
theorem C09_splits_mass (h : Hist) (p : ℚ) (hlen : h.edges.length = h.counts.length + 1)
    (hw : ∀ c ∈ h.counts, Whole c) (ht : 0 < h.counts.sum) (hb : h.counts.sum < 5 * 10 ^ 9)
    (hs : h.edges.Pairwise (· ≤ ·)) (h0 : 0 ≤ p) (h100 : p ≤ 100) :
    ∀ v ∈ percentiles h [p],
      endingBefore h.counts h.edges v / h.counts.sum ≤ p / 100 ∧
      p / 100 ≤ startingBy h.counts h.edges v / h.counts.sum + 1 / 10 ^ 15 := by
  intro v hv
  simp only [percentiles, List.map_cons, List.map_nil, List.mem_singleton] at hv
  subst hv
  have hris := cdfPoints_rising h.counts h.edges hw ht (by linarith) hs hlen
  rcases percentile1_cases h.counts h.edges p with hc | ⟨hp50, m, hm, hc⟩
  · rw [hc]
    rw [cdfPoints_eq _ _ hlen] at hris ⊢
    have := ptsFrom_splits 0 h.counts.sum 0 h.counts h.edges hw ht hs hlen (p / 100) (by positivity)
      (le_refl _) (by rw [div_self ht.ne']; linarith) hris
    rw [zero_add, zero_add] at this
    exact this
  · rw [hc]
    have := medianValue_splits _ _ hw ht hb hs m hm
    rw [hp50]
    constructor
    · linarith [this.1]
    · have : (0 : ℚ) < 1 / 10 ^ 15 := by norm_num
      linarith [(medianValue_splits _ _ hw ht hb hs m hm).2]

/-- The median of `[1, 0, 1]` depends on where the histogram sits: over `[-2, -1, 1, 2]` shifted by one it is the
middle of the gap, but when that middle is exactly 0 the code falls back to the left edge of the gap. -/
theorem C09_median_shift_fails :
    median ⟨[1, 0, 1], [-1, 0, 2, 3]⟩ = 1 ∧ median ⟨[1, 0, 1], [-2, -1, 1, 2]⟩ = -1 := by
  decide +kernel

/-! ## C10: modes -/

theorem mapM_mids (es : List ℚ) (n : ℕ) (hes : es.length = n + 1) (l : List ℕ) (hl : ∀ i ∈ l, i < n) :
    (l.mapM fun i => (do
      let a ← idx es i
      let b ← idx es (i + 1)
      (Except.ok ((a + b) / 2) : Except Err ℚ))) =
    .ok (l.map fun i => (es.getD i 0 + es.getD (i + 1) 0) / 2) := by
  induction l with
  | nil => rfl
  | cons i l ih =>
    have hi := hl i (by simp)
    rw [List.mapM_cons, ih fun j hj => hl j (List.mem_cons_of_mem _ hj)]
    rw [idx_ok es i (by omega), idx_ok es (i + 1) (by omega)]
    have e1 : es.getD i 0 = es[i] := by
      rw [List.getD, List.getElem?_eq_getElem (by omega)]; rfl
    have e2 : es.getD (i + 1) 0 = es[i + 1] := by
      rw [List.getD, List.getElem?_eq_getElem (by omega)]; rfl
    rw [List.map_cons, e1, e2]
    rfl

/-- **C10** The reported modes are the midpoints of the first `max 1 top_k` bins of maximal count, in order. -/
theorem C10_modes (h : Hist) (k : ℕ) (hlen : h.edges.length = h.counts.length + 1)
    (hc : ∀ c ∈ h.counts, 0 ≤ c) :
    modes h k = .ok (((maximalBins h.counts).take (max 1 k)).map fun i =>
      (h.edges.getD i 0 + h.edges.getD (i + 1) 0) / 2) := by
  unfold modes
  have hidx : (modeLoop k 0 h.counts ⟨-1, [], 0⟩).idxs = (maximalBins h.counts).take (max 1 k) := by
    rcases modeLoop_inv k h.counts hc with ⟨h1, h2⟩ | ⟨_, h2, h3, h4, _⟩
    · rw [h2, h1]; simp [maximalBins]
    · rw [h4, maximalBins_eq _ _ h3 h2]
  rw [hidx]
  apply mapM_mids h.edges h.counts.length hlen
  intro i hi
  have := List.mem_of_mem_take hi
  unfold maximalBins at this
  exact List.mem_range.1 (List.mem_filter.1 this).1

/-- **C10** For a non-empty histogram and `top_k ≥ 1` there is at least one and at most `top_k` mode, and every
mode lies in the range of the histogram and inside a bin of maximal count. -/
theorem C10_count_and_range (h : Hist) (k : ℕ) (lo hi : ℚ) (hk : 1 ≤ k)
    (hlen : h.edges.length = h.counts.length + 1) (hc : ∀ c ∈ h.counts, 0 ≤ c) (hne : h.counts ≠ [])
    (hs : h.edges.Pairwise (· ≤ ·)) (h1 : h.edges.head? = some lo) (h2 : h.edges.getLast? = some hi) :
    ∃ ms, modes h k = .ok ms ∧ 1 ≤ ms.length ∧ ms.length ≤ k ∧
      ∀ m ∈ ms, lo ≤ m ∧ m ≤ hi ∧ ∃ (i : ℕ) (a b c : ℚ), h.edges[i]? = some a ∧ h.edges[i + 1]? = some b ∧
        h.counts[i]? = some c ∧ m = (a + b) / 2 ∧ ∀ c' ∈ h.counts, c' ≤ c := by
  refine ⟨_, C10_modes h k hlen hc, ?_, ?_, ?_⟩
  · rw [List.length_map, List.length_take]
    have : 0 < (maximalBins h.counts).length := by
      rcases modeLoop_inv k h.counts hc with ⟨h1, _⟩ | ⟨_, h2, h3, _, _⟩
      · exact absurd h1 hne
      · rw [maximalBins_eq _ _ h3 h2]; exact binsWith_pos _ _ h3
    omega
  · rw [List.length_map, List.length_take]; omega
  · intro m hm
    obtain ⟨i, hi', rfl⟩ := List.mem_map.1 hm
    have hi2 := List.mem_of_mem_take hi'
    unfold maximalBins at hi2
    obtain ⟨hi3, hi4⟩ := List.mem_filter.1 hi2
    have hil : i < h.counts.length := List.mem_range.1 hi3
    have hbt := sorted_between h.edges hs lo hi h1 h2
    have g1 : h.edges[i]? = some h.edges[i] := List.getElem?_eq_getElem (by omega)
    have g2 : h.edges[i + 1]? = some h.edges[i + 1] := List.getElem?_eq_getElem (by omega)
    have g3 : h.counts[i]? = some h.counts[i] := List.getElem?_eq_getElem (by omega)
    have b1 := hbt _ (List.mem_of_getElem? g1)
    have b2 := hbt _ (List.mem_of_getElem? g2)
    have d1 : h.edges.getD i 0 = h.edges[i] := by rw [List.getD, g1]; rfl
    have d2 : h.edges.getD (i + 1) 0 = h.edges[i + 1] := by rw [List.getD, g2]; rfl
    rw [d1, d2]
    refine ⟨by linarith [b1.1, b2.1], by linarith [b1.2, b2.2], i, _, _, _, g1, g2, g3, rfl, ?_⟩
    intro c' hc'
    have := List.all_eq_true.1 hi4 c' hc'
    rw [List.getD, g3] at this
    simpa using this

example : modes ⟨[1, 4, 0, 4, 4], [0, 1, 2, 3, 4, 5]⟩ 2 = .ok [3 / 2, 7 / 2] := by decide +kernel

/-! ## C11: median absolute deviation -/

/-- **C11** For every histogram with `n ≥ 1` equal bins over `[lo, hi]`, non-negative counts, a positive total and a
median inside the range, the reported deviation is between 0 and the width of the range. -/
theorem C11_bounds (counts : List ℚ) (lo hi m : ℚ) (n : ℕ) (hn : 0 < n) (hlen : counts.length = n)
    (hc : ∀ c ∈ counts, 0 ≤ c) (ht : 0 < counts.sum) (hlt : lo < hi) (h1 : lo ≤ m) (h2 : m ≤ hi) :
    0 ≤ medianAbsDev counts (linspace lo hi n) m ∧
    medianAbsDev counts (linspace lo hi n) m ≤ hi - lo := by
  rcases mad_cases counts lo hi m n hn hlen hc ht hlt h1 h2 with ⟨h, _⟩ | ⟨_, _, f, g, h⟩
  · rw [h]; exact ⟨le_refl _, by linarith⟩
  · rw [h]
    apply madOfFolds_range f _ _ _ g (hi - lo) (by linarith)
    intro e he
    obtain ⟨x, hx, rfl⟩ := List.mem_map.1 he
    have hb := sorted_between _ (linspace_sorted lo hi n hlt.le) lo hi (linspace_head _ _ _)
      (linspace_last _ _ _ hn) x hx
    rw [abs_le]
    constructor <;> linarith [hb.1, hb.2]

/-- **C11** (partial) The deviation is the radius of the interval around the median that holds half of the values
(each bin's values spread evenly), up to 10⁻¹⁰ of the total, whenever the median is past the first bin and the
distances of the edges to the median are equal or more than 10⁻¹⁴ apart. Missing: medians in the first bin, for
which the code returns 0 (`C11_first_bin_zero_fails`). -/
theorem C11_half_mass_partial (counts : List ℚ) (lo hi m : ℚ) (n : ℕ) (hn : 0 < n) (hlen : counts.length = n)
    (hc : ∀ c ∈ counts, 0 ≤ c) (ht : 0 < counts.sum) (hlt : lo < hi) (h1 : lo + (hi - lo) / n ≤ m) (h2 : m < hi)
    (hsep : ∀ x ∈ m :: linspace lo hi n, ∀ y ∈ m :: linspace lo hi n, |x - m| < |y - m| →
      1 / 10 ^ 14 < |y - m| - |x - m|) :
    |massWithin counts (linspace lo hi n) (m - medianAbsDev counts (linspace lo hi n) m)
        (m + medianAbsDev counts (linspace lo hi n) m) / counts.sum - 1 / 2| < 1 / 10 ^ 10 := by
  have hwpos : 0 < (hi - lo) / n := div_pos (by linarith) (by exact_mod_cast hn)
  rcases mad_cases counts lo hi m n hn hlen hc ht hlt (by linarith) h2.le with ⟨_, h | h⟩ | ⟨_, _, f, g, h⟩
  · exact absurd h (by linarith)
  · exact absurd h (by linarith)
  · rw [h, ← massWithin_shift]
    refine madOfFolds_half f _ _ _ g ?_ ?_
    · rw [sum_map_div, div_self ht.ne']
    · have conv : ∀ x, (x = 0 ∨ ∃ e ∈ (linspace lo hi n).map (· - m), x = |e|) →
          ∃ y ∈ m :: linspace lo hi n, x = |y - m| := by
        rintro x (rfl | ⟨e, he, rfl⟩)
        · exact ⟨m, by simp, by simp⟩
        · obtain ⟨y, hy, rfl⟩ := List.mem_map.1 he
          exact ⟨y, List.mem_cons_of_mem _ hy, rfl⟩
      intro x hx y hy hxy
      obtain ⟨x', hx', rfl⟩ := conv x hx
      obtain ⟨y', hy', rfl⟩ := conv y hy
      exact hsep x' hx' y' hy' hxy

example : medianAbsDev [1, 2, 1] (linspace 0 3 3) (3 / 2) = 1 / 2 ∧
    massWithin [1, 2, 1] (linspace 0 3 3) 1 2 / 4 = 1 / 2 := by decide +kernel

/-- **C11 fails** for the meaning of the number when the median lies in the first bin: the deviation is reported
as 0 whatever the counts. -/
theorem C11_first_bin_zero_fails (counts : List ℚ) (lo hi m : ℚ) (n : ℕ) (hn : 0 < n) (hlen : counts.length = n)
    (hc : ∀ c ∈ counts, 0 ≤ c) (ht : 0 < counts.sum) (hlt : lo < hi) (h1 : lo ≤ m)
    (h2 : m < lo + (hi - lo) / n) : medianAbsDev counts (linspace lo hi n) m = 0 := by
  have hnq : (1 : ℚ) ≤ n := by exact_mod_cast hn
  have hle : (hi - lo) / n ≤ hi - lo := div_le_self (by linarith) hnq
  rcases mad_cases counts lo hi m n hn hlen hc ht hlt h1 (by linarith) with ⟨h, _⟩ | ⟨h, _⟩
  · exact h
  · exact absurd h (by linarith)

example : medianAbsDev [10, 1] (linspace 0 2 2) (11 / 20) = 0 := by decide +kernel

end Verif.Histogram
