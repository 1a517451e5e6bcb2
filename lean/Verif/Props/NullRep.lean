import Mathlib.Algebra.Order.Field.Rat
import Verif.Lemmas.NullRepErrors

/-!
# Null replication metrics (C48)
-/

namespace Verif.NullRep

open Verif Verif.NullRepSpec

/-- Label range of a history labelled from 0 on. -/
def ZeroState (h : History) (p : Prof) : Prop :=
  (h = .new → ∀ k, (p.cols k).ids = none ∧ (p.cols k).shift = none) ∧
  (h ≠ .new → ∀ k, ∃ lo hi, (p.cols k).ids = some (lo, hi) ∧ lo ≤ 0 ∧ 0 ≤ hi)

theorem add_apart (c : Col) (s m : ℕ) (ix : List ℤ) (ids : Option (ℤ × ℤ)) (t : List String)
    (hov : Nulls.overlap c.ids ids = false) :
    (c.add s m ix ids t).shift = c.shift ∧ (c.add s m ix ids t).ids = Nulls.mergeIds c.ids ids := by
  simp [Col.add, hov]

theorem add_ids_zero (c : Col) (s m : ℕ) (ix : List ℤ) (t : List String) (lo hi : ℤ) (hlo : lo ≤ 0) (hhi : 0 ≤ hi)
    (hc : c.ids = none ∨ ∃ a b, c.ids = some (a, b) ∧ a ≤ 0 ∧ 0 ≤ b) :
    ∃ a b, (c.add s m ix (some (lo, hi)) t).ids = some (a, b) ∧ a ≤ 0 ∧ 0 ≤ b := by
  rcases hc with hc | ⟨a, b, hc, ha, hb⟩
  · have : Nulls.overlap c.ids (some (lo, hi)) = false := by rw [hc]; rfl
    rw [(add_apart c s m ix _ t this).2, hc]
    exact ⟨lo, hi, rfl, hlo, hhi⟩
  · unfold Col.add
    split_ifs with hov
    · simp only [hc, Nulls.mergeIds, Option.map_some]
      exact ⟨_, _, rfl, le_trans (min_le_left _ _) ha, le_trans hb (le_max_left _ _)⟩
    · simp only [hc, Nulls.mergeIds]
      exact ⟨_, _, rfl, le_trans (min_le_left _ _) ha, le_trans hb (le_max_left _ _)⟩

theorem zeroState_run (num : String → Option ℚ) (total : ℕ → List String → Option ℚ) (n : ℕ) (h : History)
    (hz : FromZero n h) : ZeroState h (run num total n h) := by
  induction h with
  | new => exact ⟨fun _ k => ⟨rfl, rfl⟩, fun h => absurd rfl h⟩
  | update h b ih =>
    obtain ⟨hz, hb, h0, h1⟩ := hz
    have ih := ih hz
    refine ⟨(fun h => nomatch h), fun _ k => ?_⟩
    apply add_ids_zero _ _ _ _ _ _ _ (by omega) h1
    by_cases hn : h = .new
    · exact Or.inl (ih.1 hn k).1
    · exact Or.inr (ih.2 hn k)
  | merge h1 h2 perm ih1 ih2 =>
    obtain ⟨z1, z2, n1, n2, _⟩ := hz
    refine ⟨(fun h => nomatch h), fun _ k => ?_⟩
    obtain ⟨lo, hi, e1, a1, b1⟩ := (ih1 z1).2 n1 k
    obtain ⟨lo', hi', e2, a2, b2⟩ := (ih2 z2).2 n2 (perm k)
    show ∃ lo hi, (Col.merge _ _).ids = _ ∧ _
    rw [Col.merge, e2]
    apply add_ids_zero _ _ _ _ _ _ _ a2 b2
    right
    rw [e1]
    exact add_ids_zero _ _ _ _ _ _ _ a1 b1 (Or.inl rfl)

theorem inv_fromZero (num : String → Option ℚ) (total : ℕ → List String → Option ℚ) (n : ℕ) (h : History)
    (hz : FromZero n h) : Inv num n (rows h) (Numeric num total h) (run num total n h) := by
  induction h with
  | new => exact inv_new num n _
  | update h b ih =>
    have hst := zeroState_run num total n h hz.1
    obtain ⟨hz, hb, h0, h1⟩ := hz
    have ih := ih hz
    refine inv_update num total ih hb ?_ (fun k hk => hk)
    intro c
    by_cases hn : h = .new
    · obtain ⟨e1, e2⟩ := hst.1 hn c
      exact chunkNulls_apart (ih.cols c) hb e2 (by rw [e1]; rfl)
    · obtain ⟨lo, hi, e, a1, a2⟩ := hst.2 hn c
      refine chunkNulls_shifted (ih.cols c) hb ?_ (by omega)
      rw [e]
      exact (overlap_iff lo hi b.lo b.hi (by omega) (by omega)).2 (by omega)
  | merge h1 h2 perm ih1 ih2 =>
    obtain ⟨z1, z2, _, _, hp⟩ := hz
    exact inv_merge num total (ih1 z1) (ih2 z2) perm hp (fun k hk => hk)

theorem rising_state (num : String → Option ℚ) (total : ℕ → List String → Option ℚ) (n : ℕ) (h : History)
    (hz : Rising n h) (k : ℕ) :
    ((run num total n h).cols k).shift = none ∧
      (∀ t, top h = some t → ∃ lo, ((run num total n h).cols k).ids = some (lo, t) ∧ lo ≤ t) ∧
      (top h = none → ((run num total n h).cols k).ids = none) := by
  induction h with
  | new => exact ⟨rfl, (fun t ht => by cases ht), fun _ => rfl⟩
  | update h b ih =>
    obtain ⟨hz, hb, h0, h1⟩ := hz
    obtain ⟨i1, i2, i3⟩ := ih hz
    cases ht : top h with
    | none =>
      have e := i3 ht
      have hov : Nulls.overlap ((run num total n h).cols k).ids (some (b.lo, b.hi)) = false := by rw [e]; rfl
      obtain ⟨e1, e2⟩ := add_apart ((run num total n h).cols k) b.rows.length (b.nulls k).length (b.nulls k) _
        (b.texts k) hov
      simp only [run, Prof.update, Col.update, e1, e2, e, Nulls.mergeIds, top, ht]
      refine ⟨i1, ?_, fun h => by cases h⟩
      intro t hh
      injection hh with hh
      exact ⟨b.lo, by rw [hh], by omega⟩
    | some t0 =>
      obtain ⟨lo, e, hl⟩ := i2 t0 ht
      have h1 := h1 t0 ht
      have hov : Nulls.overlap ((run num total n h).cols k).ids (some (b.lo, b.hi)) = false := by
        rw [e]
        by_contra hne
        have := (overlap_iff lo t0 b.lo b.hi hl h0).1 (by simpa using hne)
        omega
      obtain ⟨e1, e2⟩ := add_apart ((run num total n h).cols k) b.rows.length (b.nulls k).length (b.nulls k) _
        (b.texts k) hov
      simp only [run, Prof.update, Col.update, e1, e2, e, Nulls.mergeIds, top, ht]
      refine ⟨i1, ?_, fun h => by cases h⟩
      intro t hh
      injection hh with hh
      refine ⟨min lo b.lo, by rw [hh], ?_⟩
      have := min_le_left lo b.lo
      have := le_max_left t0 b.hi
      omega
  | merge h1 h2 perm => cases hz

theorem inv_rising (num : String → Option ℚ) (total : ℕ → List String → Option ℚ) (n : ℕ) (h : History)
    (hz : Rising n h) : Inv num n (rows h) (Numeric num total h) (run num total n h) := by
  induction h with
  | new => exact inv_new num n _
  | update h b ih =>
    have hst := rising_state num total n h hz.1
    obtain ⟨hz, hb, h0, h1⟩ := hz
    have ih := ih hz
    refine inv_update num total ih hb ?_ (fun k hk => hk)
    intro c
    obtain ⟨i1, i2, i3⟩ := hst c
    refine chunkNulls_apart (ih.cols c) hb i1 ?_
    cases ht : top h with
    | none => rw [i3 ht]; rfl
    | some t0 =>
      obtain ⟨lo, e, hl⟩ := i2 t0 ht
      have h1 := h1 t0 ht
      rw [e]
      by_contra hne
      have := (overlap_iff lo t0 b.lo b.hi hl h0).1 (by simpa using hne)
      omega
  | merge h1 h2 perm => cases hz

/-- With batches labelled from 0 on, as pandas labels them, and merges of tables with the same column order, the null
replication metrics of a profile are absent for a column exactly if it has no null, and otherwise they are the class shares,
sums and means of all rows seen (sums of the non-null class for the columns which are numeric). -/
theorem C48_from_zero (w : World) (hw : w.correlate = none) (n : ℕ) (h : History) (hz : FromZero n h) (s : Safe)
    (hs : checked w n h = .ok s) (c : ℕ) (hc : c < n) :
    (cls (rows h) c true = [] → s.prof.metrics c = none) ∧
    (cls (rows h) c true ≠ [] → ∃ m, s.prof.metrics c = some m ∧
      Exact w.num n (rows h) c (Numeric w.num w.total h) m) := by
  rw [checked_run w hw n h s hs]
  exact ⟨(inv_fromZero w.num w.total n h hz).absent c, (inv_fromZero w.num w.total n h hz).present c hc⟩

/-- The same for a sequence of updates with ever larger labels (reading a file in slices). -/
theorem C48_rising (w : World) (hw : w.correlate = none) (n : ℕ) (h : History) (hz : Rising n h) (s : Safe)
    (hs : checked w n h = .ok s) (c : ℕ) (hc : c < n) :
    (cls (rows h) c true = [] → s.prof.metrics c = none) ∧
    (cls (rows h) c true ≠ [] → ∃ m, s.prof.metrics c = some m ∧
      Exact w.num n (rows h) c (Numeric w.num w.total h) m) := by
  rw [checked_run w hw n h s hs]
  exact ⟨(inv_rising w.num w.total n h hz).absent c, (inv_rising w.num w.total n h hz).present c hc⟩

/-- The same for the merge of two such sequences. -/
theorem C48_merge_rising (w : World) (hw : w.correlate = none) (n : ℕ) (h1 h2 : History) (z1 : Rising n h1)
    (z2 : Rising n h2) (perm : ℕ → ℕ) (hp : ∀ k, perm k = k) (s : Safe)
    (hs : checked w n (.merge h1 h2 perm) = .ok s) (c : ℕ) (hc : c < n) :
    (cls (rows h1 ++ rows h2) c true = [] → s.prof.metrics c = none) ∧
    (cls (rows h1 ++ rows h2) c true ≠ [] → ∃ m, s.prof.metrics c = some m ∧
      Exact w.num n (rows h1 ++ rows h2) c (Numeric w.num w.total (.merge h1 h2 perm)) m) := by
  rw [checked_run w hw n _ s hs]
  have := inv_merge w.num w.total (inv_rising w.num w.total n h1 z1) (inv_rising w.num w.total n h2 z2) perm hp
    (numeric := Numeric w.num w.total (.merge h1 h2 perm)) (fun k hk => hk)
  exact ⟨this.absent c, this.present c hc⟩

/-- Without correlations, the updates and merges go through exactly if no batch is all integers next to a column whose
null sums are floats already, and no merge has a column of dates. -/
theorem C48_goes_through (w : World) (hw : w.correlate = none) (n : ℕ) (h : History) (hr : Regular n h) :
    (∃ s, checked w n h = .ok s) ↔ Works w n h :=
  ⟨fun ⟨s, hs⟩ => (checked_ok w hw n h hr s hs).1, checked_works w hw n h hr⟩

/-- Shares between 0 and 1, and counts they can be computed from. -/
def Shares (p : Prof) : Prop :=
  (∀ k, (p.cols k).nullCount ≤ (p.cols k).sampleSize) ∧
    ∀ c m, p.metrics c = some m → 0 ≤ m.priorNull ∧ 0 ≤ m.priorNot ∧ m.priorNull + m.priorNot = 1

theorem makeMetric_shares (nc ss : ℕ) (t : List (Option ℚ)) (s : List ℚ) (hle : nc ≤ ss) (hne : nc ≠ 0) :
    0 ≤ (makeMetric nc ss t s).priorNull ∧ 0 ≤ (makeMetric nc ss t s).priorNot ∧
      (makeMetric nc ss t s).priorNull + (makeMetric nc ss t s).priorNot = 1 := by
  have hs : (ss : ℚ) ≠ 0 := by
    have : ss ≠ 0 := by omega
    exact_mod_cast this
  refine ⟨div_nonneg (Nat.cast_nonneg _) (Nat.cast_nonneg _), div_nonneg (Nat.cast_nonneg _) (Nat.cast_nonneg _), ?_⟩
  simp only [makeMetric]
  rw [← add_div, div_eq_one_iff_eq hs]
  exact_mod_cast (by omega : nc + (ss - nc) = ss)

theorem shares_update (num : String → Option ℚ) (total : ℕ → List String → Option ℚ) (p : Prof) (b b' : Batch)
    (h : Shares p) : Shares ⟨p.n, fun k => (p.cols k).update b k,
      updateMetric num total p.n (fun k => (p.cols k).update b k) p.metrics b'⟩ := by
  have hcnt : ∀ k, ((p.cols k).update b k).nullCount ≤ ((p.cols k).update b k).sampleSize := by
    intro k
    obtain ⟨h1, h2, _⟩ := add_counts (p.cols k) b.rows.length (b.nulls k).length (b.nulls k) (some (b.lo, b.hi)) (b.texts k)
    simp only [Col.update, h1, h2]
    have := h.1 k
    have : (b.nulls k).length ≤ b.rows.length := by
      simp only [Batch.nulls, List.length_map]
      exact List.length_filter_le _ _
    omega
  refine ⟨hcnt, fun c m hm => ?_⟩
  simp only [updateMetric] at hm
  split_ifs at hm with h0
  · exact h.2 c m hm
  · injection hm with hm
    rw [← hm]
    exact makeMetric_shares _ _ _ _ (hcnt c) h0

theorem shares_merge (total : ℕ → List String → Option ℚ) (p q : Prof) (perm : ℕ → ℕ) (h : Shares p) (g : Shares q) :
    Shares (p.merge total q perm) := by
  constructor
  · intro k
    have e1 := add_counts Col.new (p.cols k).sampleSize (p.cols k).nullCount (p.cols k).index (p.cols k).ids (p.cols k).seen
    have e2 := add_counts (Col.new.add (p.cols k).sampleSize (p.cols k).nullCount (p.cols k).index (p.cols k).ids
      (p.cols k).seen) (q.cols (perm k)).sampleSize (q.cols (perm k)).nullCount (q.cols (perm k)).index
      (q.cols (perm k)).ids (q.cols (perm k)).seen
    simp only [Prof.merge, Col.merge, e2.1, e2.2.1, e1.1, e1.2.1]
    have : Col.new.sampleSize = 0 := rfl
    have : Col.new.nullCount = 0 := rfl
    have := h.1 k
    have := g.1 (perm k)
    omega
  · intro c m hm
    simp only [Prof.merge, mergeMetric] at hm
    split_ifs at hm with h0 h3
    injection hm with hm
    rw [← hm]
    have := h.1 c
    have := g.1 c
    exact makeMetric_shares _ _ _ _ (by omega) h3

theorem shares_checked (w : World) (n : ℕ) (h : History) (s : Safe) (hs : checked w n h = .ok s) : Shares s.prof := by
  induction h generalizing s with
  | new =>
    simp only [checked, Except.ok.injEq] at hs
    subst hs
    exact ⟨fun k => le_refl 0, fun c m hm => by cases hm⟩
  | update h b ih =>
    simp only [checked] at hs
    cases hc : checked w n h with
    | error e => rw [hc] at hs; cases hs
    | ok t =>
      rw [hc] at hs
      have hs' : t.update w n b = .ok s := hs
      simp only [Safe.update] at hs'
      split at hs'
      · cases hs'
      · injection hs' with hs'
        rw [← hs']
        exact shares_update w.num w.total t.prof b _ (ih t hc)
  | merge h1 h2 perm ih1 ih2 =>
    simp only [checked] at hs
    cases hc1 : checked w n h1 with
    | error e => rw [hc1] at hs; cases hs
    | ok t =>
      rw [hc1] at hs
      cases hc2 : checked w n h2 with
      | error e => rw [hc2] at hs; cases hs
      | ok u =>
        rw [hc2] at hs
        have hs' : t.merge w n u perm = .ok s := hs
        simp only [Safe.merge] at hs'
        split_ifs at hs'
        injection hs' with hs'
        rw [← hs']
        exact shares_merge w.total t.prof u.prof perm (ih1 t hc1) (ih2 u hc2)

/-- The class shares of every profile with metrics are between 0 and 1 and add up to 1, whatever the labels, column
orders and data types, with and without correlations. -/
theorem C48_priors (w : World) (n : ℕ) (h : History) (s : Safe) (hs : checked w n h = .ok s) (c : ℕ) (m : Metric)
    (hm : s.prof.metrics c = some m) : 0 ≤ m.priorNull ∧ 0 ≤ m.priorNot ∧ m.priorNull + m.priorNot = 1 :=
  (shares_checked w n h s hs).2 c m hm

/-- With correlations enabled, the first batch with a null in a table with another column that is not a number raises
(provided there are not two columns altogether, and no null column has a single column of numbers beside it). -/
theorem C48_with_correlation_raises_fails (w : World) (f : ℕ → List String → Bool) (hw : w.correlate = some f) (n : ℕ)
    (b : Batch) (hb : b.order = List.range n) (c k : ℕ) (hc : c < n) (hk : k < n) (hck : k ≠ c)
    (hf : f k (texts b.rows k) = false) (hn : ∃ r ∈ b.rows, r.cell c = none)
    (h2 : n ≠ 2) (h1 : ∀ j < n, (∃ r ∈ b.rows, r.cell j = none) →
      ((others n j).filter fun i => f i (texts b.rows i)).length ≠ 1) :
    checked w n (.update .new b) = .error .valueError := by
  have hreg : Regular n (.update .new b) := ⟨trivial, by rw [hb]⟩
  have hcols := fun c => (run_cols w.num w.total n (.update .new b) hreg c)
  set cols : ℕ → Col := fun k => (Col.new).update b k with hcd
  have hseen : ∀ j, (cols j).seen = texts b.rows j := fun j => by
    have := (hcols j).2
    rw [show rows (.update .new b) = b.rows from List.nil_append _] at this
    exact this
  have hnull : (cols c).nullCount ≠ 0 := by
    have := (hcols c).1
    have h2 := (cls_ne (rows (.update .new b)) c).2 (by simpa [rows] using hn)
    rw [← this] at h2
    exact h2
  have hbw : b.without w cols = { b with order := (List.range n).filter fun j => f j (texts b.rows j) } := by
    simp only [Batch.without, hw, hb, hseen]
  have hnull' : ∀ j, (cols j).nullCount ≠ 0 → ∃ r ∈ b.rows, r.cell j = none := by
    intro j hj
    have := (hcols j).1
    have h2 := (cls_ne (rows (.update .new b)) j).1 (by rw [← this]; exact hj)
    simpa [rows] using h2
  have hsub : ∀ j, ((b.without w cols).order).filter (· ≠ j) = (others n j).filter fun i => f i (texts b.rows i) := by
    intro j
    rw [hbw]
    simp only [others, List.filter_filter]
    exact List.filter_congr fun i _ => Bool.and_comm _ _
  have hlen : (((b.without w cols).order).filter (· ≠ c)).length ≠ n - 1 := by
    rw [hsub, ← others_length n c hc]
    intro he
    have := List.length_filter_eq_length_iff.1 he k (by simp [others, hk, hck])
    rw [hf] at this
    cases this
  have hall : ∀ j < n, raised w n ⟨.new n, fun _ => true⟩ cols (b.without w cols) j = none ∨
      raised w n ⟨.new n, fun _ => true⟩ cols (b.without w cols) j = some .valueError := by
    intro j hj
    unfold raised
    split_ifs with g1 g2 g3 g4
    · exact Or.inl rfl
    · simp [Prof.new] at g2
    · exact Or.inl rfl
    · rcases g4 with g4 | g4
      · rw [hsub] at g4
        exact absurd g4 (h1 j hj (hnull' j g1))
      · omega
    · exact Or.inr rfl
  have hcr : raised w n ⟨.new n, fun _ => true⟩ cols (b.without w cols) c = some .valueError := by
    unfold raised
    rw [if_neg hnull, if_neg (by simp [Prof.new]), if_neg hlen, if_neg]
    rintro (g4 | g4)
    · rw [hsub] at g4
      exact h1 c hc hn g4
    · omega
  have hmem : Err.valueError ∈ (List.range n).filterMap
      (raised w n ⟨.new n, fun _ => true⟩ cols (b.without w cols)) :=
    List.mem_filterMap.2 ⟨c, List.mem_range.2 hc, hcr⟩
  show Safe.update w n ⟨.new n, fun _ => true⟩ b = _
  unfold Safe.update
  simp only
  split
  · rename_i e l he
    have h1 : e ∈ (List.range n).filterMap (raised w n ⟨.new n, fun _ => true⟩ cols (b.without w cols)) := by
      have h2 : (List.range n).filterMap (raised w n ⟨.new n, fun _ => true⟩ cols (b.without w cols)) = e :: l := he
      rw [h2]
      exact List.mem_cons_self
    obtain ⟨j, hjn, hj⟩ := List.mem_filterMap.1 h1
    rcases hall j (List.mem_range.1 hjn) with h2 | h2
    · rw [h2] at hj; cases hj
    · rw [h2] at hj
      injection hj with hj
      rw [hj]
  · rename_i he
    have h2 : (List.range n).filterMap (raised w n ⟨.new n, fun _ => true⟩ cols (b.without w cols)) = [] := he
    rw [h2] at hmem
    cases hmem

/-! ## Concrete cases -/

/-- Numbers written with one digit. -/
def digit (s : String) : Option ℚ :=
  if s = "1" then some 1 else if s = "2" then some 2 else if s = "3" then some 3 else if s = "4" then some 4 else none

/-- Sum of a numeric column, NaN while it has no value. -/
def digitTotal (_ : ℕ) (xs : List String) : Option ℚ :=
  if xs = [] then none else some ((xs.map fun s => (digit s).getD 0).sum)

/-- Texts of one digit are integers; no dates, no correlations. -/
def digits (total : ℕ → List String → Option ℚ) : World := ⟨digit, total, fun s => (digit s).isSome, fun _ _ => false, none⟩

/-- The metrics of column `c`, if nothing is raised. -/
def metricsOf (w : World) (n : ℕ) (h : History) (c : ℕ) : Option Metric :=
  match checked w n h with
  | .ok s => s.prof.metrics c
  | .error _ => none

/-- Rows (null, 1), (2, 3) and then (null, 4), (1, null), both labelled 0, 1. -/
def b1 : Batch := ⟨0, 1, [⟨0, [none, some "1"]⟩, ⟨1, [some "2", some "3"]⟩], [0, 1]⟩
@[inherit_doc b1] def b2 : Batch := ⟨0, 1, [⟨0, [none, some "4"]⟩, ⟨1, [some "1", none]⟩], [0, 1]⟩

theorem b1_plain : Plain 2 b1 := ⟨by decide, by decide, by decide, by decide⟩
theorem b2_plain : Plain 2 b2 := ⟨by decide, by decide, by decide, by decide⟩

example : FromZero 2 (.update (.update .new b1) b2) :=
  ⟨⟨trivial, b1_plain, rfl, by decide⟩, b2_plain, rfl, by decide⟩

example : FromZero 2 (.merge (.update .new b1) (.update .new b2) id) :=
  ⟨⟨trivial, b1_plain, rfl, by decide⟩, ⟨trivial, b2_plain, rfl, by decide⟩, by simp, by simp, fun _ => rfl⟩

example : Numeric digit digitTotal (.update (.update .new b1) b2) 1 := by
  show digitTotal 1 _ = some _
  decide +kernel

/-- Column 0 is null in the rows with 1 and 4, so its null class sums to 5 in column 1; the other class sums to 3. -/
example : metricsOf (digits digitTotal) 2 (.update (.update .new b1) b2) 0 =
    some ⟨1/2, 1/2, [some 3], [5], [some (3/2)], [5/2]⟩ := by decide +kernel

example : metricsOf (digits digitTotal) 2 (.merge (.update .new b1) (.update .new b2) id) 0 =
    some ⟨1/2, 1/2, [some 3], [5], [some (3/2)], [5/2]⟩ := by decide +kernel

/-- `b2` with labels 2, 3. -/
def b3 : Batch := ⟨2, 3, [⟨2, [none, some "4"]⟩, ⟨3, [some "1", none]⟩], [0, 1]⟩

example : Rising 2 (.update (.update .new b1) b3) := by
  refine ⟨⟨trivial, b1_plain, by decide, fun t h => by cases h⟩, ⟨by decide, by decide, by decide, by decide⟩,
    by decide, ?_⟩
  intro t h
  simp only [top] at h
  injection h with h
  rw [← h]
  decide

example : metricsOf (digits digitTotal) 2 (.update (.update .new b1) b3) 0 =
    some ⟨1/2, 1/2, [some 3], [5], [some (3/2)], [5/2]⟩ := by decide +kernel

/-! ## Where the full claim fails

Each case is a numeric table with distinct labels whose metrics for column 0 differ from the class sums of its rows. -/

/-- The null class sum reported for column `c`. -/
def nullSums (total : ℕ → List String → Option ℚ) (n : ℕ) (h : History) (c : ℕ) : Option (List ℚ) :=
  (metricsOf (digits total) n h c).map Metric.sumNull

/-- Two batches labelled from 0, then one with new labels: the shift of the second batch is applied to the third, whose
null row is not found. -/
theorem C48_stale_shift_fails :
    let b4 : Batch := ⟨4, 5, [⟨4, [none, some "4"]⟩, ⟨5, [some "1", none]⟩], [0, 1]⟩
    let h := History.update (.update (.update .new b1) b1) b4
    Plain 2 b4 ∧ nullSums digitTotal 2 h 0 = some [2] ∧ clsSum digit (rows h) 0 true 1 = 6 :=
  ⟨⟨by decide, by decide, by decide, by decide⟩, by decide +kernel, by decide +kernel⟩

/-- Negative labels in a batch whose range meets the earlier one are dropped. -/
theorem C48_negative_label_fails :
    let b4 : Batch := ⟨-1, 0, [⟨-1, [none, some "4"]⟩, ⟨0, [some "1", none]⟩], [0, 1]⟩
    let h := History.update (.update .new b1) b4
    Plain 2 b4 ∧ nullSums digitTotal 2 h 0 = some [1] ∧ clsSum digit (rows h) 0 true 1 = 5 :=
  ⟨⟨by decide, by decide, by decide, by decide⟩, by decide +kernel, by decide +kernel⟩

/-- A batch with its columns in another order (accepted, columns are matched by name) has its sums filed under the
wrong columns. -/
theorem C48_batch_order_fails :
    let r1 : List Row := [⟨0, [none, some "1", some "2"]⟩]
    let h := History.update (.update .new ⟨0, 0, r1, [0, 1, 2]⟩) ⟨0, 0, r1, [2, 1, 0]⟩
    nullSums digitTotal 3 h 0 = some [3, 3] ∧ clsSum digit (rows h) 0 true 1 = 2 ∧
      clsSum digit (rows h) 0 true 2 = 4 := by
  decide +kernel

/-- Merging tables whose columns are in another order pairs the metrics by position. -/
theorem C48_merge_order_fails :
    let h1 := History.update .new ⟨0, 0, [⟨0, [none, some "1"]⟩], [0, 1]⟩
    let h2 := History.update .new ⟨0, 0, [⟨0, [some "1", none]⟩], [0, 1]⟩
    let swap : ℕ → ℕ := fun k => 1 - k
    let h := History.merge h1 h2 swap
    ((run digit digitTotal 2 h).cols 0).nullCount = 2 ∧
      (metricsOf (digits digitTotal) 2 h 0).map Metric.priorNull = some (1/2) := by
  decide +kernel

/-- A column without values in one of two merged tables makes the sums of the non-null class NaN. -/
theorem C48_merge_empty_column_fails :
    let h1 := History.update .new b1
    let h2 := History.update .new ⟨0, 0, [⟨0, [some "2", none]⟩], [0, 1]⟩
    let h := History.merge h1 h2 id
    FromZero 2 h ∧ (metricsOf (digits digitTotal) 2 h 0).map Metric.sumNot = some [none] ∧
      clsSum digit (rows h) 0 false 1 = 3 := by
  refine ⟨⟨⟨trivial, b1_plain, rfl, by decide⟩,
    ⟨trivial, ⟨by decide, by decide, by decide, by decide⟩, rfl, by decide⟩, by simp, by simp, fun _ => rfl⟩,
    by decide +kernel, by decide +kernel⟩

/-- A text column: its reported sum is the sum of the text lengths, of which nothing is attributed to the null
class. -/
theorem C48_text_column_fails :
    let total : ℕ → List String → Option ℚ := fun _ xs => some ((xs.map fun s => (s.length : ℚ)).sum)
    let h := History.update .new ⟨0, 1, [⟨0, [none, some "abc"]⟩, ⟨1, [some "2", some "de"]⟩], [0, 1]⟩
    FromZero 2 h ∧ (metricsOf (digits total) 2 h 0).map (fun m => (m.sumNot, m.sumNull)) = some ([some 5], [0]) := by
  refine ⟨⟨trivial, ⟨by decide, by decide, by decide, by decide⟩, rfl, by decide⟩, by decide +kernel⟩

/-- Rows (null, 1), (2, null) and then (3, 4): the sums kept for column 0 are floats since the first batch, in which the other
column had a null; adding them to the integers of the second batch raises. -/
theorem C48_integer_batch_raises_fails :
    let b5 : Batch := ⟨0, 1, [⟨0, [none, some "1"]⟩, ⟨1, [some "2", none]⟩], [0, 1]⟩
    let b6 : Batch := ⟨0, 0, [⟨0, [some "3", some "4"]⟩], [0, 1]⟩
    let h := History.update (.update .new b5) b6
    FromZero 2 h ∧ (metricsOf (digits digitTotal) 2 (.update .new b5) 0).isSome = true ∧
      checked (digits digitTotal) 2 h = .error .typeError := by
  refine ⟨⟨⟨trivial, ⟨by decide, by decide, by decide, by decide⟩, rfl, by decide⟩,
    ⟨by decide, by decide, by decide, by decide⟩, rfl, by decide⟩, by decide +kernel, ?_⟩
  rfl

/-- Two profiles of tables with a column of dates cannot be merged. -/
theorem C48_merge_dates_raises_fails (w : World) (hw : w.correlate = none) (n : ℕ) (h1 h2 : History) (perm : ℕ → ℕ)
    (hr : Regular n (.merge h1 h2 perm)) (h1w : Works w n h1) (h2w : Works w n h2) (k : ℕ) (hk : k < n)
    (hd : w.dated k (texts (rows h1) k) = true) : checked w n (.merge h1 h2 perm) = .error .attributeError := by
  obtain ⟨s, hs⟩ := checked_works w hw n h1 hr.1 h1w
  obtain ⟨t, ht⟩ := checked_works w hw n h2 hr.2.1 h2w
  have hp := checked_run w hw n h1 s hs
  have : ((List.range n).any fun k => w.dated k (s.prof.cols k).seen || w.dated k (t.prof.cols k).seen) = true := by
    rw [List.any_eq_true]
    refine ⟨k, List.mem_range.2 hk, ?_⟩
    rw [hp, (run_cols w.num w.total n h1 hr.1 k).2, hd, Bool.true_or]
  simp only [checked, hs, ht]
  show Safe.merge w n s t perm = _
  rw [Safe.merge, if_pos this]

/-- The hypotheses can be met: a table with a column of dates, merged with itself. -/
example : checked { digits digitTotal with dated := fun k _ => k == 1 } 2
    (.merge (.update .new ⟨0, 0, [⟨0, [some "1", some "2020-01-01"]⟩], [0, 1]⟩)
      (.update .new ⟨0, 0, [⟨0, [some "1", some "2020-01-01"]⟩], [0, 1]⟩) id) = .error .attributeError :=
  rfl

/-- Correlations enabled: a null in column 0, a column of texts, and two columns of numbers. -/
example : checked { digits digitTotal with correlate := some fun _ xs => xs.all fun s => (digit s).isSome } 4
    (.update .new ⟨0, 1, [⟨0, [none, some "abc", some "1", some "2"]⟩, ⟨1, [some "1", some "d", some "1", some "2"]⟩],
      [0, 1, 2, 3]⟩) = .error .valueError :=
  rfl

/-- A history that goes through with a batch of integers: the earlier sums were integers, too. -/
example : Works (digits digitTotal) 2 (.update (.update .new b1) b1) := by
  refine ⟨⟨trivial, fun c _ h => h.elim⟩, ?_⟩
  intro c hc hf
  obtain ⟨hn, hf⟩ := hf
  rcases hf with ⟨_, hf⟩ | hf
  · exact hf
  · exact hf.elim

end Verif.NullRep
