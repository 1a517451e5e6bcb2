import Mathlib.Tactic.Ring
import Mathlib.Tactic.Linarith
import Mathlib.Tactic.SplitIfs
import Mathlib.Algebra.BigOperators.Group.List.Basic
import Verif.Spec.NullRep

/-! # Null replication metrics: proofs -/

namespace Verif.NullRep

open Verif Verif.NullRepSpec

theorem value_eq_number (num : String → Option ℚ) (r : Row) (k : ℕ) : r.value num k = number num r k := by
  unfold Row.value number
  cases r.cell k <;> rfl

theorem range_eraseIdx (n c : ℕ) (hc : c < n) : (List.range n).eraseIdx c = others n c := by
  have h1 : (List.range n).erase c = (List.range n).filter (· != c) := List.Nodup.erase_eq_filter List.nodup_range c
  have h2 : (List.range n).eraseIdx c = (List.range n).erase c := by
    rw [List.erase_eq_eraseIdx_of_idxOf]
    have := List.nodup_range.idxOf_getElem (xs := List.range n) c (by simpa using hc)
    simpa using this
  rw [h2, h1, others]
  apply List.filter_congr
  intro x _
  by_cases h : x = c <;> simp [h]

theorem deleteAt_range (n c : ℕ) (hc : c < n) (f : ℕ → Option ℚ) :
    deleteAt ((List.range n).map f) c = (others n c).map f := by
  unfold deleteAt
  rw [List.eraseIdx_map, range_eraseIdx n c hc]

theorem sum_filter_eq (rs : List Row) (p q : Row → Bool) (f : Row → ℚ)
    (h : ∀ r ∈ rs, p r = q r ∨ f r = 0) : ((rs.filter p).map f).sum = ((rs.filter q).map f).sum := by
  induction rs with
  | nil => rfl
  | cons r rs ih =>
    have ih := ih fun x hx => h x (List.mem_cons_of_mem _ hx)
    rcases h r (by simp) with h | h
    · simp only [List.filter_cons, h]
      split_ifs <;> simp [ih]
    · simp only [List.filter_cons]
      split_ifs <;> simp [ih, h]

theorem cls_append (a b : List Row) (c : ℕ) (v : Bool) : cls (a ++ b) c v = cls a c v ++ cls b c v := by
  simp [cls]

theorem clsSum_append (num : String → Option ℚ) (a b : List Row) (c : ℕ) (v : Bool) (k : ℕ) :
    clsSum num (a ++ b) c v k = clsSum num a c v k + clsSum num b c v k := by
  simp [clsSum, cls_append]

theorem cls_length (rs : List Row) (c : ℕ) : (cls rs c true).length + (cls rs c false).length = rs.length := by
  induction rs with
  | nil => rfl
  | cons r rs ih =>
    have e1 : (false == true) = false := rfl
    have e2 : (true == false) = false := rfl
    simp only [cls, List.filter_cons] at ih ⊢
    cases h : (r.cell c).isNone <;> simp only [e1, e2, beq_self_eq_true, if_true, Bool.false_eq_true, if_false,
      List.length_cons] <;> omega

theorem clsSum_total (num : String → Option ℚ) (rs : List Row) (c k : ℕ) :
    (rs.map fun r => number num r k).sum = clsSum num rs c true k + clsSum num rs c false k := by
  induction rs with
  | nil => simp [clsSum, cls]
  | cons r rs ih =>
    simp only [clsSum, cls, List.filter_cons, List.map_cons, List.sum_cons] at ih ⊢
    rw [ih]
    cases h : (r.cell c).isNone <;> simp <;> ring

theorem clsSum_nil (num : String → Option ℚ) (rs : List Row) (c k : ℕ) (v : Bool) (h : cls rs c v = []) :
    clsSum num rs c v k = 0 := by simp [clsSum, h]

theorem texts_append (a b : List Row) (k : ℕ) : texts (a ++ b) k = texts a k ++ texts b k := by simp [texts]

theorem nulls_eq (b : Batch) (k : ℕ) : b.nulls k = (cls b.rows k true).map Row.label := by
  simp only [Batch.nulls, cls]
  congr 1
  apply List.filter_congr
  intro r _
  cases (r.cell k).isNone <;> rfl

theorem mem_nulls_iff {n : ℕ} {b : Batch} (hb : Plain n b) (k : ℕ) (r : Row) (hr : r ∈ b.rows) :
    r.label ∈ b.nulls k ↔ (r.cell k).isNone = true := by
  unfold Batch.nulls
  constructor
  · intro h
    obtain ⟨s, hs, hl⟩ := List.mem_map.1 h
    obtain ⟨hs, hn⟩ := List.mem_filter.1 hs
    have : s = r := List.inj_on_of_nodup_map hb.nodup hs hr hl
    rw [← this]
    exact hn
  · intro h
    exact List.mem_map.2 ⟨r, List.mem_filter.2 ⟨hr, h⟩, rfl⟩

/-- Null sums of one batch, when the positions brought back are the null labels of the batch. -/
theorem batchNullSum_eq (num : String → Option ℚ) {n : ℕ} {b : Batch} (hb : Plain n b) (idx : List ℤ) (c : ℕ)
    (hidx : ∀ r ∈ b.rows, (r.label ∈ idx ↔ (r.cell c).isNone = true)) :
    batchNullSum num b idx c = (others n c).map (clsSum num b.rows c true) := by
  unfold batchNullSum
  rw [hb.order]
  apply List.map_congr_left
  intro k hk
  have hk' : k < n := by
    have := (List.mem_filter.1 hk).1
    simpa using this
  unfold clsSum cls
  simp only [value_eq_number]
  apply sum_filter_eq
  intro r hr
  by_cases hd : b.inData r = true
  · left
    rw [hd]
    by_cases hn : (r.cell c).isNone = true
    · simp [hn, (hidx r hr).2 hn]
    · have : r.label ∉ idx := fun h => hn ((hidx r hr).1 h)
      simp [hn, this]
  · right
    have hnone : r.cell k = none := by
      by_contra hne
      apply hd
      simp only [Batch.inData, hb.order, List.any_eq_true]
      exact ⟨k, by simpa using hk', by cases h : r.cell k <;> simp_all⟩
    simp [number, hnone]

/-- What a column profile holds after the rows `rs`, whatever the labels. -/
structure ColOk (c : Col) (rs : List Row) (k : ℕ) : Prop where
  size : c.sampleSize = rs.length
  nulls : c.nullCount = (cls rs k true).length
  seen : c.seen = texts rs k
  index : ∀ i ∈ c.index, ∃ lo hi, c.ids = some (lo, hi) ∧ lo ≤ i ∧ i ≤ hi

theorem overlap_iff (a b c d : ℤ) (h1 : a ≤ b) (h2 : c ≤ d) :
    Nulls.overlap (some (a, b)) (some (c, d)) = true ↔ a ≤ d ∧ c ≤ b := by
  simp only [Nulls.overlap, decide_eq_true_eq]
  omega

theorem add_counts (c : Col) (s m : ℕ) (ix : List ℤ) (ids : Option (ℤ × ℤ)) (t : List String) :
    (c.add s m ix ids t).sampleSize = c.sampleSize + s ∧ (c.add s m ix ids t).nullCount = c.nullCount + m ∧
      (c.add s m ix ids t).seen = c.seen ++ t := by
  unfold Col.add
  split_ifs <;> simp

theorem add_index (c : Col) (s m : ℕ) (ix : List ℤ) (ids : Option (ℤ × ℤ)) (t : List String)
    (hc : ∀ i ∈ c.index, ∃ lo hi, c.ids = some (lo, hi) ∧ lo ≤ i ∧ i ≤ hi)
    (hi : ∀ i ∈ ix, ∃ lo hi, ids = some (lo, hi) ∧ lo ≤ i ∧ i ≤ hi) :
    ∀ i ∈ (c.add s m ix ids t).index,
      ∃ lo hi, (c.add s m ix ids t).ids = some (lo, hi) ∧ lo ≤ i ∧ i ≤ hi := by
  intro i
  unfold Col.add
  cases hci : c.ids with
  | none =>
    have hov : Nulls.overlap none ids = false := by simp [Nulls.overlap]
    simp only [hov, Bool.false_eq_true, if_false, List.mem_append, Nulls.mergeIds]
    rintro (h | h)
    · obtain ⟨lo, hi', h1, _⟩ := hc i h
      rw [hci] at h1; cases h1
    · exact hi i h
  | some cr =>
    obtain ⟨a, b⟩ := cr
    cases hids : ids with
    | none =>
      have hov : Nulls.overlap (some (a, b)) none = false := by simp [Nulls.overlap]
      simp only [hov, Bool.false_eq_true, if_false, List.mem_append, Nulls.mergeIds]
      rintro (h | h)
      · obtain ⟨lo, hi', h1, h2⟩ := hc i h
        rw [hci] at h1
        exact ⟨lo, hi', h1, h2⟩
      · obtain ⟨lo, hi', h1, _⟩ := hi i h
        rw [hids] at h1; cases h1
    | some dr =>
      obtain ⟨d, e⟩ := dr
      split_ifs with hov
      · have hs : Nulls.shiftOf (some (a, b)) (some (d, e)) = b + 1 := by simp [Nulls.shiftOf, hov]
        simp only [hs, List.mem_append, List.mem_map, Nulls.mergeIds, Option.map_some]
        rintro (h | ⟨j, hj, rfl⟩)
        · obtain ⟨lo, hi', h1, h2⟩ := hc i h
          rw [hci] at h1
          injection h1 with h1
          injection h1 with h1 h3
          refine ⟨_, _, rfl, ?_, ?_⟩
          · exact le_trans (min_le_left _ _) (by omega)
          · exact le_trans (by omega) (le_max_left _ _)
        · obtain ⟨lo, hi', h1, h2⟩ := hi j hj
          rw [hids] at h1
          injection h1 with h1
          injection h1 with h1 h3
          refine ⟨_, _, rfl, ?_, ?_⟩
          · exact le_trans (min_le_right _ _) (by omega)
          · exact le_trans (by omega) (le_max_right _ _)
      · simp only [List.mem_append, Nulls.mergeIds]
        rintro (h | hj)
        · obtain ⟨lo, hi', h1, h2⟩ := hc i h
          rw [hci] at h1
          injection h1 with h1
          injection h1 with h1 h3
          refine ⟨_, _, rfl, ?_, ?_⟩
          · exact le_trans (min_le_left _ _) (by omega)
          · exact le_trans (by omega) (le_max_left _ _)
        · obtain ⟨lo, hi', h1, h2⟩ := hi i hj
          rw [hids] at h1
          injection h1 with h1
          injection h1 with h1 h3
          refine ⟨_, _, rfl, ?_, ?_⟩
          · exact le_trans (min_le_right _ _) (by omega)
          · exact le_trans (by omega) (le_max_right _ _)

theorem colOk_update {n : ℕ} {c : Col} {rs : List Row} {k : ℕ} {b : Batch} (h : ColOk c rs k) (hb : Plain n b) :
    ColOk (c.update b k) (rs ++ b.rows) k := by
  obtain ⟨h1, h2, h3⟩ := add_counts c b.rows.length (b.nulls k).length (b.nulls k) (some (b.lo, b.hi)) (b.texts k)
  refine ⟨?_, ?_, ?_, ?_⟩
  · rw [Col.update, h1, h.size, List.length_append]
  · rw [Col.update, h2, h.nulls, cls_append, List.length_append, nulls_eq, List.length_map]
  · rw [Col.update, h3, h.seen, texts_append]; rfl
  · apply add_index c _ _ _ _ _ h.index
    intro i hi
    obtain ⟨r, hr, rfl⟩ := List.mem_map.1 hi
    exact ⟨b.lo, b.hi, rfl, hb.range r (List.mem_filter.1 hr).1⟩

theorem colOk_merge {c d : Col} {rs ss : List Row} {k : ℕ} (h : ColOk c rs k) (g : ColOk d ss k) :
    ColOk (c.merge d) (rs ++ ss) k := by
  obtain ⟨h1, h2, h3⟩ := add_counts Col.new c.sampleSize c.nullCount c.index c.ids c.seen
  obtain ⟨g1, g2, g3⟩ := add_counts (Col.new.add c.sampleSize c.nullCount c.index c.ids c.seen)
    d.sampleSize d.nullCount d.index d.ids d.seen
  refine ⟨?_, ?_, ?_, ?_⟩
  · rw [Col.merge, g1, h1, h.size, g.size, List.length_append]; simp [Col.new]
  · rw [Col.merge, g2, h2, h.nulls, g.nulls, cls_append, List.length_append]; simp [Col.new]
  · rw [Col.merge, g3, h3, h.seen, g.seen, texts_append]; simp [Col.new]
  · apply add_index _ _ _ _ _ _ _ g.index
    apply add_index _ _ _ _ _ _ _ h.index
    intro i hi
    simp [Col.new] at hi

/-- The positions brought back after a batch which does not meet the earlier labels, with no shift so far. -/
theorem chunkNulls_apart {n : ℕ} {c : Col} {rs : List Row} {k : ℕ} {b : Batch} (h : ColOk c rs k) (hb : Plain n b)
    (hs : c.shift = none) (hov : Nulls.overlap c.ids (some (b.lo, b.hi)) = false) :
    ∀ r ∈ b.rows, (r.label ∈ chunkNulls (c.update b k) ↔ (r.cell k).isNone = true) := by
  intro r hr
  rw [← mem_nulls_iff hb k r hr]
  have e : chunkNulls (c.update b k) = c.index ++ b.nulls k := by
    unfold chunkNulls Col.update Col.add
    simp [hov, hs]
  rw [e, List.mem_append]
  constructor
  · rintro (hm | hm)
    · exfalso
      obtain ⟨lo, hi, h1, h2⟩ := h.index _ hm
      rw [h1] at hov
      have hr' := hb.range r hr
      have := (overlap_iff lo hi b.lo b.hi (by omega) (by omega)).2 (by omega)
      rw [this] at hov
      cases hov
    · exact hm
  · exact Or.inr

/-- The positions brought back after a batch which meets the earlier labels. -/
theorem chunkNulls_shifted {n : ℕ} {c : Col} {rs : List Row} {k : ℕ} {b : Batch} (h : ColOk c rs k) (hb : Plain n b)
    (hov : Nulls.overlap c.ids (some (b.lo, b.hi)) = true) (h0 : 0 ≤ b.lo) :
    ∀ r ∈ b.rows, (r.label ∈ chunkNulls (c.update b k) ↔ (r.cell k).isNone = true) := by
  intro r hr
  rw [← mem_nulls_iff hb k r hr]
  cases hci : c.ids with
  | none => rw [hci] at hov; simp [Nulls.overlap] at hov
  | some cr =>
    obtain ⟨a, e⟩ := cr
    have hs : Nulls.shiftOf c.ids (some (b.lo, b.hi)) = e + 1 := by rw [hci] at hov ⊢; simp [Nulls.shiftOf, hov]
    have hch : chunkNulls (c.update b k) =
        ((c.index ++ (b.nulls k).map (· + (e + 1))).map (· - (e + 1))).filter fun i => decide (0 ≤ i) := by
      unfold chunkNulls Col.update Col.add
      simp only [hov, if_true, hs]
    rw [hch, List.mem_filter, List.mem_map]
    have hr' := hb.range r hr
    constructor
    · rintro ⟨⟨i, hi, hl⟩, _⟩
      rcases List.mem_append.1 hi with hi | hi
      · obtain ⟨lo, hi', h1, h2⟩ := h.index _ hi
        rw [hci] at h1
        injection h1 with h1
        injection h1 with h1 h3
        omega
      · obtain ⟨j, hj, rfl⟩ := List.mem_map.1 hi
        have : j = r.label := by omega
        rw [← this]
        exact hj
    · intro hm
      refine ⟨⟨r.label + (e + 1), List.mem_append.2 (Or.inr (List.mem_map.2 ⟨_, hm, rfl⟩)), by omega⟩, ?_⟩
      simp only [decide_eq_true_eq]
      omega

theorem zipWith_map_same {α β γ δ : Type*} (g : β → γ → δ) (f : α → β) (f' : α → γ) (l : List α) :
    List.zipWith g (l.map f) (l.map f') = l.map fun x => g (f x) (f' x) := by
  induction l with
  | nil => rfl
  | cons x l ih => simp [ih]

/-- From counts, totals and null sums to the metrics. -/
theorem makeMetric_exact (num : String → Option ℚ) (n : ℕ) (rs : List Row) (c : ℕ) (numeric : ℕ → Prop)
    (tot : ℕ → Option ℚ) (htot : ∀ k, numeric k → tot k = some ((rs.map fun r => number num r k).sum)) :
    Exact num n rs c numeric
      (makeMetric (cls rs c true).length rs.length ((others n c).map tot)
        ((others n c).map (clsSum num rs c true))) := by
  have hl := cls_length rs c
  have ht : rs.length - (cls rs c true).length = (cls rs c false).length := by omega
  refine ⟨rfl, ?_, rfl, ?_, ?_, ?_, ?_⟩
  · simp only [makeMetric, ht]
  · simp [makeMetric]
  · intro hne
    have hz : ¬ (cls rs c false).length = 0 := fun h => hne (List.length_eq_zero_iff.1 h)
    refine ⟨fun k => (tot k).map (· - clsSum num rs c true k), ?_, ?_⟩
    · simp only [makeMetric, ht, if_neg hz, zipWith_map_same]
    · intro k _ hk
      show Option.map _ _ = _
      rw [htot k hk, clsSum_total num rs c k]
      simp
  · intro hne
    have hz : ¬ (cls rs c false).length = 0 := fun h => hne (List.length_eq_zero_iff.1 h)
    refine ⟨fun k => ((tot k).map (· - clsSum num rs c true k)).map (· / ((cls rs c false).length : ℚ)), ?_, ?_⟩
    · simp only [makeMetric, ht, if_neg hz, zipWith_map_same, List.map_map, Function.comp_def]
    · intro k _ hk
      show Option.map _ _ = _
      rw [htot k hk, clsSum_total num rs c k]
      simp
  · intro he
    have hz : (cls rs c false).length = 0 := by rw [he]; rfl
    simp only [makeMetric, ht, if_pos hz, List.map_map, Function.comp_def, and_self]

/-- Everything that is known after the rows `rs`. -/
structure Inv (num : String → Option ℚ) (n : ℕ) (rs : List Row) (numeric : ℕ → Prop) (p : Prof) : Prop where
  n_eq : p.n = n
  cols : ∀ k, ColOk (p.cols k) rs k
  absent : ∀ c, cls rs c true = [] → p.metrics c = none
  present : ∀ c < n, cls rs c true ≠ [] → ∃ m, p.metrics c = some m ∧ Exact num n rs c numeric m

theorem inv_new (num : String → Option ℚ) (n : ℕ) (numeric : ℕ → Prop) : Inv num n [] numeric (Prof.new n) :=
  ⟨rfl, fun _ => ⟨rfl, rfl, rfl, by simp [Prof.new, Col.new]⟩, fun _ _ => rfl, fun _ _ h => absurd rfl h⟩

theorem inv_update (num : String → Option ℚ) (total : ℕ → List String → Option ℚ) {n : ℕ} {rs : List Row}
    {numeric numeric' : ℕ → Prop} {p : Prof} {b : Batch} (h : Inv num n rs numeric p) (hb : Plain n b)
    (hidx : ∀ c, ∀ r ∈ b.rows, (r.label ∈ chunkNulls ((p.cols c).update b c) ↔ (r.cell c).isNone = true))
    (hnum : ∀ k, numeric' k → SumsNumbers num total (rs ++ b.rows) k) :
    Inv num n (rs ++ b.rows) numeric' (p.update num total b) := by
  have hcols : ∀ k, ColOk ((p.cols k).update b k) (rs ++ b.rows) k := fun k => colOk_update (h.cols k) hb
  refine ⟨h.n_eq, hcols, ?_, ?_⟩
  · intro c hc
    have h0 : ((p.cols c).update b c).nullCount = 0 := by rw [(hcols c).nulls, hc]; rfl
    have hc' : cls rs c true = [] := by rw [cls_append] at hc; exact (List.append_eq_nil_iff.1 hc).1
    simp only [Prof.update, updateMetric, h0, if_true]
    exact h.absent c hc'
  · intro c hcn hne
    have h0 : ((p.cols c).update b c).nullCount ≠ 0 := by
      rw [(hcols c).nulls]
      exact fun h => hne (List.length_eq_zero_iff.1 h)
    have hsum : addOld (p.metrics c) (batchNullSum num b (chunkNulls ((p.cols c).update b c)) c) =
        (others n c).map (clsSum num (rs ++ b.rows) c true) := by
      rw [batchNullSum_eq num hb _ c (hidx c)]
      by_cases hold : cls rs c true = []
      · rw [h.absent c hold]
        apply List.map_congr_left
        intro k _
        rw [clsSum_append, clsSum_nil num rs c k true hold, zero_add]
      · obtain ⟨m, hm, hex⟩ := h.present c hcn hold
        rw [hm]
        simp only [addOld, hex.sumNull, zipWith_map_same]
        apply List.map_congr_left
        intro k _
        rw [clsSum_append, add_comm]
    have hval : (p.update num total b).metrics c =
        some (makeMetric (cls (rs ++ b.rows) c true).length (rs ++ b.rows).length
          ((others n c).map fun k => total k (texts (rs ++ b.rows) k))
          ((others n c).map (clsSum num (rs ++ b.rows) c true))) := by
      simp only [Prof.update, updateMetric, h0, if_false, h.n_eq]
      rw [deleteAt_range n c hcn, hsum, (hcols c).nulls, (hcols c).size]
      have : (fun k => total k ((p.cols k).update b k).seen) = fun k => total k (texts (rs ++ b.rows) k) := by
        funext k
        rw [(hcols k).seen]
      rw [this]
    exact ⟨_, hval, makeMetric_exact num n _ c numeric' _ fun k hk => hnum k hk⟩

theorem others_length (n c : ℕ) (hc : c < n) : (others n c).length = n - 1 := by
  rw [← range_eraseIdx n c hc, List.length_eraseIdx_of_lt (by simpa using hc), List.length_range]

theorem mergeNullSum_eq (num : String → Option ℚ) {n : ℕ} {rs ss : List Row} {nu nu' : ℕ → Prop} {p q : Prof}
    (h : Inv num n rs nu p) (g : Inv num n ss nu' q) (c : ℕ) (hc : c < n) :
    mergeNullSum n (p.metrics c) (q.metrics c) = (others n c).map (clsSum num (rs ++ ss) c true) := by
  have hz : List.replicate (n - 1) (0 : ℚ) = (others n c).map fun _ => (0 : ℚ) := by
    rw [← others_length n c hc]
    exact (List.map_const' ..).symm
  have side : ∀ (f : ℕ → ℚ) (ts : List Row) (nv : ℕ → Prop) (x : Prof), Inv num n ts nv x →
      addOld (x.metrics c) ((others n c).map f) =
      (others n c).map fun k => f k + clsSum num ts c true k := by
    intro f ts nv x hx
    unfold addOld
    by_cases hold : cls ts c true = []
    · rw [hx.absent c hold]
      apply List.map_congr_left
      intro k _
      rw [clsSum_nil num ts c k true hold, add_zero]
    · obtain ⟨m, hm, hex⟩ := hx.present c hc hold
      rw [hm]
      simp only [hex.sumNull, zipWith_map_same]
  unfold mergeNullSum
  rw [hz, side (fun _ => 0) rs nu p h, side (fun k => 0 + clsSum num rs c true k) ss nu' q g]
  apply List.map_congr_left
  intro k _
  rw [clsSum_append, zero_add]

theorem inv_merge (num : String → Option ℚ) (total : ℕ → List String → Option ℚ) {n : ℕ} {rs ss : List Row}
    {nu nu' numeric : ℕ → Prop} {p q : Prof} (h : Inv num n rs nu p) (g : Inv num n ss nu' q) (perm : ℕ → ℕ)
    (hperm : ∀ k, perm k = k)
    (hnum : ∀ k, numeric k → SumsNumbers num total rs k ∧ SumsNumbers num total ss k) :
    Inv num n (rs ++ ss) numeric (p.merge total q perm) := by
  refine ⟨h.n_eq, ?_, ?_, ?_⟩
  · intro k
    simp only [Prof.merge, hperm]
    exact colOk_merge (h.cols k) (g.cols k)
  · intro c hc
    rw [cls_append] at hc
    obtain ⟨h1, h2⟩ := List.append_eq_nil_iff.1 hc
    simp only [Prof.merge, mergeMetric, (h.cols c).nulls, (g.cols c).nulls, h1, h2]
    simp
  · intro c hcn hne
    have h0 : (p.cols c).nullCount + (q.cols c).nullCount = (cls (rs ++ ss) c true).length := by
      rw [(h.cols c).nulls, (g.cols c).nulls, cls_append, List.length_append]
    have hs : (p.cols c).sampleSize + (q.cols c).sampleSize = (rs ++ ss).length := by
      rw [(h.cols c).size, (g.cols c).size, List.length_append]
    have hnz : ¬ (cls (rs ++ ss) c true).length = 0 := fun e => hne (List.length_eq_zero_iff.1 e)
    have hval : (p.merge total q perm).metrics c =
        some (makeMetric (cls (rs ++ ss) c true).length (rs ++ ss).length
          ((others n c).map fun k => addTotal (total k (texts rs k)) (total k (texts ss k)))
          ((others n c).map (clsSum num (rs ++ ss) c true))) := by
      simp only [Prof.merge, mergeMetric, h.n_eq, if_pos hcn, h0, hs, if_neg hnz]
      rw [deleteAt_range n c hcn, mergeNullSum_eq num h g c hcn]
      simp only [(h.cols _).seen, (g.cols _).seen]
    refine ⟨_, hval, makeMetric_exact num n _ c numeric _ ?_⟩
    intro k hk
    obtain ⟨a, b⟩ := hnum k hk
    simp only [SumsNumbers] at a b
    simp [a, b, addTotal]

end Verif.NullRep
