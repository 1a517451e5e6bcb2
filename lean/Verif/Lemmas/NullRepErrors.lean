import Verif.Lemmas.NullRep

/-!
# When updates and merges of null replication metrics go through
-/

namespace Verif.NullRep

open Verif Verif.NullRepSpec

theorem run_n (num : String → Option ℚ) (total : ℕ → List String → Option ℚ) (n : ℕ) (h : History) :
    (run num total n h).n = n := by
  induction h with
  | new => rfl
  | update h b ih => exact ih
  | merge h1 h2 perm ih1 ih2 => exact ih1

theorem run_cols (num : String → Option ℚ) (total : ℕ → List String → Option ℚ) (n : ℕ) (h : History)
    (hr : Regular n h) (k : ℕ) :
    ((run num total n h).cols k).nullCount = (cls (rows h) k true).length ∧
      ((run num total n h).cols k).seen = texts (rows h) k := by
  induction h generalizing k with
  | new => exact ⟨rfl, rfl⟩
  | update h b ih =>
    obtain ⟨h1, h2, h3⟩ := add_counts ((run num total n h).cols k) b.rows.length (b.nulls k).length (b.nulls k)
      (some (b.lo, b.hi)) (b.texts k)
    obtain ⟨i1, i2⟩ := ih hr.1 k
    simp only [run, Prof.update, Col.update, h2, h3, rows, cls_append, texts_append, List.length_append, i1, i2]
    exact ⟨by rw [nulls_eq, List.length_map], rfl⟩
  | merge h1 h2 perm ih1 ih2 =>
    obtain ⟨r1, r2, hp⟩ := hr
    obtain ⟨i1, i2⟩ := ih1 r1 k
    obtain ⟨j1, j2⟩ := ih2 r2 k
    have e1 := add_counts Col.new ((run num total n h1).cols k).sampleSize ((run num total n h1).cols k).nullCount
      ((run num total n h1).cols k).index ((run num total n h1).cols k).ids ((run num total n h1).cols k).seen
    have e2 := add_counts (Col.new.add ((run num total n h1).cols k).sampleSize
      ((run num total n h1).cols k).nullCount ((run num total n h1).cols k).index ((run num total n h1).cols k).ids
      ((run num total n h1).cols k).seen) ((run num total n h2).cols (perm k)).sampleSize
      ((run num total n h2).cols (perm k)).nullCount ((run num total n h2).cols (perm k)).index
      ((run num total n h2).cols (perm k)).ids ((run num total n h2).cols (perm k)).seen
    simp only [run, Prof.merge, Col.merge, e2.2.1, e2.2.2, e1.2.1, e1.2.2]
    simp only [hp, i1, i2, j1, j2, rows, cls_append, texts_append, List.length_append]
    simp [Col.new]

theorem cls_ne (rs : List Row) (c : ℕ) : (cls rs c true).length ≠ 0 ↔ ∃ r ∈ rs, r.cell c = none := by
  rw [Ne, List.length_eq_zero_iff, cls, List.filter_eq_nil_iff]
  push Not
  constructor
  · rintro ⟨r, hr, h⟩
    exact ⟨r, hr, by simpa using h⟩
  · rintro ⟨r, hr, h⟩
    exact ⟨r, hr, by simp [h]⟩

theorem run_metrics (num : String → Option ℚ) (total : ℕ → List String → Option ℚ) (n : ℕ) (h : History)
    (hr : Regular n h) (c : ℕ) (hc : c < n) :
    ((run num total n h).metrics c).isSome = true ↔ ∃ r ∈ rows h, r.cell c = none := by
  induction h with
  | new => simp [run, Prof.new, rows]
  | update h b ih =>
    have hcnt := (run_cols num total n (.update h b) hr c).1
    have hq := cls_ne (rows (.update h b)) c
    rw [← hcnt] at hq
    rw [← hq]
    have he : (run num total n (.update h b)).metrics c = if ((run num total n (.update h b)).cols c).nullCount = 0 then
        (run num total n h).metrics c else some (makeMetric ((run num total n (.update h b)).cols c).nullCount
          ((run num total n (.update h b)).cols c).sampleSize
          (deleteAt ((List.range (run num total n h).n).map fun k =>
            total k ((run num total n (.update h b)).cols k).seen) c)
          (addOld ((run num total n h).metrics c)
            (batchNullSum num b (chunkNulls ((run num total n (.update h b)).cols c)) c))) := rfl
    rw [he]
    split_ifs with h0'
    · simp only [h0', ne_eq, not_true_eq_false, iff_false]
      rw [ih hr.1]
      rintro ⟨r, hr', hn⟩
      exact hq.2 ⟨r, by simp [rows, hr'], hn⟩ h0'
    · simpa using h0'
  | merge h1 h2 perm ih1 ih2 =>
    have hcnt := (run_cols num total n h1 hr.1 c).1
    have hcnt2 := (run_cols num total n h2 hr.2.1 c).1
    rw [rows, ← cls_ne, cls_append, List.length_append, ← hcnt, ← hcnt2]
    show ((mergeMetric total _ _ c).isSome = true) ↔ _
    unfold mergeMetric
    rw [run_n, if_pos hc]
    simp only
    split_ifs with h0
    · simp [h0]
    · simpa using h0

/-- What a profile that went through is. -/
structure Tracks (w : World) (n : ℕ) (h : History) (s : Safe) : Prop where
  prof : s.prof = run w.num w.total n h
  float : ∀ c < n, FloatSum w n h c ↔ ((s.prof.metrics c).isSome = true ∧ s.whole c = false)

theorem live_iff {n : ℕ} {b : Batch} (ho : b.order.Perm (List.range n)) (r : Row) : b.inData r = true ↔ Live n r := by
  simp only [Batch.inData, List.any_eq_true, Live, ho.mem_iff, List.mem_range, Option.isSome_iff_ne_none]

theorem kind_objects {n : ℕ} (w : World) {b : Batch} (ho : b.order.Perm (List.range n)) (c : ℕ) :
    b.kind w.whole c = .objects ↔ ¬ ∃ r ∈ b.rows, Live n r := by
  have : b.rows.filter b.inData = [] ↔ ¬ ∃ r ∈ b.rows, Live n r := by
    rw [List.filter_eq_nil_iff]
    push Not
    exact forall₂_congr fun r _ => not_congr (live_iff ho r)
  rw [← this]
  unfold Batch.kind
  split_ifs <;> simp_all

theorem kind_ints {n : ℕ} (w : World) {b : Batch} (ho : b.order.Perm (List.range n)) (c : ℕ) :
    b.kind w.whole c = .ints ↔ OthersWhole w n b c := by
  have h1 : b.rows.filter b.inData = [] ↔ ¬ ∃ r ∈ b.rows, Live n r := by
    rw [List.filter_eq_nil_iff]
    push Not
    exact forall₂_congr fun r _ => not_congr (live_iff ho r)
  have h2 : b.order.filter (· ≠ c) = [] ↔ ¬ ∃ k < n, k ≠ c := by
    rw [List.filter_eq_nil_iff]
    push Not
    constructor
    · intro h k hk
      simpa using h k (ho.mem_iff.2 (List.mem_range.2 hk))
    · intro h k hk
      simpa using h k (List.mem_range.1 (ho.mem_iff.1 hk))
  have h3 : ((b.order.filter (· ≠ c)).all fun k => (b.rows.filter b.inData).all fun r =>
      ((r.cell k).map w.whole).getD false) = true ↔
      ∀ k < n, k ≠ c → ∀ r ∈ b.rows, Live n r → ∃ s, r.cell k = some s ∧ w.whole s = true := by
    simp only [List.all_eq_true, List.mem_filter, ho.mem_iff, List.mem_range, live_iff ho, ne_eq, decide_eq_true_eq, and_imp,
      decide_not, Bool.not_eq_true', decide_eq_false_iff_not]
    refine forall₃_congr fun k _ _ => forall₃_congr fun r _ _ => ?_
    cases r.cell k with
    | none => simp
    | some s => simp
  unfold OthersWhole
  unfold Batch.kind
  split_ifs with a1 a2 a3
  · simp only [reduceCtorEq, false_iff]
    exact fun h => h1.1 a1 h.1
  · simp only [reduceCtorEq, false_iff]
    exact fun h => h2.1 a2 h.2.1
  · simp only [true_iff]
    exact ⟨by by_contra h; exact a1 (h1.2 h), by by_contra h; exact a2 (h2.2 h), h3.1 a3⟩
  · simp only [reduceCtorEq, false_iff]
    exact fun h => a3 (h3.2 h.2.2)

theorem order_length {n c : ℕ} (hc : c < n) {b : Batch} (ho : b.order.Perm (List.range n)) :
    (b.order.filter (· ≠ c)).length = n - 1 := by
  rw [(ho.filter _).length_eq]
  exact others_length n c hc

section
variable (w : World) {n : ℕ} {h : History} {b : Batch} {s : Safe} (hw : w.correlate = none) (hr : Regular n (.update h b))
  (ht : Tracks w n h s)
include hr ht

theorem nullCount_update (c : ℕ) :
    ((s.prof.cols c).update b c).nullCount ≠ 0 ↔ ∃ r ∈ rows h ++ b.rows, r.cell c = none := by
  have := (run_cols w.num w.total n (.update h b) hr c).1
  rw [← cls_ne, ht.prof]
  exact not_congr (by rw [← rows, ← this]; rfl)

theorem raised_none (c : ℕ) (hc : c < n) :
    raised w n s (fun k => (s.prof.cols k).update b k) b c = none ↔ (FloatSum w n h c → ¬ OthersWhole w n b c) := by
  have hq := nullCount_update w hr ht c
  unfold raised
  simp only [order_length hc hr.2, kind_ints w hr.2]
  rw [ht.float c hc]
  simp only [if_true]
  split_ifs with h1 h2
  · simp only [true_iff]
    rintro ⟨hm, _⟩
    rw [ht.prof, run_metrics w.num w.total n h hr.1 c hc] at hm
    obtain ⟨r, hr', hn⟩ := hm
    exact absurd h1 (hq.2 ⟨r, by simp [hr'], hn⟩)
  · simp only [reduceCtorEq, false_iff]
    exact fun hh => hh h2.2 ((kind_ints w hr.2 c).1 h2.1)
  · simp only [true_iff]
    exact fun h3 h4 => h2 ⟨(kind_ints w hr.2 c).2 h4, h3⟩

theorem tracks_update (hok : ∀ c < n, FloatSum w n h c → ¬ OthersWhole w n b c) :
    Tracks w n (.update h b) ⟨⟨s.prof.n, fun k => (s.prof.cols k).update b k,
      updateMetric w.num w.total s.prof.n (fun k => (s.prof.cols k).update b k) s.prof.metrics b⟩,
      wholeAfter w s (fun k => (s.prof.cols k).update b k) b⟩ := by
  have hp : (⟨s.prof.n, fun k => (s.prof.cols k).update b k,
      updateMetric w.num w.total s.prof.n (fun k => (s.prof.cols k).update b k) s.prof.metrics b⟩ : Prof) =
      run w.num w.total n (.update h b) := by
    rw [ht.prof]; rfl
  refine ⟨hp, fun c hc => ?_⟩
  show _ ↔ ((Prof.metrics ⟨s.prof.n, fun k => (s.prof.cols k).update b k,
      updateMetric w.num w.total s.prof.n (fun k => (s.prof.cols k).update b k) s.prof.metrics b⟩ c).isSome = true ∧ _)
  rw [hp, run_metrics w.num w.total n _ hr c hc]
  show (_ ∧ _) ↔ ((∃ r ∈ rows h ++ b.rows, r.cell c = none) ∧ _)
  refine and_congr_right fun hn => ?_
  have hq := (nullCount_update w hr ht c).2 hn
  have hm := ht.float c hc
  have ki := kind_ints w hr.2 c
  have ko := kind_objects w hr.2 c
  simp only [wholeAfter, if_neg hq]
  cases hk : b.kind w.whole c with
  | ints =>
    have hi := ki.1 hk
    simp only [Bool.true_eq_false, iff_false]
    rintro (⟨_, h2⟩ | h2)
    · exact h2 hi
    · exact hok c hc h2 hi
  | floats =>
    simp only [iff_true]
    left
    constructor
    · by_contra hcon
      have := ko.2 hcon
      rw [hk] at this
      cases this
    · intro hcon
      have := ki.2 hcon
      rw [hk] at this
      cases this
  | objects =>
    have hno := ko.1 hk
    rw [hm]
    constructor
    · rintro (⟨h1, _⟩ | ⟨h1, h2⟩)
      · exact absurd h1 hno
      · simp [h1, h2]
    · intro h1
      right
      split_ifs at h1 with h2
      exact ⟨h2, h1⟩

include hw in
theorem update_ok (t : Safe) :
    s.update w n b = .ok t ↔ (∀ c < n, FloatSum w n h c → ¬ OthersWhole w n b c) ∧
      t = ⟨⟨s.prof.n, fun k => (s.prof.cols k).update b k,
      updateMetric w.num w.total s.prof.n (fun k => (s.prof.cols k).update b k) s.prof.metrics b⟩,
      wholeAfter w s (fun k => (s.prof.cols k).update b k) b⟩ := by
  have hb : b.without w (fun k => (s.prof.cols k).update b k) = b := by simp [Batch.without, hw]
  have hall : (List.range n).filterMap (raised w n s (fun k => (s.prof.cols k).update b k) b) = [] ↔
      ∀ c < n, FloatSum w n h c → ¬ OthersWhole w n b c := by
    rw [List.filterMap_eq_nil_iff]
    constructor
    · intro hh c hc
      exact (raised_none w hr ht c hc).1 (hh c (List.mem_range.2 hc))
    · intro hh c hc
      exact (raised_none w hr ht c (List.mem_range.1 hc)).2 (hh c (List.mem_range.1 hc))
  unfold Safe.update
  simp only [hb]
  rw [← hall]
  cases hl : (List.range n).filterMap (raised w n s (fun k => (s.prof.cols k).update b k) b) with
  | nil =>
    simp only [true_and, Except.ok.injEq]
    exact eq_comm
  | cons e l => simp

end

theorem merge_ok (w : World) {n : ℕ} {h1 h2 : History} {perm : ℕ → ℕ} {s t : Safe} (hr : Regular n (.merge h1 h2 perm))
    (hs : Tracks w n h1 s) (ht : Tracks w n h2 t) (u : Safe) :
    s.merge w n t perm = .ok u ↔
      (∀ k < n, w.dated k (texts (rows h1) k) = false ∧ w.dated k (texts (rows h2) k) = false) ∧
        u = ⟨s.prof.merge w.total t.prof perm, fun _ => false⟩ := by
  have hany : ((List.range n).any fun k => w.dated k (s.prof.cols k).seen || w.dated k (t.prof.cols k).seen) = false ↔
      ∀ k < n, w.dated k (texts (rows h1) k) = false ∧ w.dated k (texts (rows h2) k) = false := by
    simp only [List.any_eq_false, List.mem_range, Bool.or_eq_true, not_or, Bool.not_eq_true, hs.prof, ht.prof,
      (run_cols w.num w.total n h1 hr.1 _).2, (run_cols w.num w.total n h2 hr.2.1 _).2]
  unfold Safe.merge
  rw [← hany]
  split_ifs with hd
  · simp [hd]
  · simp only [Except.ok.injEq]
    rw [Bool.not_eq_true] at hd
    simp only [hd, true_and]
    exact eq_comm

theorem tracks_merge (w : World) {n : ℕ} {h1 h2 : History} {perm : ℕ → ℕ} {s t : Safe} (hr : Regular n (.merge h1 h2 perm))
    (hs : Tracks w n h1 s) (ht : Tracks w n h2 t) :
    Tracks w n (.merge h1 h2 perm) ⟨s.prof.merge w.total t.prof perm, fun _ => false⟩ := by
  have hp : s.prof.merge w.total t.prof perm = run w.num w.total n (.merge h1 h2 perm) := by
    rw [hs.prof, ht.prof]; rfl
  refine ⟨hp, fun c hc => ?_⟩
  show _ ↔ (((s.prof.merge w.total t.prof perm).metrics c).isSome = true ∧ _)
  rw [hp, run_metrics w.num w.total n _ hr c hc]
  exact ⟨fun h => ⟨h, rfl⟩, fun h => h.1⟩

theorem checked_ok (w : World) (hw : w.correlate = none) (n : ℕ) (h : History) (hr : Regular n h) (s : Safe)
    (hs : checked w n h = .ok s) : Works w n h ∧ Tracks w n h s := by
  induction h generalizing s with
  | new =>
    simp only [checked, Except.ok.injEq] at hs
    subst hs
    exact ⟨trivial, rfl, fun c _ => by simp [FloatSum, Prof.new]⟩
  | update h b ih =>
    simp only [checked] at hs
    cases hc : checked w n h with
    | error e => rw [hc] at hs; cases hs
    | ok t =>
      rw [hc] at hs
      obtain ⟨i1, i2⟩ := ih hr.1 t hc
      obtain ⟨j1, j2⟩ := (update_ok w hw hr i2 s).1 hs
      exact ⟨⟨i1, j1⟩, j2 ▸ tracks_update w hr i2 j1⟩
  | merge h1 h2 perm ih1 ih2 =>
    simp only [checked] at hs
    cases hc1 : checked w n h1 with
    | error e => rw [hc1] at hs; cases hs
    | ok t =>
      rw [hc1] at hs
      cases hc2 : checked w n h2 with
      | error e => rw [hc2] at hs; cases hs
      | ok u =>
        rw [hc2] at hs
        obtain ⟨i1, i2⟩ := ih1 hr.1 t hc1
        obtain ⟨k1, k2⟩ := ih2 hr.2.1 u hc2
        obtain ⟨j1, j2⟩ := (merge_ok w hr i2 k2 s).1 hs
        exact ⟨⟨i1, k1, j1⟩, j2 ▸ tracks_merge w hr i2 k2⟩

theorem checked_works (w : World) (hw : w.correlate = none) (n : ℕ) (h : History) (hr : Regular n h) (hk : Works w n h) :
    ∃ s, checked w n h = .ok s := by
  induction h with
  | new => exact ⟨_, rfl⟩
  | update h b ih =>
    obtain ⟨t, hc⟩ := ih hr.1 hk.1
    obtain ⟨_, i2⟩ := checked_ok w hw n h hr.1 t hc
    have := (update_ok w hw hr i2 _).2 ⟨hk.2, rfl⟩
    exact ⟨_, by simp only [checked, hc]; exact this⟩
  | merge h1 h2 perm ih1 ih2 =>
    obtain ⟨t, hc⟩ := ih1 hr.1 hk.1
    obtain ⟨u, hd⟩ := ih2 hr.2.1 hk.2.1
    obtain ⟨_, i2⟩ := checked_ok w hw n h1 hr.1 t hc
    obtain ⟨_, k2⟩ := checked_ok w hw n h2 hr.2.1 u hd
    have := (merge_ok w hr i2 k2 _).2 ⟨hk.2.2, rfl⟩
    exact ⟨_, by simp only [checked, hc, hd]; exact this⟩

/-- Without correlations, whatever goes through has the values of `run`. -/
theorem checked_run (w : World) (hw : w.correlate = none) (n : ℕ) (h : History) (s : Safe)
    (hs : checked w n h = .ok s) : s.prof = run w.num w.total n h := by
  induction h generalizing s with
  | new =>
    simp only [checked, Except.ok.injEq] at hs
    subst hs
    rfl
  | update h b ih =>
    simp only [checked] at hs
    cases hc : checked w n h with
    | error e => rw [hc] at hs; cases hs
    | ok t =>
      rw [hc] at hs
      have hs' : t.update w n b = .ok s := hs
      have hb : b.without w (fun k => (t.prof.cols k).update b k) = b := by simp [Batch.without, hw]
      simp only [Safe.update, hb] at hs'
      split at hs'
      · cases hs'
      · injection hs' with hs'
        rw [← hs']
        simp only [ih t hc]
        rfl
  | merge h1 h2 perm ih1 ih2 =>
    simp only [checked] at hs
    cases hc1 : checked w n h1 with
    | error e => rw [hc1] at hs; cases hs
    | ok t =>
      rw [hc1] at hs
      cases hc2 : checked w n h2 with
      | error e => rw [hc2] at hs; cases hs
      | ok u =>
        rw [hc2] at hs
        have hs' : t.merge w n u perm = .ok s := hs
        simp only [Safe.merge] at hs'
        split_ifs at hs'
        injection hs' with hs'
        rw [← hs']
        simp only [ih1 t hc1, ih2 u hc2]
        rfl

end Verif.NullRep
