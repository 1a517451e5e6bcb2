import Mathlib.Tactic.Linarith
import Mathlib.Tactic.Ring
import Mathlib.Tactic.FieldSimp
import Mathlib.Tactic.Positivity
import Mathlib.Algebra.BigOperators.Group.Finset.Basic
import Mathlib.Data.List.Perm.Lattice
import Mathlib.Data.List.Count
import Mathlib.Tactic.SplitIfs
import Mathlib.Algebra.Order.BigOperators.Group.List
import Mathlib.Algebra.BigOperators.Ring.List
import Mathlib.Data.List.ProdSigma
import Verif.Lemmas.PyDict
import Verif.Spec.Categorical

namespace Verif.Categorical

open Verif Verif.CatSpec

variable {K : Type} [DecidableEq K]

/-! ## Dictionaries of counts -/

/-- `d` holds exactly the frequencies of `data`. -/
structure Counts (d : PyDict K ℕ) (data : List K) : Prop where
  wf : PyDict.WF d
  get : ∀ k, PyDict.get? d k = if k ∈ data then some (data.count k) else none

theorem get?_map_val (d : PyDict K ℕ) (f : K → ℕ → ℕ) (k : K) :
    PyDict.get? (d.map fun kv => (kv.1, f kv.1 kv.2)) k = (PyDict.get? d k).map (f k) := by
  induction d with
  | nil => rfl
  | cons p d ih =>
    obtain ⟨k', v⟩ := p
    rw [List.map_cons, PyDict.get?_cons, PyDict.get?_cons]
    split
    · rename_i h; subst h; rfl
    · exact ih

theorem get?_append (d e : PyDict K ℕ) (k : K) :
    PyDict.get? (d ++ e) k = (PyDict.get? d k).orElse fun _ => PyDict.get? e k := by
  induction d with
  | nil => rfl
  | cons p d ih =>
    obtain ⟨k', v⟩ := p
    rw [List.cons_append, PyDict.get?_cons, PyDict.get?_cons]
    split
    · rfl
    · exact ih

theorem get?_filter_key (d : PyDict K ℕ) (p : K → Bool) (k : K) :
    PyDict.get? (d.filter fun kv => p kv.1) k = if p k then PyDict.get? d k else none := by
  induction d with
  | nil => simp [PyDict.get?]
  | cons q d ih =>
    obtain ⟨k', v⟩ := q
    rw [List.filter_cons, PyDict.get?_cons]
    by_cases hp : p k' = true
    · rw [if_pos hp, PyDict.get?_cons]
      by_cases hk : k' = k
      · subst hk; simp [hp]
      · simp [hk, ih]
    · rw [if_neg hp, ih]
      by_cases hk : k' = k
      · subst hk; simp [hp]
      · simp [hk]

theorem get?_addFlat (d1 d2 : PyDict K ℕ) (k : K) :
    PyDict.get? (addFlat d1 d2) k = match PyDict.get? d1 k, PyDict.get? d2 k with
      | some a, some b => some (a + b)
      | some a, none => some a
      | none, some b => some b
      | none, none => none := by
  unfold addFlat
  have h1 := get?_map_val d1 (fun k v => plusOpt v (PyDict.get? d2 k)) k
  rw [get?_append, h1, get?_filter_key d2 (fun k => !PyDict.has d1 k) k]
  unfold PyDict.has
  cases PyDict.get? d1 k <;> cases PyDict.get? d2 k <;> simp [plusOpt]

theorem keys_addFlat (d1 d2 : PyDict K ℕ) :
    PyDict.keys (addFlat d1 d2) = PyDict.keys d1 ++ (PyDict.keys d2).filter fun k => !PyDict.has d1 k := by
  unfold addFlat PyDict.keys
  rw [List.map_append, List.map_map]
  congr 1
  · rw [List.filter_map]; rfl

theorem addFlat_wf (d1 d2 : PyDict K ℕ) (h1 : PyDict.WF d1) (h2 : PyDict.WF d2) : PyDict.WF (addFlat d1 d2) := by
  unfold PyDict.WF at *
  rw [keys_addFlat, List.nodup_append]
  refine ⟨h1, h2.filter _, ?_⟩
  intro a ha b hb hab
  subst hab
  rw [List.mem_filter] at hb
  have := (PyDict.has_iff d1 a).2 ha
  simp [this] at hb

theorem valueCounts_counts (vs : List K) : Counts (valueCounts vs) vs := by
  have hkeys : PyDict.keys (valueCounts vs) = vs.dedup := by
    simp [valueCounts, PyDict.keys, List.map_map, Function.comp_def]
  refine ⟨?_, ?_⟩
  · unfold PyDict.WF; rw [hkeys]; exact List.nodup_dedup vs
  · intro k
    have hwf : PyDict.WF (valueCounts vs) := by unfold PyDict.WF; rw [hkeys]; exact List.nodup_dedup vs
    split_ifs with h
    · apply PyDict.get?_of_mem hwf
      exact List.mem_map.2 ⟨k, List.mem_dedup.2 h, rfl⟩
    · rw [PyDict.get?_eq_none_iff, hkeys, List.mem_dedup]; exact h

theorem counts_addFlat {d1 d2 : PyDict K ℕ} {l1 l2 : List K} (h1 : Counts d1 l1) (h2 : Counts d2 l2) :
    Counts (addFlat d1 d2) (l1 ++ l2) := by
  refine ⟨addFlat_wf d1 d2 h1.wf h2.wf, ?_⟩
  intro k
  rw [get?_addFlat, h1.get, h2.get]
  simp only [List.mem_append, List.count_append]
  by_cases a : k ∈ l1 <;> by_cases b : k ∈ l2
  · simp [a, b]
  · simp [a, b, List.count_eq_zero.2 b]
  · simp [a, b, List.count_eq_zero.2 a]
  · simp [a, b]

theorem counts_nil : Counts ([] : PyDict K ℕ) [] := ⟨PyDict.WF_nil, by simp⟩

theorem Counts.mem {d : PyDict K ℕ} {l : List K} (h : Counts d l) (k : K) (v : ℕ) :
    (k, v) ∈ d ↔ k ∈ l ∧ v = l.count k := by
  rw [PyDict.mem_iff_get? h.wf, h.get]
  split_ifs with hk
  · simp [hk, eq_comm]
  · simp [hk]

theorem Counts.nodup {d : PyDict K ℕ} {l : List K} (h : Counts d l) : d.Nodup := by
  have := h.wf
  unfold PyDict.WF PyDict.keys at this
  exact List.Nodup.of_map _ this

theorem Counts.perm {d : PyDict K ℕ} {l : List K} (h : Counts d l) : d.Perm (valueCounts l) := by
  rw [List.perm_ext_iff_of_nodup h.nodup (valueCounts_counts l).nodup]
  rintro ⟨k, v⟩
  rw [h.mem, (valueCounts_counts l).mem]

theorem Counts.length {d : PyDict K ℕ} {l : List K} (h : Counts d l) : d.length = distinct l := by
  rw [h.perm.length_eq]; simp [valueCounts, distinct]

theorem Counts.sum_map {d : PyDict K ℕ} {l : List K} (h : Counts d l) (f : ℕ → ℚ) :
    (d.map fun kv => f kv.2).sum = (l.dedup.map fun k => f (l.count k)).sum := by
  rw [(h.perm.map _).sum_eq]
  simp [valueCounts, List.map_map, Function.comp_def]

theorem distinct_le_length (l : List K) : distinct l ≤ l.length :=
  (List.dedup_sublist l).length_le

/-- Summing over positions or over the distinct values weighted by their counts. -/
theorem sum_dedup (l : List K) (f : K → ℕ) :
    (l.map f).sum = (l.dedup.map fun k => l.count k * f k).sum := by
  rw [Finset.sum_list_map_count]
  have h1 : l.toFinset = l.dedup.toFinset := by ext x; simp
  rw [h1, List.sum_toFinset _ (List.nodup_dedup l)]
  rfl

theorem differing_eq (l : List K) :
    differingPairs l = (l.dedup.map fun k => l.count k * (l.length - l.count k)).sum := by
  rw [← sum_dedup l fun k => l.length - l.count k]
  unfold differingPairs
  have gen : ∀ m : List K, (m.product l).countP (fun p => decide (p.1 ≠ p.2)) =
      (m.map fun k => l.length - l.count k).sum := by
    intro m
    induction m with
    | nil => simp [List.product]
    | cons x m ih =>
      have : (x :: m).product l = l.map (fun y => (x, y)) ++ m.product l := by
        simp [List.product]
      rw [this, List.countP_append, ih, List.map_cons, List.sum_cons, List.countP_map]
      congr 1
      have h2 := List.length_eq_countP_add_countP (fun y => decide (y = x)) (l := l)
      have h3 : List.countP (fun y => decide (y = x)) l = l.count x := by
        unfold List.count; congr 1
      have h4 : List.countP (fun y => ¬ (decide (y = x)) = true) l =
          List.countP ((fun p : K × K => decide (p.1 ≠ p.2)) ∘ fun y => (x, y)) l := by
        congr 1; funext y; simp [eq_comm]
      rw [h3] at h2
      rw [← h4]; omega
  exact gen l

/-! ## The state against the data -/

theorem uniqueRatio_unstopped (c : Cat K) (l : List K) (hs : c.stopped = false) (hc : Counts c.cats l)
    (hn : c.sampleSize = l.length) : uniqueRatio c = ratio l := by
  unfold uniqueRatio ratio
  rw [hs]
  simp only [Bool.false_eq_true, if_false]
  rw [hn]
  have : (PyDict.keys c.cats).length = distinct l := by
    rw [← hc.length]; simp [PyDict.keys]
  rw [this]
  split_ifs with h
  · rfl
  · simp only [not_not] at h
    simp [h]

theorem uniqueCount_unstopped (c : Cat K) (l : List K) (hs : c.stopped = false) (hc : Counts c.cats l) :
    uniqueCount c = distinct l := by
  unfold uniqueCount
  rw [hs, ← hc.length]
  simp [PyDict.keys]

theorem checkStop_iff (o : StopOpts) (l : List K) : checkStop o l.length (ratio l) = true ↔ Asks o l := by
  unfold checkStop Asks
  cases h1 : o.maxSample <;> cases h2 : o.ratio <;> simp

/-- What an unstopped profile knows. -/
structure Exact (c : Cat K) (l : List K) : Prop where
  counts : Counts c.cats l
  size : c.sampleSize = l.length

theorem update_empty (c : Cat K) : update c [] = c := by simp [update]

theorem update_stopped (c : Cat K) (b : List K) (h : c.stopped = true) : update c b = c := by simp [update, h]

theorem update_unstopped (c : Cat K) (l b : List K) (hs : c.stopped = false) (h : Exact c l) (hb : b ≠ []) :
    update c b =
      if checkStop c.opts (l ++ b).length (ratio (l ++ b)) then
        { c with cats := [], sampleSize := (l ++ b).length, stopped := true,
                 stoppedRatio := some (ratio (l ++ b)), stoppedCount := some (distinct (l ++ b)) }
      else { c with cats := addFlat c.cats (valueCounts b), sampleSize := (l ++ b).length, stopped := false } := by
  have hlen : b.length ≠ 0 := by simpa using hb
  have hcc := counts_addFlat h.counts (valueCounts_counts b)
  unfold update updateCategories ratio
  rw [hs]
  simp only [hlen, decide_false, Bool.or_false, Bool.false_eq_true, if_false]
  rw [hcc.length, h.size, ← List.length_append]
  split_ifs with hk
  · simp
  · simp

theorem product_eq (c : Cat K) (l : List K) (hs : c.stopped = false) (h : Exact c l) :
    (c.sampleSize : ℚ) * uniqueRatio c = distinct l := by
  rw [uniqueRatio_unstopped c l hs h.counts h.size, h.size]
  unfold ratio
  rcases Nat.eq_zero_or_pos l.length with h0 | h0
  · have : l = [] := List.eq_nil_of_length_eq_zero h0
    subst this; simp [distinct]
  · have : (l.length : ℚ) ≠ 0 := by exact_mod_cast h0.ne'
    field_simp

theorem merge_unstopped (a b : Cat K) (l1 l2 : List K) (ha : a.stopped = false) (hb : b.stopped = false)
    (h1 : Exact a l1) (h2 : Exact b l2) :
    merge a b =
      let o := if distinct l1 < distinct l2 then a.opts else b.opts
      if checkStop o (l1 ++ l2).length (ratio (l1 ++ l2)) then
        ⟨[], (l1 ++ l2).length, o, none, true, some (ratio (l1 ++ l2)), some (distinct (l1 ++ l2))⟩
      else ⟨addFlat a.cats b.cats, (l1 ++ l2).length, o, none, false, none, none⟩ := by
  have hcc := counts_addFlat h1.counts h2.counts
  have hopts : mergedOpts a b = if distinct l1 < distinct l2 then a.opts else b.opts := by
    unfold mergedOpts
    rw [product_eq a l1 ha h1, product_eq b l2 hb h2]
    simp only [Nat.cast_lt]
  have hsz : a.sampleSize + b.sampleSize = (l1 ++ l2).length := by
    rw [h1.size, h2.size, List.length_append]
  unfold merge
  rw [ha, hb]
  simp only [Bool.or_self, Bool.not_false, if_true, hopts, hsz]
  rw [uniqueRatio_unstopped _ (l1 ++ l2) rfl hcc rfl, uniqueCount_unstopped _ (l1 ++ l2) rfl hcc]

theorem merge_stopped (a b : Cat K) (h : a.stopped = true ∨ b.stopped = true) :
    merge a b =
      let big := if b.sampleSize < a.sampleSize then a else b
      ⟨[], big.sampleSize, ⟨none, none⟩, none, true, some (uniqueRatio big), some (uniqueCount big)⟩ := by
  unfold merge
  have : (!(a.stopped || b.stopped)) = false := by
    rcases h with h | h <;> simp [h]
  rw [this]
  rfl

/-- The invariant of all histories: unstopped profiles are exact. -/
theorem run_exact (h : History K) : (run h).stopped = false → Exact (run h) (seen h) := by
  induction h with
  | new o k => intro _; exact ⟨counts_nil, rfl⟩
  | update h b ih =>
    intro hs
    by_cases hb : b = []
    · subst hb
      simp only [run, update_empty, seen, List.append_nil] at hs ⊢
      exact ih hs
    · by_cases hst : (run h).stopped = true
      · simp only [run, update_stopped _ _ hst] at hs
        rw [hst] at hs; simp at hs
      · have hst : (run h).stopped = false := by simpa using hst
        have he := ih hst
        simp only [run, seen] at hs ⊢
        rw [update_unstopped _ _ _ hst he hb] at hs ⊢
        split_ifs at hs ⊢
        exact ⟨counts_addFlat he.counts (valueCounts_counts b), rfl⟩
  | merge h1 h2 ih1 ih2 =>
    intro hs
    simp only [run, seen] at hs ⊢
    by_cases hst : (run h1).stopped = true ∨ (run h2).stopped = true
    · rw [merge_stopped _ _ hst] at hs; simp at hs
    · push Not at hst
      have ha : (run h1).stopped = false := by simpa using hst.1
      have hb : (run h2).stopped = false := by simpa using hst.2
      have e1 := ih1 ha
      have e2 := ih2 hb
      rw [merge_unstopped _ _ _ _ ha hb e1 e2] at hs ⊢
      dsimp only at hs ⊢
      split_ifs at hs ⊢ <;> first | exact ⟨counts_addFlat e1.counts e2.counts, rfl⟩ | (simp at hs)

/-- Whatever happened, size, unique count and unique ratio are those of a part of the data, and a stopped
profile has no categories. -/
theorem run_snapshot (h : History K) :
    ∃ s : List K, s.Sublist (seen h) ∧ ((run h).stopped = false → s = seen h) ∧
      (run h).sampleSize = s.length ∧ uniqueCount (run h) = distinct s ∧ uniqueRatio (run h) = ratio s ∧
      ((run h).stopped = true → (run h).cats = []) := by
  have key : ∀ h : History K, (run h).stopped = false → ∃ s : List K, s.Sublist (seen h) ∧
      ((run h).stopped = false → s = seen h) ∧
      (run h).sampleSize = s.length ∧ uniqueCount (run h) = distinct s ∧ uniqueRatio (run h) = ratio s ∧
      ((run h).stopped = true → (run h).cats = []) := by
    intro h hs
    have he := run_exact h hs
    exact ⟨seen h, List.Sublist.refl _, fun _ => rfl, he.size, uniqueCount_unstopped _ _ hs he.counts,
      uniqueRatio_unstopped _ _ hs he.counts he.size, by simp [hs]⟩
  induction h with
  | new o k => exact key _ rfl
  | update h b ih =>
    by_cases hall : (run (.update h b)).stopped = false
    · exact key _ hall
    · by_cases hb : b = []
      · subst hb
        simp only [run, update_empty, seen, List.append_nil]
        exact ih
      · by_cases hst : (run h).stopped = true
        · obtain ⟨s, hs1, _, hs2, hs3, hs4, hs5⟩ := ih
          refine ⟨s, hs1.trans (List.sublist_append_left _ _), fun h' => absurd h' hall, ?_⟩
          simp only [run, update_stopped _ _ hst]
          exact ⟨hs2, hs3, hs4, hs5⟩
        · have hst : (run h).stopped = false := by simpa using hst
          have he := run_exact h hst
          refine ⟨seen h ++ b, List.Sublist.refl _, fun _ => rfl, ?_⟩
          simp only [run] at hall ⊢
          rw [update_unstopped _ _ _ hst he hb] at hall ⊢
          split_ifs at hall ⊢
          · simp [uniqueCount, uniqueRatio]
          · simp at hall
  | merge h1 h2 ih1 ih2 =>
    by_cases hall : (run (.merge h1 h2)).stopped = false
    · exact key _ hall
    · by_cases hst : (run h1).stopped = true ∨ (run h2).stopped = true
      · simp only [run, seen] at hall ⊢
        rw [merge_stopped _ _ hst] at hall ⊢
        obtain ⟨s, hs1, _, hs2, hs3, hs4, _⟩ := ih1
        obtain ⟨t, ht1, _, ht2, ht3, ht4, _⟩ := ih2
        dsimp only at hall ⊢
        by_cases hlt : (run h2).sampleSize < (run h1).sampleSize
        · rw [if_pos hlt]
          exact ⟨s, hs1.trans (List.sublist_append_left _ _), by simp, hs2, hs3, hs4, fun _ => rfl⟩
        · rw [if_neg hlt]
          exact ⟨t, ht1.trans (List.sublist_append_right _ _), by simp, ht2, ht3, ht4, fun _ => rfl⟩
      · push Not at hst
        have ha : (run h1).stopped = false := by simpa using hst.1
        have hb : (run h2).stopped = false := by simpa using hst.2
        refine ⟨seen h1 ++ seen h2, List.Sublist.refl _, fun _ => rfl, ?_⟩
        simp only [run] at hall ⊢
        rw [merge_unstopped _ _ _ _ ha hb (run_exact h1 ha) (run_exact h2 hb)] at hall ⊢
        dsimp only at hall ⊢
        split_ifs at hall ⊢ <;> first | (simp [uniqueCount, uniqueRatio]; done) | (simp at hall)

/-- The options of a profile are among those given, or both absent. -/
theorem run_opts (h : History K) : (run h).opts ∈ optsIn h ∨ (run h).opts = ⟨none, none⟩ := by
  induction h with
  | new o k => simp [run, init, optsIn]
  | update h b ih =>
    have : (run (.update h b)).opts = (run h).opts := by
      simp only [run, update, updateCategories]
      split_ifs <;> rfl
    rw [this]; exact ih
  | merge h1 h2 ih1 ih2 =>
    by_cases hst : (run h1).stopped = true ∨ (run h2).stopped = true
    · simp only [run]; rw [merge_stopped _ _ hst]; right; rfl
    · push Not at hst
      have ha : (run h1).stopped = false := by simpa using hst.1
      have hb : (run h2).stopped = false := by simpa using hst.2
      have : (run (.merge h1 h2)).opts = (run h1).opts ∨ (run (.merge h1 h2)).opts = (run h2).opts := by
        simp only [run]
        rw [merge_unstopped _ _ _ _ ha hb (run_exact h1 ha) (run_exact h2 hb)]
        dsimp only
        split_ifs <;> simp
      simp only [optsIn, List.mem_append]
      rcases this with h | h <;> rw [h]
      · rcases ih1 with h | h <;> tauto
      · rcases ih2 with h | h <;> tauto

/-- A stopped profile stopped for a reason: some given options asked for it on some part of the data. -/
theorem run_reason (h : History K) (hs : (run h).stopped = true) :
    ∃ o ∈ optsIn h, ∃ s : List K, s.Sublist (seen h) ∧ Asks o s := by
  induction h with
  | new o k => simp [run, init] at hs
  | update h b ih =>
    by_cases hst : (run h).stopped = true
    · obtain ⟨o, ho, s, hs1, hs2⟩ := ih hst
      exact ⟨o, ho, s, hs1.trans (List.sublist_append_left _ _), hs2⟩
    · have hst : (run h).stopped = false := by simpa using hst
      by_cases hb : b = []
      · subst hb
        simp only [run, update_empty, hst] at hs; simp at hs
      · simp only [run] at hs
        rw [update_unstopped _ _ _ hst (run_exact h hst) hb] at hs
        split_ifs at hs with hc
        have hask := (checkStop_iff _ _).1 hc
        rcases run_opts h with ho | ho
        · exact ⟨_, ho, _, List.Sublist.refl _, hask⟩
        · rw [ho] at hask; obtain ⟨m, r, hm, _⟩ := hask; simp at hm
  | merge h1 h2 ih1 ih2 =>
    by_cases hst1 : (run h1).stopped = true
    · obtain ⟨o, ho, s, hs1, hs2⟩ := ih1 hst1
      exact ⟨o, List.mem_append_left _ ho, s, hs1.trans (List.sublist_append_left _ _), hs2⟩
    · by_cases hst2 : (run h2).stopped = true
      · obtain ⟨o, ho, s, hs1, hs2⟩ := ih2 hst2
        exact ⟨o, List.mem_append_right _ ho, s, hs1.trans (List.sublist_append_right _ _), hs2⟩
      · have ha : (run h1).stopped = false := by simpa using hst1
        have hb : (run h2).stopped = false := by simpa using hst2
        have hopt := run_opts (.merge h1 h2)
        simp only [run] at hs hopt
        rw [merge_unstopped _ _ _ _ ha hb (run_exact h1 ha) (run_exact h2 hb)] at hs hopt
        dsimp only at hs hopt
        generalize (if distinct (seen h1) < distinct (seen h2) then (run h1).opts else (run h2).opts) = o at hs hopt
        by_cases hc : checkStop o (seen h1 ++ seen h2).length (ratio (seen h1 ++ seen h2)) = true
        · have hask := (checkStop_iff _ _).1 hc
          rw [if_pos hc] at hopt
          rcases hopt with ho | ho
          · exact ⟨_, ho, _, List.Sublist.refl _, hask⟩
          · simp only at ho
            rw [ho] at hask; obtain ⟨m, r, hm, _⟩ := hask; simp at hm
        · rw [if_neg hc] at hs; simp at hs

/-! ## Gini impurity and unalikeability -/

theorem ratio_range (l : List K) : 0 ≤ ratio l ∧ ratio l ≤ 1 := by
  unfold ratio
  have h : (distinct l : ℚ) ≤ l.length := by exact_mod_cast distinct_le_length l
  refine ⟨by positivity, ?_⟩
  exact div_le_one_of_le₀ h (by positivity)

theorem sum_count (l : List K) : (l.dedup.map fun k => l.count k).sum = l.length := by
  have := sum_dedup l fun _ => 1
  simpa using this.symm

theorem sum_map_cast (ks : List K) (f : K → ℕ) : (((ks.map f).sum : ℕ) : ℚ) = (ks.map fun k => (f k : ℚ)).sum := by
  induction ks with
  | nil => simp
  | cons k ks ih => simp [ih]

theorem differing_cast (l : List K) :
    (differingPairs l : ℚ) = (l.dedup.map fun k => ((l.length : ℚ) - l.count k) * l.count k).sum := by
  rw [differing_eq, sum_map_cast]
  congr 1
  apply List.map_congr_left
  intro k _
  have : l.count k ≤ l.length := List.count_le_length
  push_cast [Nat.cast_sub this]
  ring

theorem gini_exact (c : Cat K) (l : List K) (h : Exact c l) (hl : l ≠ []) :
    gini c = some ((differingPairs l : ℚ) / (l.length : ℚ) ^ 2) := by
  have hpos : 0 < l.length := List.length_pos_iff.2 hl
  have hne : (l.length : ℚ) ≠ 0 := by exact_mod_cast hpos.ne'
  unfold gini
  rw [h.size, if_neg hpos.ne']
  congr 1
  rw [h.counts.sum_map fun c => (c : ℚ) / l.length * (1 - (c : ℚ) / l.length), differing_cast, eq_div_iff (by positivity),
    ← List.sum_map_mul_right]
  congr 1
  apply List.map_congr_left
  intro k _
  field_simp

theorem unalikeability_exact (c : Cat K) (l : List K) (h : Exact c l) (hl : 2 ≤ l.length) :
    unalikeability c = some ((differingPairs l : ℚ) / ((l.length : ℚ) ^ 2 - l.length)) := by
  unfold unalikeability
  rw [h.size, if_neg (by omega), if_neg (by omega)]
  congr 2
  rw [h.counts.sum_map fun c => ((l.length : ℚ) - c) * c, differing_cast]

theorem differing_le (l : List K) : differingPairs l + l.length ≤ l.length ^ 2 := by
  have h2 : l.length ^ 2 = (l.dedup.map fun k => l.count k * l.length).sum := by
    rw [List.sum_map_mul_right, sum_count, pow_two]
  have h3 : differingPairs l + l.length =
      (l.dedup.map fun k => l.count k * (l.length - l.count k) + l.count k).sum := by
    rw [List.sum_map_add, ← differing_eq, sum_count]
  rw [h2, h3]
  apply List.sum_le_sum
  intro k hk
  have h1 : 1 ≤ l.count k := List.count_pos_iff.2 (List.mem_dedup.1 hk)
  have h3 : l.count k ≤ l.length := List.count_le_length
  obtain ⟨d, hd⟩ := Nat.exists_eq_add_of_le h3
  rw [hd, Nat.add_sub_cancel_left]
  nlinarith

theorem differing_zero_iff (l : List K) : differingPairs l = 0 ↔ ∀ x ∈ l, ∀ y ∈ l, x = y := by
  unfold differingPairs
  rw [List.countP_eq_zero]
  constructor
  · intro h x hx y hy
    have := h (x, y) (by rw [List.pair_mem_product]; exact ⟨hx, hy⟩)
    simpa using this
  · rintro h ⟨x, y⟩ hp
    rw [List.pair_mem_product] at hp
    simpa using h x hp.1 y hp.2

theorem distinct_le_one_iff (l : List K) : distinct l ≤ 1 ↔ ∀ x ∈ l, ∀ y ∈ l, x = y := by
  unfold distinct
  constructor
  · intro h x hx y hy
    have hx' := List.mem_dedup.2 hx
    have hy' := List.mem_dedup.2 hy
    match hd : l.dedup, h with
    | [], _ => rw [hd] at hx'; simp at hx'
    | [z], _ => rw [hd] at hx' hy'; simp at hx' hy'; rw [hx', hy']
    | a :: b :: t, h => simp at h
  · intro h
    have hn := List.nodup_dedup l
    match hd : l.dedup, hn with
    | [], _ => simp
    | [z], _ => simp
    | a :: b :: t, hn =>
      have ha : a ∈ l := List.mem_dedup.1 (by rw [hd]; simp)
      have hb : b ∈ l := List.mem_dedup.1 (by rw [hd]; simp)
      have := h a ha b hb
      subst this
      simp at hn

end Verif.Categorical
