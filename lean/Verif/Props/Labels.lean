import Verif.Lemmas.Labels
import Mathlib.Tactic.NormNum
import Mathlib.Tactic.Linarith

/-!
# C38: label votes are conserved
-/

namespace Verif.LabelsProps

open Verif Labels LabelsSpec Counter

variable {order : List String → List String} {labels : List String} {pick : List ℚ → ℕ}

theorem run_inv (ho : Rearranges order) (hn : labels.Nodup) (h : History) (hv : Valid labels h) :
    (Mergeable h → ∃ c, run order labels pick h = .ok c ∧ Inv labels pick (rows h) c) ∧
      (¬Mergeable h → run order labels pick h = .error .typeError) := by
  induction h with
  | new => exact ⟨fun _ => ⟨_, rfl, inv_new hn pick⟩, fun h => absurd trivial h⟩
  | update h rs ih =>
    obtain ⟨i1, i2⟩ := ih fun row hr => hv row (List.mem_append_left _ hr)
    constructor
    · intro hm
      obtain ⟨c, hc, hi⟩ := i1 hm
      refine ⟨_, by rw [run, hc]; rfl, ?_⟩
      exact inv_update hn hi fun row hr => hv row (List.mem_append_right _ hr)
    · intro hm
      rw [run, i2 hm]; rfl
  | merge h1 h2 ih1 ih2 =>
    obtain ⟨i1, i2⟩ := ih1 fun row hr => hv row (List.mem_append_left _ hr)
    obtain ⟨j1, j2⟩ := ih2 fun row hr => hv row (List.mem_append_right _ hr)
    constructor
    · rintro ⟨m1, m2, m3⟩
      obtain ⟨a, ha, ia⟩ := i1 m1
      obtain ⟨b, hb, ib⟩ := j1 m2
      obtain ⟨c, hc, ic⟩ := (inv_merge ho hn ia ib).1 m3
      refine ⟨c, ?_, ic⟩
      rw [run, ha, hb]; exact hc
    · intro hm
      by_cases m1 : Mergeable h1
      · obtain ⟨a, ha, ia⟩ := i1 m1
        by_cases m2 : Mergeable h2
        · obtain ⟨b, hb, ib⟩ := j1 m2
          rw [run, ha, hb]
          exact (inv_merge ho hn ia ib).2 fun m3 => hm ⟨m1, m2, m3⟩
        · rw [run, ha, j2 m2]; rfl
      · rw [run, i2 m1]; rfl

/-- A history ends in a profile exactly if no profile with data was merged with one without; otherwise in an
`TypeError`. -/
theorem C38_merge_succeeds_iff (ho : Rearranges order) (hn : labels.Nodup) (h : History) (hv : Valid labels h) :
    ((∃ c, run order labels pick h = .ok c) ↔ Mergeable h) ∧
      (¬Mergeable h → run order labels pick h = .error .typeError) := by
  obtain ⟨h1, h2⟩ := run_inv (order := order) (pick := pick) ho hn h hv
  refine ⟨⟨fun ⟨c, hc⟩ => ?_, fun hm => ?_⟩, h2⟩
  · by_contra hm
    rw [h2 hm] at hc
    cases hc
  · obtain ⟨c, hc, _⟩ := h1 hm
    exact ⟨c, hc⟩

/-- Merging a profile with an untouched one of the same kind is refused, although both are valid. -/
theorem C38_merge_empty_fails (ho : Rearranges order) (hn : labels.Nodup) (rs : List (List ℚ)) (hne : rs ≠ [])
    (hr : ∀ row ∈ rs, row.length = labels.length) :
    run order labels pick (.merge (.update .new rs) .new) = .error .typeError ∧
      run order labels pick (.merge .new (.update .new rs)) = .error .typeError := by
  constructor
  · refine (run_inv ho hn _ ?_).2 ?_
    · simpa [Valid, rows] using hr
    · simp [Mergeable, rows, hne]
  · refine (run_inv ho hn _ ?_).2 ?_
    · simpa [Valid, rows] using hr
    · simp [Mergeable, rows, hne]

/-- The first position of a largest confidence. -/
def firstMax : List ℚ → ℕ
  | [] => 0
  | [_] => 0
  | x :: y :: ys => if ∀ z ∈ y :: ys, z ≤ x then 0 else firstMax (y :: ys) + 1

theorem firstMax_picks : Picks firstMax := by
  intro row hne
  induction row with
  | nil => exact absurd rfl hne
  | cons x xs ih =>
    cases xs with
    | nil => exact ⟨x, rfl, by simp⟩
    | cons y ys =>
      unfold firstMax
      split_ifs with hc
      · refine ⟨x, rfl, fun q hq => ?_⟩
        rcases List.mem_cons.1 hq with rfl | hq
        · exact le_refl _
        · exact hc q hq
      · obtain ⟨p, h1, h2⟩ := ih (by simp)
        refine ⟨p, by simpa using h1, fun q hq => ?_⟩
        rcases List.mem_cons.1 hq with rfl | hq
        · obtain ⟨z, hz⟩ := not_forall.1 hc
          rw [Classical.not_imp] at hz
          exact (not_le.1 hz.2).le.trans (h2 z hz.1)
        · exact h2 q hq

theorem id_rearranges : Rearranges id := fun l => List.Perm.refl l

/-- Two batches and a merge. -/
def sample : History :=
  .merge (.update (.update .new [[7 / 10, 2 / 10, 1 / 10], [1 / 10, 8 / 10, 1 / 10]]) [[1 / 10, 1 / 10, 1 / 10]])
    (.update .new [[6 / 10, 3 / 10, 1 / 10]])

example : Valid ["A", "B", "C"] sample ∧ Mergeable sample ∧ rows sample ≠ [] := by
  refine ⟨?_, ?_, ?_⟩
  · intro row hr; simp [sample, rows] at hr; rcases hr with rfl | rfl | rfl | rfl <;> rfl
  · simp [sample, Mergeable, rows]
  · simp [sample, rows]

/-- The representation of a column lists every label once, with its share of all votes cast over all batches and merged
profiles. Shares lie between 0 and 1, and add up to 1 as soon as one vote was cast. -/
theorem C38_representation_partial (ho : Rearranges order) (hn : labels.Nodup) (hp : Picks pick) (h : History)
    (hv : Valid labels h) (hm : Mergeable h) :
    ∃ c, run order labels pick h = .ok c ∧
      (rows h = [] → representation labels c = none) ∧
      (rows h ≠ [] → ∃ rep, representation labels c = some rep ∧ PyDict.keys rep = labels ∧
        (∀ i l, labels[i]? = some l → PyDict.get? rep l = some (share pick h i)) ∧
        (∀ l x, PyDict.get? rep l = some x → 0 ≤ x ∧ x ≤ 1) ∧
        (PyDict.values rep).sum = if cast h = 0 then 0 else 1) := by
  obtain ⟨c, hc, hi⟩ := (run_inv (pick := pick) ho hn h hv).1 hm
  have htot := inv_total hn hp hv hi
  refine ⟨c, hc, fun he => ?_, fun he => ?_⟩
  · exact if_pos (by rw [hi.size, he]; rfl)
  · have hshare : ∀ i l, labels[i]? = some l →
        ((PyDict.getD (c.rankDist labels) l 0 : ℕ) : ℚ) / (max 1 (PyDict.values (c.rankDist labels)).sum : ℕ) =
          share pick h i := by
      intro i l hil
      have h1 : PyDict.getD (c.rankDist labels) l 0 = votes pick h i := hi.count i l hil
      rw [htot, h1]
      show _ = (votes pick h i : ℚ) / (LabelsSpec.cast h : ℚ)
      by_cases h0 : LabelsSpec.cast h = 0
      · have hle : PyDict.getD (c.rankDist labels) l 0 ≤ (PyDict.values (c.rankDist labels)).sum := by
          have hmem : l ∈ PyDict.keys (c.rankDist labels) := (hi.keys l).2 (List.mem_of_getElem? hil)
          rw [values_sum hi.wf]
          exact List.le_sum_of_mem (List.mem_map.2 ⟨l, hmem, rfl⟩)
        rw [h1, htot] at hle
        have h00 : votes pick h i = 0 := by
          unfold LabelsSpec.cast at h0
          omega
        rw [h00]; simp
      · have : max 1 (LabelsSpec.cast h) = LabelsSpec.cast h := by omega
        unfold LabelsSpec.cast at this ⊢
        rw [this]
    have hsum : (((List.range labels.length).map fun i => votes pick h i).sum : ℕ) = LabelsSpec.cast h :=
      sum_countP (rows h) (fun i row => decide (VotesFor pick i row)) _ _ fun row hrow => by
        rw [← hv row hrow]; exact sum_votesFor hp row
    have hget : ∀ i l, labels[i]? = some l → PyDict.get? (labels.map fun l =>
        (l, ((PyDict.getD (c.rankDist labels) l 0 : ℕ) : ℚ) / (max 1 (PyDict.values (c.rankDist labels)).sum : ℕ))) l =
          some (share pick h i) := by
      intro i l hil
      rw [get?_table, if_pos (List.mem_of_getElem? hil), hshare i l hil]
    refine ⟨_, if_neg (by rw [hi.size]; simpa using he), keys_zeros _ _, hget, ?_, ?_⟩
    · intro l x hx
      rw [get?_table] at hx
      split_ifs at hx with hl
      obtain ⟨i, hil⟩ := List.mem_iff_getElem?.1 hl
      rw [hshare i l hil] at hx
      obtain rfl := Option.some.inj hx
      refine ⟨div_nonneg (Nat.cast_nonneg _) (Nat.cast_nonneg _), div_le_one_of_le₀ ?_ (Nat.cast_nonneg _)⟩
      rw [Nat.cast_le, ← hsum]
      refine List.le_sum_of_mem (List.mem_map.2 ⟨i, ?_, rfl⟩)
      rw [List.mem_range]
      exact (List.getElem?_eq_some_iff.1 hil).1
    · have hvals : PyDict.values (labels.map fun l => (l, ((PyDict.getD (c.rankDist labels) l 0 : ℕ) : ℚ) /
          (max 1 (PyDict.values (c.rankDist labels)).sum : ℕ))) =
          (List.range labels.length).map fun i => share pick h i := by
        rw [← map_labels hshare]
        simp [PyDict.values, Function.comp_def]
      have hdiv : ∀ (l : List ℕ), (l.map fun i => share pick h i).sum =
          (((l.map fun i => votes pick h i).sum : ℕ) : ℚ) / (LabelsSpec.cast h : ℚ) := by
        intro l
        induction l with
        | nil => simp
        | cons a as ih =>
          rw [List.map_cons, List.sum_cons, ih, List.map_cons, List.sum_cons, Nat.cast_add, add_div]
          rfl
      rw [hvals, hdiv, hsum]
      split_ifs with h0
      · rw [h0]; simp
      · exact div_self (Nat.cast_ne_zero.2 h0)

example : (run id ["A", "B", "C"] firstMax sample).map (representation ["A", "B", "C"]) =
    .ok (some [("A", 2 / 3), ("B", 1 / 3), ("C", 0)]) := by decide +kernel

/-- The average prediction of a label is the mean of its confidences over all values seen. -/
theorem C38_average_partial (ho : Rearranges order) (hn : labels.Nodup) (h : History) (hv : Valid labels h)
    (hm : Mergeable h) :
    ∃ c, run order labels pick h = .ok c ∧
      (rows h = [] → average labels c = none) ∧
      (rows h ≠ [] → ∃ avg, average labels c = some avg ∧ PyDict.keys avg = labels ∧
        ∀ i l, labels[i]? = some l → PyDict.get? avg l = some (mean h i)) := by
  obtain ⟨c, hc, hi⟩ := (run_inv (pick := pick) ho hn h hv).1 hm
  refine ⟨c, hc, fun he => ?_, fun he => ?_⟩
  · exact if_pos (by rw [hi.size, he]; rfl)
  · have hlen : ((c.sumPreds labels).map (· / (c.sampleSize : ℚ))).length = labels.length := by simp [hi.len]
    have hkeys : PyDict.keys (List.zip labels ((c.sumPreds labels).map (· / (c.sampleSize : ℚ)))) = labels := by
      unfold PyDict.keys
      exact List.map_fst_zip hlen.ge
    refine ⟨_, if_neg (by rw [hi.size]; simpa using he), hkeys, fun i l hil => ?_⟩
    have hlt := (List.getElem?_eq_some_iff.1 hil).1
    rw [← PyDict.mem_iff_get? (by rw [PyDict.WF, hkeys]; exact hn)]
    refine List.mem_iff_getElem?.2 ⟨i, ?_⟩
    rw [List.getElem?_zip_eq_some]
    refine ⟨hil, ?_⟩
    have hs := hi.sum i
    rw [List.getD_eq_getElem?_getD, List.getElem?_eq_getElem (hi.len ▸ hlt)] at hs
    rw [List.getElem?_map, List.getElem?_eq_getElem (hi.len ▸ hlt)]
    simp only [Option.map_some, Option.getD_some] at hs ⊢
    rw [hs, hi.size]
    rfl

example : (run id ["A", "B", "C"] firstMax sample).map (average ["A", "B", "C"]) =
    .ok (some [("A", 3 / 8), ("B", 7 / 20), ("C", 1 / 10)]) := by decide +kernel

open scoped Classical in
/-- However ties are broken, a label gets at least the votes of the values for which it is the only most likely label, and
at most those for which it is a most likely label, always with a confidence above 0.20. -/
theorem C38_votes (hp : Picks pick) (h : History) (i : ℕ) :
    ((rows h).countP fun row => decide (∃ p, row[i]? = some p ∧ 1 / 5 < p ∧ ∀ j q, row[j]? = some q → j ≠ i → q < p)) ≤
        votes pick h i ∧
      votes pick h i ≤ (rows h).countP fun row => decide (∃ p, row[i]? = some p ∧ 1 / 5 < p ∧ ∀ q ∈ row, q ≤ p) := by
  constructor
  · refine List.countP_mono_left fun row _ hr => ?_
    obtain ⟨p, h1, h2, h3⟩ := of_decide_eq_true hr
    refine decide_eq_true ⟨?_, p, h1, h2⟩
    by_contra hne
    have hrow : row ≠ [] := by rintro rfl; simp at h1
    obtain ⟨t, t1, t2⟩ := hp row hrow
    exact absurd (h3 _ t t1 hne) (not_lt.2 (t2 p (List.mem_of_getElem? h1)))
  · refine List.countP_mono_left fun row _ hr => ?_
    obtain ⟨h1, p, h2, h3⟩ := of_decide_eq_true hr
    refine decide_eq_true ⟨p, h2, h3, ?_⟩
    have hrow : row ≠ [] := by rintro rfl; simp at h2
    obtain ⟨t, t1, t2⟩ := hp row hrow
    rw [h1, h2] at t1
    rw [Option.some.inj t1]
    exact t2

/-- The label of a column. Nothing without data. Undetermined exactly if every label has less than 35% of the votes.
Otherwise at most three different labels, in the order of falling votes and beginning with a label of most votes, all
within 20 points of the first one; a label is left out only if it is further away, or if there are three that have at
least as many votes. -/
theorem C38_data_label_partial (ho : Rearranges order) (hn : labels.Nodup) (hne : labels ≠ []) (hp : Picks pick)
    (h : History) (hv : Valid labels h) (hm : Mergeable h) :
    ∃ c, run order labels pick h = .ok c ∧
      (dataLabel labels c = none ↔ rows h = []) ∧
      (rows h ≠ [] → (dataLabel labels c = some .undetermined ↔ ∀ l ∈ labels, shareOf labels pick h l < 35 / 100)) ∧
      ∀ ls, dataLabel labels c = some (.labels ls) →
        ls.Nodup ∧ (∀ l ∈ ls, l ∈ labels) ∧ ls.length ≤ 3 ∧
          ls.Pairwise (fun l l' => votesOf labels pick h l' ≤ votesOf labels pick h l) ∧
          ∃ first rest, ls = first :: rest ∧
            (∀ l ∈ labels, votesOf labels pick h l ≤ votesOf labels pick h first) ∧
            (∀ l ∈ ls, shareOf labels pick h first - 20 / 100 ≤ shareOf labels pick h l) ∧
            ∀ l ∈ labels, l ∉ ls → shareOf labels pick h l < shareOf labels pick h first - 20 / 100 ∨
              (ls.length = 3 ∧ ∀ k ∈ ls, votesOf labels pick h l ≤ votesOf labels pick h k) := by
  obtain ⟨c, hc, hi⟩ := (run_inv (pick := pick) ho hn h hv).1 hm
  have htot : (PyDict.values (c.rankDist labels)).sum = LabelsSpec.cast h := inv_total hn hp hv hi
  have hperm := sortDesc_perm (c.rankDist labels)
  have hsorted := sortDesc_sorted (c.rankDist labels)
  have hidx : ∀ l ∈ labels, labels[labels.idxOf l]? = some l := fun l hl => List.getElem?_idxOf hl
  have hval : ∀ l ∈ labels, at0 (c.rankDist labels) l = votesOf labels pick h l := fun l hl => hi.count _ l (hidx l hl)
  have hpos : ∀ x ∈ sortDesc (c.rankDist labels), x.1 ∈ labels ∧ x.2 = votesOf labels pick h x.1 := by
    intro x hx
    have hx' := hperm.mem_iff.1 hx
    have hk : x.1 ∈ labels := (hi.keys _).1 (List.mem_map.2 ⟨x, hx', rfl⟩)
    have := hval _ hk
    rw [at0, PyDict.getD, (PyDict.mem_iff_get? hi.wf x.1 x.2).1 hx'] at this
    exact ⟨hk, this⟩
  have hall : ∀ l ∈ labels, (l, votesOf labels pick h l) ∈ sortDesc (c.rankDist labels) := by
    intro l hl
    refine hperm.mem_iff.2 ((PyDict.mem_iff_get? hi.wf _ _).2 ?_)
    obtain ⟨v, hv'⟩ := (PyDict.mem_keys_iff _ _).1 ((hi.keys l).2 hl)
    have := hval l hl
    rw [at0, PyDict.getD, hv'] at this
    rw [hv']
    exact congrArg some this
  have hnd : ((sortDesc (c.rankDist labels)).map (·.1)).Nodup := (hperm.map _).nodup_iff.2 hi.wf
  have hle : ∀ l, votesOf labels pick h l ≤ LabelsSpec.cast h := by
    intro l
    refine List.countP_mono_left fun row _ hr => ?_
    obtain ⟨_, p, h2, h3⟩ := of_decide_eq_true hr
    exact List.any_eq_true.2 ⟨p, List.mem_of_getElem? h2, decide_eq_true h3⟩
  have hmono : ∀ l l', votesOf labels pick h l ≤ votesOf labels pick h l' →
      shareOf labels pick h l ≤ shareOf labels pick h l' := fun l l' hl =>
    div_le_div_of_nonneg_right (Nat.cast_le.2 hl) (Nat.cast_nonneg _)
  refine ⟨c, hc, ?_⟩
  -- the sorted list is not empty
  obtain ⟨l0, hl0⟩ := List.exists_mem_of_ne_nil _ hne
  obtain ⟨top, rest, hs⟩ := List.exists_cons_of_ne_nil (List.ne_nil_of_mem (hall l0 hl0))
  have htake : (sortDesc (c.rankDist labels)).take 3 = top :: rest.take 2 := by rw [hs]; rfl
  have htop := hpos top (by rw [hs]; exact List.mem_cons_self)
  have htopmax : ∀ l ∈ labels, votesOf labels pick h l ≤ votesOf labels pick h top.1 := by
    intro l hl
    have hm' := hall l hl
    rw [hs] at hm' hsorted
    rw [← htop.2]
    rcases List.mem_cons.1 hm' with hm' | hm'
    · rw [← hm']
    · exact (List.pairwise_cons.1 hsorted).1 _ hm'
  have hshare : ∀ x ∈ sortDesc (c.rankDist labels), (x.2 : ℚ) / ((PyDict.values (c.rankDist labels)).sum : ℕ) =
      shareOf labels pick h x.1 := by
    intro x hx
    rw [htot, (hpos x hx).2]; rfl
  have htopshare : (top.2 : ℚ) / (max 1 (PyDict.values (c.rankDist labels)).sum : ℕ) = shareOf labels pick h top.1 := by
    rw [htot, htop.2]
    show _ = (votesOf labels pick h top.1 : ℚ) / (LabelsSpec.cast h : ℚ)
    by_cases h0 : LabelsSpec.cast h = 0
    · have h00 : votesOf labels pick h top.1 = 0 := Nat.le_zero.1 ((hle top.1).trans h0.le)
      rw [h00]; simp
    · rw [Nat.max_eq_right (Nat.one_le_iff_ne_zero.2 h0)]
  have hstep : dataLabel labels c = if c.sampleSize = 0 then none else
      if shareOf labels pick h top.1 < 35 / 100 then some .undetermined
      else some (.labels ((((sortDesc (c.rankDist labels)).take 3).filter fun x =>
        decide (-(1 / 5 : ℚ) ≤ (x.2 : ℚ) / ((PyDict.values (c.rankDist labels)).sum : ℕ) -
          (top.2 : ℚ) / ((PyDict.values (c.rankDist labels)).sum : ℕ))).map (·.1))) := by
    unfold dataLabel
    simp only [htake, htopshare]
  have hsize : c.sampleSize = 0 ↔ rows h = [] := by rw [hi.size, List.length_eq_zero_iff]
  by_cases hr : rows h = []
  · rw [hstep, if_pos (hsize.2 hr)]
    exact ⟨by simp [hr], fun h' => absurd hr h', fun ls h' => nomatch h'⟩
  rw [if_neg (fun h' => hr (hsize.1 h'))] at hstep
  have hund : shareOf labels pick h top.1 < 35 / 100 ↔ ∀ l ∈ labels, shareOf labels pick h l < 35 / 100 :=
    ⟨fun h' l hl => (hmono _ _ (htopmax l hl)).trans_lt h', fun h' => h' _ htop.1⟩
  by_cases hu : shareOf labels pick h top.1 < 35 / 100
  · rw [hstep, if_pos hu]
    refine ⟨by simp [hr], fun _ => by simpa using hund.1 hu, fun ls h' => ?_⟩
    cases h'
  rw [if_neg hu] at hstep
  rw [hstep]
  refine ⟨by simp [hr], fun _ => ?_, fun ls hls => ?_⟩
  · rw [← hund]
    exact ⟨(fun h' => nomatch h'), fun h' => absurd h' hu⟩
  injection hls with hls
  injection hls with hls
  set p : String × ℕ → Bool := fun x => decide (-(1 / 5 : ℚ) ≤ (x.2 : ℚ) / ((PyDict.values (c.rankDist labels)).sum : ℕ) -
          (top.2 : ℚ) / ((PyDict.values (c.rankDist labels)).sum : ℕ)) with hpdef
  have hpiff : ∀ x ∈ sortDesc (c.rankDist labels), (p x = true ↔
      shareOf labels pick h top.1 - 20 / 100 ≤ shareOf labels pick h x.1) := by
    intro x hx
    rw [hpdef, decide_eq_true_iff, hshare x hx, hshare top (by rw [hs]; exact List.mem_cons_self)]
    constructor <;> intro h' <;> linarith
  have hsub : ((sortDesc (c.rankDist labels)).take 3).filter p |>.Sublist (sortDesc (c.rankDist labels)) :=
    List.filter_sublist.trans (List.take_sublist _ _)
  have hmem : ∀ x ∈ ((sortDesc (c.rankDist labels)).take 3).filter p, x ∈ sortDesc (c.rankDist labels) :=
    fun x hx => hsub.subset hx
  have hlen : (((sortDesc (c.rankDist labels)).take 3).filter p).length ≤ 3 :=
    (List.length_filter_le _ _).trans (List.length_take_le _ _)
  subst hls
  refine ⟨hnd.sublist (hsub.map _), ?_, by simpa using hlen, ?_, ?_⟩
  · intro l hl
    obtain ⟨x, hx, rfl⟩ := List.mem_map.1 hl
    exact (hpos x (hmem x hx)).1
  · rw [List.pairwise_map]
    refine List.Pairwise.imp_of_mem (fun {a b} ha hb hab => ?_) (hsorted.sublist hsub)
    rw [← (hpos a (hmem a ha)).2, ← (hpos b (hmem b hb)).2]
    exact hab
  · have hptop : p top = true := by
      rw [hpiff top (by rw [hs]; exact List.mem_cons_self)]
      linarith
    refine ⟨top.1, ((rest.take 2).filter p).map (·.1), ?_, htopmax, ?_, ?_⟩
    · rw [htake, List.filter_cons_of_pos hptop, List.map_cons]
    · intro l hl
      obtain ⟨x, hx, rfl⟩ := List.mem_map.1 hl
      exact (hpiff x (hmem x hx)).1 (List.mem_filter.1 hx).2
    · intro l hl hnot
      have hin := hall l hl
      rw [← List.take_append_drop 3 (sortDesc (c.rankDist labels))] at hin
      rcases List.mem_append.1 hin with hin | hin
      · left
        by_contra hcon
        refine hnot (List.mem_map.2 ⟨_, List.mem_filter.2 ⟨hin, ?_⟩, rfl⟩)
        rw [hpiff _ (hall l hl)]
        exact not_lt.1 hcon
      · have hbelow : ∀ x ∈ (sortDesc (c.rankDist labels)).take 3, votesOf labels pick h l ≤ x.2 := by
          intro x hx
          rw [← List.take_append_drop 3 (sortDesc (c.rankDist labels)), List.pairwise_append] at hsorted
          exact hsorted.2.2 x hx _ hin
        have h3 : ((sortDesc (c.rankDist labels)).take 3).length = 3 := by
          rw [List.length_take]
          have := List.length_pos_of_mem hin
          rw [List.length_drop] at this
          omega
        by_cases hfull : ∀ x ∈ (sortDesc (c.rankDist labels)).take 3, p x = true
        · right
          refine ⟨by rw [List.length_map, List.filter_eq_self.2 hfull, h3], fun k hk => ?_⟩
          obtain ⟨x, hx, rfl⟩ := List.mem_map.1 hk
          rw [← (hpos x (hmem x hx)).2]
          exact hbelow x (List.mem_filter.1 hx).1
        · left
          obtain ⟨x, hx⟩ := not_forall.1 hfull
          rw [Classical.not_imp] at hx
          have hxs := List.mem_of_mem_take hx.1
          rw [hpiff x hxs, not_le] at hx
          refine lt_of_le_of_lt (hmono _ _ ?_) hx.2
          rw [← (hpos x hxs).2]
          exact hbelow x hx.1

example : (run id ["A", "B", "C"] firstMax sample).map (dataLabel ["A", "B", "C"]) = .ok (some (.labels ["A"])) := by
  decide +kernel

/-- With equal votes all are reported. -/
example : (run id ["A", "B", "C"] firstMax (.update .new [[7 / 10, 2 / 10, 1 / 10], [1 / 10, 8 / 10, 1 / 10]])).map
    (dataLabel ["A", "B", "C"]) = .ok (some (.labels ["A", "B"])) := by decide +kernel

/-- Without votes the label is undetermined. -/
example : (run id ["A", "B", "C"] firstMax (.update .new [[1 / 10, 2 / 10, 1 / 10]])).map
    (dataLabel ["A", "B", "C"]) = .ok (some .undetermined) := by decide +kernel

end Verif.LabelsProps
