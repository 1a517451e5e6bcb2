import Verif.Lemmas.ClassReport

/-!
# Evaluation of predictions (C62)
-/

namespace Verif.ClassReport

open Verif Verif.Spec.ClassReport

/-- The confusion matrix is built exactly if there are as many predictions as labels and none beyond the number of labels; its
places count the positions with that true and predicted label, for any number of batches. -/
theorem C62_confusion (n : ℕ) (ts ps : List ℕ) (hne : ts ≠ []) :
    ((∃ C, confusion n ts ps = .ok C) ↔ ts.length = ps.length ∧ (∀ t ∈ ts, t < n) ∧ ∀ p ∈ ps, p < n) ∧
    ∀ C, confusion n ts ps = .ok C → ∀ i j, C i j = hits ts ps i j :=
  confusion_iff n ts ps hne

example : ((confusion 2 [0, 1, 1] [0, 1, 0]).toOption.map fun C => (C 1 0, C 1 1)) = some (1, 1) := by decide +kernel

/-- Nothing to evaluate raises. -/
theorem C62_confusion_empty (n : ℕ) (ps : List ℕ) : confusion n [] ps = .error .zeroDivision := rfl

/-- What the true labels and predictions must be, given a report. -/
theorem C62_ok (n : ℕ) (rev : PyDict ℕ String) (omitted : List String) (p : List ℕ) (preds trues : List (List ℕ))
    (d : PyDict String Entry) (h : evaluate n rev omitted (p :: preds) trues = .ok d) :
    (∀ row ∈ trues, row.length ≤ p.length) ∧ trues.length * p.length = (p :: preds).flatten.length ∧
    (∀ row ∈ trues, ∀ t ∈ row, t < n) ∧ (∀ row ∈ p :: preds, ∀ t ∈ row, t < n) := by
  obtain ⟨C, h1, h2, -⟩ := evaluate_parts n rev omitted p preds trues d h
  have hne : (trues.map (pad p.length)).flatten ≠ [] := by
    intro h0; rw [h0] at h2; exact nomatch h2
  obtain ⟨k1, k2, k3⟩ := (confusion_iff n _ _ hne).1.1 ⟨C, h2⟩
  refine ⟨h1, ?_, fun row hrow t ht => k2 t ?_, fun row hrow t ht => k3 t (List.mem_flatten.mpr ⟨row, hrow, ht⟩)⟩
  · rw [← k1]
    clear k1 k2 k3 h2 h hne
    induction trues with
    | nil => simp
    | cons r trues ih =>
      rw [List.map_cons, List.flatten_cons, List.length_append, ← ih fun row hrow => h1 row (by simp [hrow])]
      have := h1 r (by simp)
      unfold pad
      rw [List.length_append, List.length_replicate, List.length_cons, Nat.succ_mul]
      omega
  · exact List.mem_flatten.mpr ⟨pad p.length row, List.mem_map_of_mem hrow, List.mem_append_left _ ht⟩

/-- Precision, recall and F-score of every label that is not omitted, and the number of its occurrences. -/
theorem C62_rows_partial (n : ℕ) (rev : PyDict ℕ String) (omitted : List String) (p : List ℕ) (preds trues : List (List ℕ))
    (d : PyDict String Entry) (h : evaluate n rev omitted (p :: preds) trues = .ok d) (hnames : (rev.map (·.2)).Nodup)
    (i : ℕ) (name : String) (hi : (i, name) ∈ rev) (ho : name ∉ omitted)
    (hres : name ∉ ["accuracy", "micro avg", "macro avg", "weighted avg"]) (ts ps : List ℕ)
    (hts : ts = (trues.map (pad p.length)).flatten) (hps : ps = (p :: preds).flatten) :
    PyDict.get? d name = some (.row (some (precision ts ps i)) (some (recall ts ps i)) (some (f1 ts ps i)) (occ i ts)) := by
  obtain ⟨C, -, h2, h3⟩ := evaluate_parts n rev omitted p preds trues d h
  rw [← hts, ← hps] at h2
  have hne : ts ≠ [] := by rintro rfl; exact nomatch h2
  obtain ⟨k1, k2, k3⟩ := (confusion_iff n ts ps hne).1.1 ⟨C, h2⟩
  have hC := counts_of n ts ps C ((confusion_iff n ts ps hne).2 C h2) k1 k2 k3
  obtain ⟨-, g2, g3, -⟩ := finish_facts n C _ d h3
  have hmem : (i, name) ∈ listed rev omitted := (listed_mem rev omitted _).2 ⟨hi, ho⟩
  rw [g3 name (by intro hc; apply hres; unfold averages at hc; simp only [List.mem_cons, List.not_mem_nil, or_false] at hc ⊢; tauto),
    labelRows_eq _ _ _ (listed_names rev omitted hnames)]
  refine PyDict.get?_of_mem ?_ ?_
  · unfold PyDict.WF PyDict.keys
    rw [List.map_map]
    exact listed_names rev omitted hnames
  · refine List.mem_map.mpr ⟨(i, name), hmem, ?_⟩
    dsimp only
    rw [scores_eq hC i (g2 _ hmem), hC.supp]
    rfl

example : (evaluate 3 [(0, "PAD"), (1, "a"), (2, "b")] ["PAD"] [[1, 2, 2], [1, 1, 0]] [[1, 2, 1], [1, 2]]).toOption.map
    (fun d => (PyDict.get? d "a", PyDict.get? d "macro avg")) = some (some (.row (some (2/3)) (some (2/3)) (some (2/3)) 3),
      some (.row (some (7/12)) (some (7/12)) (some (7/12)) 5)) := by decide +kernel

/-- Scores lie between zero and one, and the F-score between precision and recall. -/
theorem C62_bounds (ts ps : List ℕ) (i : ℕ) :
    0 ≤ precision ts ps i ∧ precision ts ps i ≤ 1 ∧ 0 ≤ recall ts ps i ∧ recall ts ps i ≤ 1 ∧
    min (precision ts ps i) (recall ts ps i) ≤ f1 ts ps i ∧ f1 ts ps i ≤ max (precision ts ps i) (recall ts ps i) :=
  ⟨share_nonneg _ _, share_le_one (hits_le_right _ _ _ _), share_nonneg _ _, share_le_one (hits_le_left _ _ _ _),
    (harm_bounds _ _ (share_nonneg _ _) (share_nonneg _ _)).1, (harm_bounds _ _ (share_nonneg _ _) (share_nonneg _ _)).2⟩

/-- The macro averages, and the score returned, are means over the labels that occur; undefined if none does. -/
theorem C62_macro_partial (n : ℕ) (rev : PyDict ℕ String) (omitted : List String) (p : List ℕ) (preds trues : List (List ℕ))
    (d : PyDict String Entry) (h : evaluate n rev omitted (p :: preds) trues = .ok d) (hwf : PyDict.WF rev)
    (hnames : (rev.map (·.2)).Nodup) (hres : ∀ x ∈ rev, x.2 ∉ ["accuracy", "micro avg", "macro avg", "weighted avg"]) (ts ps : List ℕ)
    (hts : ts = (trues.map (pad p.length)).flatten) (hps : ps = (p :: preds).flatten) (ids : List ℕ) (hnd : ids.Nodup)
    (hids : ∀ i, i ∈ ids ↔ 0 < occ i ts ∧ ∃ name, (i, name) ∈ rev ∧ name ∉ omitted) :
    ∃ s, PyDict.get? d "macro avg" = some (if ids = [] then .row none none none s else
      .row (some (meanOf (ids.map (precision ts ps)))) (some (meanOf (ids.map (recall ts ps)))) (some (meanOf (ids.map (f1 ts ps)))) s) := by
  obtain ⟨C, -, h2, h3⟩ := evaluate_parts n rev omitted p preds trues d h
  rw [← hts, ← hps] at h2
  have hne : ts ≠ [] := by rintro rfl; exact nomatch h2
  obtain ⟨k1, k2, k3⟩ := (confusion_iff n ts ps hne).1.1 ⟨C, h2⟩
  have hC := counts_of n ts ps C ((confusion_iff n ts ps hne).2 C h2) k1 k2 k3
  obtain ⟨g1, g2, -, g4, -⟩ := finish_facts n C _ d h3
  obtain ⟨ls, hls⟩ : ∃ ls, ls = listed rev omitted := ⟨_, rfl⟩
  rw [← hls] at g1 g2 g4
  have hlres : ∀ x ∈ ls, x.2 ∉ averages := by
    intro x hx hc
    rw [hls, listed_mem] at hx
    refine hres x hx.1 ?_
    unfold averages at hc
    simp only [List.mem_cons, List.not_mem_nil, or_false] at hc ⊢
    tauto
  have hpos : positive (labelRows n C (ls.map (·.1)) (ls.map (·.2))) = (ls.filter fun x => 0 < occ x.1 ts).length := by
    rw [labelRows_eq _ _ _ (by rw [hls]; exact listed_names rev omitted hnames)]
    unfold positive
    rw [List.filter_map, List.length_map]
    congr 1
    refine List.filter_congr fun x hx => ?_
    have := hlres x hx
    simp [entryOf, hasSupport, hC.supp, this, Nat.pos_iff_ne_zero]
  have hperm : ((ls.filter fun x => 0 < occ x.1 ts).map (·.1)).Perm ids := by
    refine (List.perm_ext_iff_of_nodup ?_ hnd).mpr fun i => ?_
    · refine List.Nodup.sublist (List.Sublist.map _ List.filter_sublist) ?_
      rw [hls]; exact listed_ids rev omitted hwf
    · rw [hids, List.mem_map]
      constructor
      · rintro ⟨x, hx, rfl⟩
        rw [List.mem_filter, hls, listed_mem] at hx
        exact ⟨by simpa using hx.2, x.2, hx.1.1, hx.1.2⟩
      · rintro ⟨ho, name, hm, hn⟩
        exact ⟨(i, name), by rw [List.mem_filter, hls, listed_mem]; exact ⟨⟨hm, hn⟩, by simpa using ho⟩, rfl⟩
  rw [hpos] at g4
  refine ⟨(ls.map fun x => support n C x.1).sum, g4.trans ?_⟩
  congr 1
  have hlen : (ls.filter fun x => 0 < occ x.1 ts).length = ids.length := by
    have := hperm.length_eq
    rwa [List.length_map] at this
  rw [hlen]
  have hkey : ∀ (f : ℕ → ℚ), (∀ x ∈ ls, occ x.1 ts = 0 → f x.1 = 0) → ids ≠ [] →
      ((ls.map fun x => f x.1).sum / ((ls.length : ℕ) : ℚ)) * ((ls.length : ℚ) / (ids.length : ℚ)) = meanOf (ids.map f) := by
    intro f hf hidne
    have hsum : (ls.map fun x => f x.1).sum = (ids.map f).sum := by
      rw [← (hperm.map f).sum_eq, List.map_map]
      clear hperm hpos g1 g2 g4 hlres hlen hls
      induction ls with
      | nil => rfl
      | cons x ls ih =>
        rw [List.map_cons, List.sum_cons, ih fun y hy => hf y (by simp [hy]), List.filter_cons]
        split_ifs with ho
        · rfl
        · rw [hf x (by simp) (by simpa using ho), zero_add]
    have h1 : ((ls.length : ℕ) : ℚ) ≠ 0 := by
      have := List.length_pos_iff.mpr g1
      exact_mod_cast Nat.pos_iff_ne_zero.mp this
    have h2 : ((ids.length : ℕ) : ℚ) ≠ 0 := by
      have := List.length_pos_iff.mpr hidne
      exact_mod_cast Nat.pos_iff_ne_zero.mp this
    unfold meanOf
    rw [hsum, List.length_map]
    field_simp
  have hz : ∀ i, occ i ts = 0 → hits ts ps i i = 0 := fun i ho => by
    have := hits_le_left ts ps i i
    omega
  have hsh : ∀ b, share 0 b = 0 := by intro b; unfold share; split_ifs <;> simp
  have hp0 : ∀ x ∈ ls, occ x.1 ts = 0 → precision ts ps x.1 = 0 := fun x _ ho => by
    unfold precision; rw [hz _ ho, hsh]
  have hr0 : ∀ x ∈ ls, occ x.1 ts = 0 → recall ts ps x.1 = 0 := fun x _ ho => by
    unfold recall; rw [hz _ ho, hsh]
  have hf0 : ∀ x ∈ ls, occ x.1 ts = 0 → f1 ts ps x.1 = 0 := fun x hx ho => by
    unfold f1; rw [hp0 x hx ho, hr0 x hx ho]; unfold harm; simp
  have hm1 : (ls.map (·.1)).map (fun i => (scores n C i).1) = ls.map fun x => precision ts ps x.1 := by
    rw [List.map_map]
    exact List.map_congr_left fun x hx => by rw [Function.comp_apply, scores_eq hC _ (g2 x hx)]
  have hm2 : (ls.map (·.1)).map (fun i => (scores n C i).2.1) = ls.map fun x => recall ts ps x.1 := by
    rw [List.map_map]
    exact List.map_congr_left fun x hx => by rw [Function.comp_apply, scores_eq hC _ (g2 x hx)]
  have hm3 : (ls.map (·.1)).map (fun i => (scores n C i).2.2) = ls.map fun x => f1 ts ps x.1 := by
    rw [List.map_map]
    exact List.map_congr_left fun x hx => by rw [Function.comp_apply, scores_eq hC _ (g2 x hx)]
  unfold entryOf adjustEntry macroAvg adjust ClassReport.mean
  dsimp only
  rw [hm1, hm2, hm3]
  by_cases hidne : ids = []
  · subst hidne
    simp
  · have hid0 : ids.length ≠ 0 := by
      intro h0; exact hidne (List.length_eq_zero_iff.mp h0)
    have hl0 : ls.length ≠ 0 := by
      intro h0; exact g1 (List.length_eq_zero_iff.mp h0)
    simp only [if_neg hid0, if_neg hl0, if_neg hidne, Option.map_some, List.length_map]
    rw [hkey _ hp0 hidne, hkey _ hr0 hidne, hkey _ hf0 hidne]

/-- If all labels are listed, the accuracy is the share of right predictions. -/
theorem C62_accuracy (n : ℕ) (rev : PyDict ℕ String) (omitted : List String) (p : List ℕ) (preds trues : List (List ℕ))
    (d : PyDict String Entry) (h : evaluate n rev omitted (p :: preds) trues = .ok d) (hwf : PyDict.WF rev)
    (hall : ∀ i < n, ∃ name, (i, name) ∈ rev ∧ name ∉ omitted) (ts ps : List ℕ)
    (hts : ts = (trues.map (pad p.length)).flatten) (hps : ps = (p :: preds).flatten) :
    PyDict.get? d "accuracy" = some (.num (share (right ts ps) ts.length)) := by
  obtain ⟨C, -, h2, h3⟩ := evaluate_parts n rev omitted p preds trues d h
  rw [← hts, ← hps] at h2
  have hne : ts ≠ [] := by rintro rfl; exact nomatch h2
  obtain ⟨k1, k2, k3⟩ := (confusion_iff n ts ps hne).1.1 ⟨C, h2⟩
  have hC := counts_of n ts ps C ((confusion_iff n ts ps hne).2 C h2) k1 k2 k3
  obtain ⟨-, g2, -, -, -, g6, -⟩ := finish_facts n C _ d h3
  rw [g6 fun i hi => by
    obtain ⟨name, hm, ho⟩ := hall i hi
    exact ⟨(i, name), (listed_mem rev omitted _).2 ⟨hm, ho⟩, rfl⟩]
  have hperm : ((listed rev omitted).map (·.1)).Perm (List.range n) := by
    refine (List.perm_ext_iff_of_nodup (listed_ids rev omitted hwf) List.nodup_range).mpr fun i => ?_
    rw [List.mem_range, List.mem_map]
    constructor
    · rintro ⟨x, hx, rfl⟩; exact g2 x hx
    · intro hi
      obtain ⟨name, hm, ho⟩ := hall i hi
      exact ⟨(i, name), (listed_mem rev omitted _).2 ⟨hm, ho⟩, rfl⟩
  unfold micro
  dsimp only
  rw [(hperm.map (tp n C)).sum_eq, (hperm.map _).sum_eq, divide_eq]
  have e1 : (List.range n).map (tp n C) = (List.range n).map fun j => hits ts ps j j :=
    List.map_congr_left fun j hj => hC.tp j (List.mem_range.mp hj)
  have e2 : (List.range n).map (fun i => tp n C i + fp n C i) = (List.range n).map fun j => occ j ps :=
    List.map_congr_left fun j _ => hC.pred j
  rw [e1, e2, diag_sum n ts ps k2, occ_sum n ps k3, ← k1]

/-- If labels are omitted, the micro averages are shares among the others. -/
theorem C62_micro (n : ℕ) (rev : PyDict ℕ String) (omitted : List String) (p : List ℕ) (preds trues : List (List ℕ))
    (d : PyDict String Entry) (h : evaluate n rev omitted (p :: preds) trues = .ok d) (hwf : PyDict.WF rev)
    (ids : List ℕ) (hnd : ids.Nodup) (hids : ∀ i, i ∈ ids ↔ ∃ name, (i, name) ∈ rev ∧ name ∉ omitted)
    (hnot : ¬ ∀ i < n, i ∈ ids) (ts ps : List ℕ)
    (hts : ts = (trues.map (pad p.length)).flatten) (hps : ps = (p :: preds).flatten) :
    ∃ r f s, PyDict.get? d "micro avg" = some (.row (some (share (ids.map fun i => hits ts ps i i).sum (ids.map fun i => occ i ps).sum))
      (some r) (some f) s) ∧ r = share (ids.map fun i => hits ts ps i i).sum s ∧ s = (ids.map fun i => occ i ts).sum ∧
      f = harm (share (ids.map fun i => hits ts ps i i).sum (ids.map fun i => occ i ps).sum) r := by
  obtain ⟨C, -, h2, h3⟩ := evaluate_parts n rev omitted p preds trues d h
  rw [← hts, ← hps] at h2
  have hne : ts ≠ [] := by rintro rfl; exact nomatch h2
  obtain ⟨k1, k2, k3⟩ := (confusion_iff n ts ps hne).1.1 ⟨C, h2⟩
  have hC := counts_of n ts ps C ((confusion_iff n ts ps hne).2 C h2) k1 k2 k3
  obtain ⟨-, g2, -, -, -, -, g7⟩ := finish_facts n C _ d h3
  have hperm := listed_perm rev omitted hwf ids hnd hids
  have hlt : ∀ i ∈ ids, i < n := by
    intro i hi
    obtain ⟨x, hx, rfl⟩ := List.mem_map.mp (hperm.mem_iff.mpr hi)
    exact g2 x hx
  have hg := g7 fun hall => hnot fun i hi => by
    obtain ⟨x, hx, rfl⟩ := hall i hi
    exact hperm.mem_iff.mp (List.mem_map_of_mem hx)
  have e1 : (((listed rev omitted).map (·.1)).map (tp n C)).sum = (ids.map fun i => hits ts ps i i).sum := by
    rw [(hperm.map _).sum_eq]
    congr 1
    exact List.map_congr_left fun j hj => hC.tp j (hlt j hj)
  have e2 : (((listed rev omitted).map (·.1)).map fun i => tp n C i + fp n C i).sum = (ids.map fun i => occ i ps).sum := by
    rw [(hperm.map _).sum_eq]
    congr 1
    exact List.map_congr_left fun j _ => hC.pred j
  have e3 : (((listed rev omitted).map (·.1)).map (support n C)).sum = (ids.map fun i => occ i ts).sum := by
    rw [(hperm.map _).sum_eq]
    congr 1
    exact List.map_congr_left fun j _ => hC.supp j
  have e4 : ((listed rev omitted).map fun x => support n C x.1).sum = (ids.map fun i => occ i ts).sum := by
    rw [← e3, List.map_map]; rfl
  unfold micro at hg
  dsimp only at hg
  rw [e1, e2, e3, e4, divide_eq, divide_eq, fscore_eq _ _ (share_nonneg _ _) (share_nonneg _ _)] at hg
  exact ⟨_, _, _, hg, rfl, rfl, rfl⟩

/-- The weighted averages weigh every label that is not omitted by its occurrences; the weighted recall is the share found. -/
theorem C62_weighted (n : ℕ) (rev : PyDict ℕ String) (omitted : List String) (p : List ℕ) (preds trues : List (List ℕ))
    (d : PyDict String Entry) (h : evaluate n rev omitted (p :: preds) trues = .ok d) (hwf : PyDict.WF rev)
    (ids : List ℕ) (hnd : ids.Nodup) (hids : ∀ i, i ∈ ids ↔ ∃ name, (i, name) ∈ rev ∧ name ∉ omitted) (ts ps : List ℕ)
    (hts : ts = (trues.map (pad p.length)).flatten) (hps : ps = (p :: preds).flatten) :
    ∃ wp wr wf s, PyDict.get? d "weighted avg" = some (.row (some wp) (some wr) (some wf) s) ∧ s = (ids.map fun i => occ i ts).sum ∧
      (s : ℚ) * wp = (ids.map fun i => (occ i ts : ℚ) * precision ts ps i).sum ∧
      (s : ℚ) * wf = (ids.map fun i => (occ i ts : ℚ) * f1 ts ps i).sum ∧
      wr = share (ids.map fun i => hits ts ps i i).sum s ∧ (s = 0 → wp = 0 ∧ wf = 0) := by
  obtain ⟨C, -, h2, h3⟩ := evaluate_parts n rev omitted p preds trues d h
  rw [← hts, ← hps] at h2
  have hne : ts ≠ [] := by rintro rfl; exact nomatch h2
  obtain ⟨k1, k2, k3⟩ := (confusion_iff n ts ps hne).1.1 ⟨C, h2⟩
  have hC := counts_of n ts ps C ((confusion_iff n ts ps hne).2 C h2) k1 k2 k3
  obtain ⟨-, g2, -, -, g5, -⟩ := finish_facts n C _ d h3
  have hperm := listed_perm rev omitted hwf ids hnd hids
  obtain ⟨l, hl⟩ : ∃ l, l = (listed rev omitted).map (·.1) := ⟨_, rfl⟩
  have hlt : ∀ i ∈ l, i < n := by
    intro i hi
    rw [hl] at hi
    obtain ⟨x, hx, rfl⟩ := List.mem_map.mp hi
    exact g2 x hx
  have e4 : ((listed rev omitted).map fun x => support n C x.1).sum = (ids.map fun i => occ i ts).sum := by
    rw [← (hperm.map _).sum_eq, List.map_map]
    congr 1
    exact List.map_congr_left fun x _ => hC.supp x.1
  rw [← hl] at g5 hperm
  rw [e4] at g5
  have e3 : (l.map (support n C)).sum = (ids.map fun i => occ i ts).sum := by
    rw [(hperm.map _).sum_eq]
    congr 1
    exact List.map_congr_left fun j _ => hC.supp j
  obtain ⟨s, hs⟩ : ∃ s, s = (ids.map fun i => occ i ts).sum := ⟨_, rfl⟩
  rw [← hs] at g5 e3
  have hw : ∀ (g : ℚ × ℚ × ℚ → ℚ) (f : ℕ → ℚ), (∀ i ∈ l, g (scores n C i) = f i) →
      wmean (l.map (support n C)) (l.map fun i => g (scores n C i)) = (ids.map fun i => (occ i ts : ℚ) * f i).sum / (s : ℚ) := by
    intro g f hgf
    unfold wmean
    rw [e3, List.zip_map', List.map_map]
    congr 1
    rw [← (hperm.map _).sum_eq]
    congr 1
    refine List.map_congr_left fun i hi => ?_
    simp only [Function.comp_apply, hC.supp, hgf i hi]
  have hsc : ∀ i ∈ l, scores n C i = (precision ts ps i, recall ts ps i, f1 ts ps i) := fun i hi => scores_eq hC i (hlt i hi)
  have hsz : s = 0 → ∀ i ∈ ids, occ i ts = 0 := by
    intro h0 i hi
    rw [hs] at h0
    exact nat_sum_zero _ h0 _ (List.mem_map_of_mem hi)
  have hz : ∀ f : ℕ → ℚ, s = 0 → (ids.map fun i => (occ i ts : ℚ) * f i).sum = 0 := by
    intro f h0
    refine List.sum_eq_zero fun x hx => ?_
    obtain ⟨i, hi, rfl⟩ := List.mem_map.mp hx
    rw [hsz h0 i hi]
    simp
  unfold weighted at g5
  dsimp only at g5
  rw [e3] at g5
  split_ifs at g5 with h0
  · refine ⟨_, _, _, _, g5, hs, ?_, ?_, ?_, fun _ => ⟨rfl, rfl⟩⟩
    · rw [hz _ h0, mul_zero]
    · rw [hz _ h0, mul_zero]
    · unfold share; rw [if_pos h0]
  · have hs0 : (s : ℚ) ≠ 0 := by exact_mod_cast h0
    rw [hw (fun x => x.1) (precision ts ps) fun i hi => by rw [hsc i hi],
      hw (fun x => x.2.1) (recall ts ps) fun i hi => by rw [hsc i hi],
      hw (fun x => x.2.2) (f1 ts ps) fun i hi => by rw [hsc i hi]] at g5
    refine ⟨_, _, _, _, g5, hs, mul_div_cancel₀ _ hs0, mul_div_cancel₀ _ hs0, ?_, fun h => absurd h h0⟩
    unfold share
    rw [if_neg h0]
    show (ids.map fun i => (occ i ts : ℚ) * recall ts ps i).sum / (s : ℚ) = _
    rw [cast_sum, List.map_map]
    congr 2
    refine List.map_congr_left fun i _ => ?_
    rw [Function.comp_apply]
    unfold recall share
    split_ifs with ho
    · have := hits_le_left ts ps i i
      have h0 : hits ts ps i i = 0 := by omega
      rw [h0]; simp
    · have : (occ i ts : ℚ) ≠ 0 := by exact_mod_cast ho
      field_simp

/-- Zeros added to shorter rows count for no other label. -/
theorem C62_padding (w i j : ℕ) (hi : i ≠ 0) (trues preds : List (List ℕ)) (hl : trues.length = preds.length)
    (ht : ∀ row ∈ trues, row.length ≤ w) (hp : ∀ row ∈ preds, row.length = w) :
    hits (trues.map (pad w)).flatten preds.flatten i j = ((trues.zip preds).map fun x => hits x.1 x.2 i j).sum ∧
    occ i (trues.map (pad w)).flatten = (trues.map (occ i)).sum := by
  have happ : ∀ (a b c e : List ℕ), a.length = c.length → hits (a ++ b) (c ++ e) i j = hits a c i j + hits b e i j := by
    intro a
    induction a with
    | nil => intro b c e hl; cases c with
      | nil => simp [hits]
      | cons _ _ => simp at hl
    | cons x a ih =>
      intro b c e hl
      cases c with
      | nil => simp at hl
      | cons y c =>
        rw [List.cons_append, List.cons_append, hits, hits, ih b c e (by simpa using hl)]
        omega
  have hocc : ∀ a b : List ℕ, occ i (a ++ b) = occ i a + occ i b := by
    intro a b
    induction a with
    | nil => simp [occ]
    | cons x a ih => rw [List.cons_append, occ, occ, ih]; omega
  have hrep : ∀ k, occ i (List.replicate k 0) = 0 := by
    intro k
    induction k with
    | zero => rfl
    | succ k ih => rw [List.replicate_succ, occ, ih, if_neg (Ne.symm hi)]
  have hpadhit : ∀ (row q : List ℕ) (k : ℕ), hits (row ++ List.replicate k 0) q i j = hits row q i j := by
    intro row
    induction row with
    | nil =>
      intro q k
      have h1 := hits_le_left (List.replicate k 0) q i j
      rw [hrep] at h1
      simp only [List.nil_append, hits]
      omega
    | cons x row ih =>
      intro q k
      cases q with
      | nil => rfl
      | cons y q => rw [List.cons_append, hits, hits, ih]
  refine ⟨?_, ?_⟩
  · induction trues generalizing preds with
    | nil => cases preds with
      | nil => rfl
      | cons _ _ => simp at hl
    | cons t trues ih =>
      cases preds with
      | nil => simp at hl
      | cons q preds =>
        rw [List.map_cons, List.flatten_cons, List.flatten_cons, happ, ih preds (by simpa using hl)
          (fun r hr => ht r (by simp [hr])) (fun r hr => hp r (by simp [hr])), List.zip_cons_cons, List.map_cons, List.sum_cons]
        · congr 1
          exact hpadhit _ _ _
        · have := ht t (by simp)
          rw [hp q (by simp)]
          unfold pad
          rw [List.length_append, List.length_replicate]
          omega
  · clear hl hp
    induction trues with
    | nil => rfl
    | cons t trues ih =>
      rw [List.map_cons, List.flatten_cons, hocc, ih fun r hr => ht r (by simp [hr]), List.map_cons, List.sum_cons]
      congr 1
      unfold pad
      rw [hocc, hrep]
      rfl

/-- If label zero is a real one, the padding counts for it. -/
theorem C62_padding_fails : ∃ (rev : PyDict ℕ String) (preds trues : List (List ℕ)),
    (evaluate 2 rev [] preds trues).toOption.map (fun d => PyDict.get? d "a") = some (some (.row (some 1) (some (2/3)) (some (4/5)) 3)) ∧
    trues = [[0, 1], [0]] ∧ preds = [[0, 1], [0, 1]] ∧ rev = [(0, "a"), (1, "b")] :=
  ⟨_, _, _, by decide +kernel, rfl, rfl, rfl⟩

/-- Predictions of different lengths are compared with the wrong positions. -/
theorem C62_ragged_fails : ∃ (rev : PyDict ℕ String) (preds trues : List (List ℕ)), trues = preds ∧ preds = [[1, 2], [1], [2, 1, 2]] ∧
    (evaluate 3 rev [] preds [[1, 2], [1], [2, 1]]).toOption.map (fun d => PyDict.get? d "accuracy") = some (some (.num (1/2))) :=
  ⟨[(0, "P"), (1, "a"), (2, "b")], _, _, rfl, rfl, by decide +kernel⟩

/-- A label called like an average loses its row. -/
theorem C62_name_fails : ∃ rev : PyDict ℕ String, PyDict.get? rev 1 = some "accuracy" ∧
    (evaluate 2 rev [] [[0, 1, 1]] [[0, 1, 0]]).toOption.map (fun d => (d.length, PyDict.get? d "accuracy"))
      = some (4, some (.num (2/3))) :=
  ⟨[(0, "a"), (1, "accuracy")], by decide +kernel, by decide +kernel⟩

end Verif.ClassReport
