import Verif.Lemmas.BatchBins
import Verif.Props.HistColumn

/-!
# C76 and C75: the number of bins suggested for a batch of values

The estimates that `Model/HistColumn` takes as a parameter, as the code computes them, and what follows for the report of a column.
-/

namespace Verif.Props.BatchBins

open Verif Verif.BatchBins Verif.Spec.BinWidth Verif.Spec.BatchBins Verif.Lemmas.BatchBins
open Verif.Props.BinWidth (least_ceil one_le_cast two_pow_pred log_nonneg cbrt_pos rules)

/-- The estimate covers the range with the width of the rule. -/
theorem batch_cover (m : String) (f : List ℝ → ℝ) (hf : selector m = some f) (vs : List ℝ) (low high : ℝ) (h : Extremes low high vs)
    (hlt : low < high) : batchBins m vs = .ok (cover (high - low) (f vs)) := by
  have hne : vs ≠ [] := fun e => by rw [e] at h; simp [Extremes] at h
  obtain ⟨e1, e2⟩ := extremes_unique vs low high h
  have he : outerEdges vs = (low, high) := by
    unfold outerEdges
    rw [if_neg hne, e1, e2, if_neg hlt.ne]
  unfold batchBins cover
  rw [hf]
  simp only [if_neg hne, he]
  by_cases hw : f vs = 0
  · simp [hw]
  · simp [hw]

theorem cover_div (r d : ℝ) (hr : 0 < r) (hd : 0 < d) : cover r (r / d) = ⌈d⌉ := by
  unfold cover
  rw [if_neg (div_pos hr hd).ne']
  congr 1
  field_simp

theorem cover_pos (r w : ℝ) (hr : 0 < r) (hw : 0 ≤ w) : 1 ≤ cover r w := by
  unfold cover
  split_ifs with h
  · exact le_refl 1
  · have : 0 < w := lt_of_le_of_ne hw (Ne.symm h)
    exact Int.one_le_ceil_iff.2 (div_pos hr this)

theorem ends_ne (vs : List ℝ) (low high : ℝ) (h : Extremes low high vs) : vs.length ≠ 0 := by
  intro e
  rw [List.length_eq_zero_iff] at e
  rw [e] at h
  simp [Extremes] at h

/-- C76: for a batch of different values the rules that only use the number of values give: Sturges the least `k` with `n ≤ 2 ^ (k - 1)`, Rice the
least with `8 n ≤ k ^ 3`, the square root rule the least with `n ≤ k ^ 2`. -/
theorem C76_batch_counts (vs : List ℝ) (low high : ℝ) (h : Extremes low high vs) (hlt : low < high) :
    (∃ k, batchBins "sturges" vs = .ok k ∧ LeastWith k fun j => 1 ≤ j ∧ vs.length ≤ 2 ^ (j - 1)) ∧
    (∃ k, batchBins "rice" vs = .ok k ∧ LeastWith k fun j => 8 * vs.length ≤ j ^ 3) ∧
    (∃ k, batchBins "sqrt" vs = .ok k ∧ LeastWith k fun j => vs.length ≤ j ^ 2) := by
  -- a profile with the same extremes and as many values
  have hn := ends_ne vs low high h
  have hr : 0 < high - low := sub_pos.2 hlt
  let p : BinWidth.Prof := ⟨vs.length, some (.fin low), some (.fin high), .fin low, .fin high, .fin 0, .fin 0, .fin 0, .fin 0⟩
  obtain ⟨⟨k1, a1, b1⟩, ⟨k2, a2, b2⟩, ⟨k3, a3, b3⟩⟩ := Verif.Props.BinWidth.C76_counts p low high rfl rfl hlt hn
  have hp := Verif.Props.BinWidth.ptp_eq p low high rfl rfl
  have hn' : p.n ≠ 0 := hn
  refine ⟨⟨k1, ?_, b1⟩, ⟨k2, ?_, b2⟩, ⟨k3, ?_, b3⟩⟩
  · have e : BinWidth.bins p "sturges" = BinWidth.binsOf p (BinWidth.sturges p) := by simp [BinWidth.bins, BinWidth.selector, hn']
    have hd : 0 < Real.logb 2 vs.length + 1 := by have := log_nonneg hn; linarith
    rw [e] at a1
    unfold BinWidth.sturges at a1
    rw [Verif.Props.BinWidth.binsOf_div p (high - low) _ hp hr hd] at a1
    rw [batch_cover "sturges" wSturges rfl vs low high h hlt]
    unfold wSturges
    rw [spread_eq vs low high h, cover_div _ _ hr hd]
    exact a1
  · have e : BinWidth.bins p "rice" = BinWidth.binsOf p (BinWidth.rice p) := by simp [BinWidth.bins, BinWidth.selector, hn']
    have hd := cbrt_pos hn
    rw [e] at a2
    unfold BinWidth.rice at a2
    rw [Verif.Props.BinWidth.binsOf_div p (high - low) _ hp hr hd] at a2
    rw [batch_cover "rice" wRice rfl vs low high h hlt]
    unfold wRice
    rw [spread_eq vs low high h, cover_div _ _ hr hd]
    exact a2
  · have e : BinWidth.bins p "sqrt" = BinWidth.binsOf p (BinWidth.sqrtWidth p) := by simp [BinWidth.bins, BinWidth.selector, hn']
    have hd : 0 < Real.sqrt vs.length := Real.sqrt_pos.2 (by have := one_le_cast hn; linarith)
    rw [e] at a3
    unfold BinWidth.sqrtWidth at a3
    rw [Verif.Props.BinWidth.binsOf_div p (high - low) _ hp hr hd] at a3
    rw [batch_cover "sqrt" wSqrt rfl vs low high h hlt]
    unfold wSqrt
    rw [spread_eq vs low high h, cover_div _ _ hr hd]
    exact a3

/-- C76: for a batch of different values the rules of Sturges, Rice, the square root, Doane and Scott give what numpy documents; Freedman and Diaconis
cover the range by twice the distance of the quartiles over the cube root of the number of values; the automatic rule gives Sturges' number if
the quartiles are equal and else the greater of these two. -/
theorem C76_batch_numpy (vs : List ℝ) (low high : ℝ) (h : Extremes low high vs) (hlt : low < high) (s : List ℝ) (hs : Ascending s vs) :
    (∀ m ∈ ["sturges", "rice", "sqrt", "doane", "scott"], batchBins m vs = .ok (numpyBins low high vs m)) ∧
    batchBins "fd" vs = .ok (cover (high - low) (fdWidth s)) ∧
    batchBins "auto" vs = .ok (if quartile 1 s = quartile 3 s then numpyBins low high vs "sturges"
      else max (cover (high - low) (fdWidth s)) (numpyBins low high vs "sturges")) := by
  have hn := ends_ne vs low high h
  have hne : vs ≠ [] := fun e => hn (by rw [e]; rfl)
  have h1 := one_le_cast hn
  have hr : 0 < high - low := sub_pos.2 hlt
  have hsp := spread_eq vs low high h
  have five : ∀ m ∈ ["sturges", "rice", "sqrt", "doane", "scott"], batchBins m vs = .ok (numpyBins low high vs m) := by
    intro m hm
    simp only [List.mem_cons, List.not_mem_nil, or_false] at hm
    rcases hm with rfl | rfl | rfl | rfl | rfl
    · rw [batch_cover "sturges" wSturges rfl vs low high h hlt]
      unfold wSturges
      rw [hsp]
      rfl
    · rw [batch_cover "rice" wRice rfl vs low high h hlt]
      unfold wRice
      rw [hsp]
      rfl
    · rw [batch_cover "sqrt" wSqrt rfl vs low high h hlt]
      unfold wSqrt
      rw [hsp]
      rfl
    · rw [batch_cover "doane" wDoane rfl vs low high h hlt]
      have : wDoane vs = numpyWidth (high - low) vs "doane" := by
        unfold wDoane numpyWidth skewness
        simp only [hsp, sigma_eq, average_eq]
        by_cases a : 2 < vs.length <;> by_cases b : 0 < std vs <;> simp [a, b]
      rw [this]
      rfl
    · rw [batch_cover "scott" wScott rfl vs low high h hlt]
      have : wScott vs = numpyWidth (high - low) vs "scott" := by
        unfold wScott numpyWidth
        simp only [sigma_eq, Real.sqrt_eq_rpow]
      rw [this]
      rfl
  have hfd : wFd vs = fdWidth s := by
    unfold wFd fdWidth
    rw [percentile_eq s vs hne hs 3 (by norm_num) 75 (by norm_num), percentile_eq s vs hne hs 1 (by norm_num) 25 (by norm_num), hs.1.length_eq,
      show (-1 / 3 : ℝ) = -(1 / 3) by norm_num, Real.rpow_neg (by linarith)]
    rfl
  have hcr : 0 < (s.length : ℝ) ^ (1 / 3 : ℝ) := by
    rw [hs.1.length_eq]
    positivity
  have hfd0 : fdWidth s = 0 ↔ quartile 1 s = quartile 3 s := by
    unfold fdWidth
    rw [div_eq_zero_iff, or_iff_left hcr.ne', mul_eq_zero, or_iff_right two_ne_zero, sub_eq_zero, eq_comm]
  have hle := quartiles_le s hs.2
  have hst : wSturges vs = (high - low) / (Real.logb 2 vs.length + 1) := by
    unfold wSturges
    rw [hsp]
  have hst0 : 0 < wSturges vs := by
    rw [hst]
    exact div_pos hr (by have := log_nonneg hn; linarith)
  refine ⟨five, ?_, ?_⟩
  · rw [batch_cover "fd" wFd rfl vs low high h hlt, hfd]
  · have hsb : numpyBins low high vs "sturges" = cover (high - low) (wSturges vs) := by
      have := five "sturges" (by simp)
      rw [batch_cover "sturges" wSturges rfl vs low high h hlt] at this
      injection this with e
      exact e.symm
    rw [batch_cover "auto" wAuto rfl vs low high h hlt, hsb]
    unfold wAuto
    rw [hfd]
    by_cases hq : quartile 1 s = quartile 3 s
    · rw [if_pos hq, if_neg (not_not.2 (hfd0.2 hq))]
    · rw [if_neg hq, if_pos (fun e => hq (hfd0.1 e))]
      have hpos : 0 < fdWidth s := by
        refine lt_of_le_of_ne ?_ (fun e => hq (hfd0.1 e.symm))
        unfold fdWidth
        exact div_nonneg (by linarith) hcr.le
      congr 1
      unfold cover
      rw [if_neg hpos.ne', if_neg hst0.ne', if_neg (lt_min hpos hst0).ne']
      have mono : Monotone fun x : ℝ => (⌈x⌉ : ℤ) := fun a b hab => Int.ceil_le_ceil hab
      rcases le_total (fdWidth s) (wSturges vs) with hc | hc
      · rw [min_eq_left hc, max_eq_left (mono (div_le_div_of_nonneg_left hr.le hpos hc))]
      · rw [min_eq_right hc, max_eq_right (mono (div_le_div_of_nonneg_left hr.le hst0 hc))]

theorem known (m : String) (hm : m ∈ rules) : ∃ f, selector m = some f := by
  simp only [rules, List.mem_cons, List.not_mem_nil, or_false] at hm
  rcases hm with rfl | rfl | rfl | rfl | rfl | rfl | rfl <;> exact ⟨_, rfl⟩

theorem width_nonneg (m : String) (f : List ℝ → ℝ) (hf : selector m = some f) (vs : List ℝ) (hne : vs ≠ []) : 0 ≤ f vs := by
  have h := extremes vs hne
  have hsp : 0 ≤ spread vs := by
    unfold spread
    linarith [h.1.2 _ h.2.1]
  have hn : vs.length ≠ 0 := fun e => hne (List.length_eq_zero_iff.1 e)
  have h1 := one_le_cast hn
  have hlog := log_nonneg hn
  obtain ⟨s, hs⟩ := exists_ascending vs
  have hq := quartiles_le s hs.2
  have hfd : 0 ≤ wFd vs := by
    unfold wFd
    rw [percentile_eq s vs hne hs 3 (by norm_num) 75 (by norm_num), percentile_eq s vs hne hs 1 (by norm_num) 25 (by norm_num)]
    have : 0 ≤ (vs.length : ℝ) ^ (-1 / 3 : ℝ) := Real.rpow_nonneg (by linarith) _
    exact mul_nonneg (by linarith) this
  have hst : 0 ≤ wSturges vs := div_nonneg hsp (by linarith)
  unfold selector at hf
  split_ifs at hf with g1 g2 g3 g4 g5 g6 g7 <;> (first | (injection hf with hf; subst hf) | cases hf)
  · unfold wAuto
    split_ifs
    · exact le_min hfd hst
    · exact hst
  · unfold wDoane
    simp only
    split_ifs with a b
    · apply div_nonneg hsp
      have : 0 ≤ Real.logb 2 (1 + |average (vs.map fun x => ((x - average vs) / sigma vs) ^ 3)| /
          Real.sqrt (6 * ((vs.length : ℝ) - 2) / (((vs.length : ℝ) + 1) * ((vs.length : ℝ) + 3)))) := by
        apply Real.logb_nonneg (by norm_num)
        have : 0 ≤ |average (vs.map fun x => ((x - average vs) / sigma vs) ^ 3)| /
          Real.sqrt (6 * ((vs.length : ℝ) - 2) / (((vs.length : ℝ) + 1) * ((vs.length : ℝ) + 3))) := by positivity
        linarith
      linarith
    · exact le_refl 0
    · exact le_refl 0
  · exact hfd
  · unfold wRice
    exact div_nonneg hsp (cbrt_pos hn).le
  · unfold wScott
    rw [sigma_eq]
    apply mul_nonneg _ (std_nonneg vs)
    have := Real.pi_pos
    positivity
  · exact div_nonneg hsp (Real.sqrt_nonneg _)
  · exact hst

theorem quartile_same (s vs : List ℝ) (hne : vs ≠ []) (hs : Ascending s vs) (hv : Same vs) : quartile 1 s = quartile 3 s := by
  have hl : s.length ≠ 0 := by
    rw [hs.1.length_eq]
    exact fun e => hne (List.length_eq_zero_iff.1 e)
  have hall : ∀ i, i < s.length → s.getD i 0 = s.getD 0 0 := by
    intro i hi
    have hmem : ∀ j, j < s.length → s.getD j 0 ∈ vs := by
      intro j hj
      rw [List.getD_eq_getElem?_getD, List.getElem?_eq_getElem hj, Option.getD_some]
      exact hs.1.mem_iff.1 (List.getElem_mem hj)
    exact hv _ (hmem i hi) _ (hmem 0 (by omega))
  have key : ∀ k, k ≤ 3 → quartile k s = s.getD 0 0 := by
    intro k hk
    have hb : k * (s.length - 1) ≤ 3 * (s.length - 1) := Nat.mul_le_mul_right _ hk
    unfold quartile
    simp only
    rw [hall (k * (s.length - 1) / 4) (by omega)]
    by_cases hr : k * (s.length - 1) % 4 = 0
    · rw [hr]
      push_cast
      ring
    · rw [hall (k * (s.length - 1) / 4 + 1) (by omega)]
      ring
  rw [key 1 (by norm_num), key 3 (by norm_num)]

/-- C76: every rule suggests at least one bin for any batch, exactly one for a batch that is empty or whose values are all the same; another name (apart
from numpy's `stone`) raises `ValueError`. -/
theorem C76_batch_positive (m : String) (vs : List ℝ) :
    (m ∈ rules → ∃ k, batchBins m vs = .ok k ∧ 1 ≤ k ∧ (Same vs → k = 1)) ∧
    (m ∉ rules → batchBins m vs = .error .valueError) := by
  constructor
  · intro hm
    obtain ⟨f, hf⟩ := known m hm
    by_cases hne : vs = []
    · refine ⟨1, ?_, le_refl 1, fun _ => rfl⟩
      unfold batchBins
      rw [hf]
      simp [hne]
    have h := extremes vs hne
    have hw := width_nonneg m f hf vs hne
    by_cases hsame : Same vs
    · refine ⟨1, ?_, le_refl 1, fun _ => rfl⟩
      have hsp : spread vs = 0 := by
        unfold spread
        rw [(same_iff vs _ _ h).1 hsame, sub_self]
      obtain ⟨s, hs⟩ := exists_ascending vs
      have hfd : wFd vs = 0 := by
        unfold wFd
        rw [percentile_eq s vs hne hs 3 (by norm_num) 75 (by norm_num), percentile_eq s vs hne hs 1 (by norm_num) 25 (by norm_num),
          quartile_same s vs hne hs hsame]
        ring
      have hst : wSturges vs = 0 := by unfold wSturges; rw [hsp, zero_div]
      have hsd : sigma vs = 0 := by rw [sigma_eq]; exact std_same vs hne hsame
      have hf0 : f vs = 0 := by
        unfold selector at hf
        split_ifs at hf with g1 g2 g3 g4 g5 g6 g7 <;> (first | (injection hf with hf; subst hf) | cases hf)
        · unfold wAuto; rw [hfd, if_neg (by simp), hst]
        · unfold wDoane; simp [hsd]
        · exact hfd
        · unfold wRice; rw [hsp, zero_div]
        · unfold wScott; rw [hsd, mul_zero]
        · unfold wSqrt; rw [hsp, zero_div]
        · exact hst
      unfold batchBins
      rw [hf]
      simp [hne, hf0]
    · have hlt : least vs < greatest vs := lt_of_le_of_ne (h.1.2 _ h.2.1) fun e => hsame ((same_iff vs _ _ h).2 e)
      exact ⟨_, batch_cover m f hf vs _ _ h hlt, cover_pos _ _ (sub_pos.2 hlt) hw, fun e => absurd e hsame⟩
  · intro hm
    simp only [rules, List.mem_cons, List.not_mem_nil, or_false, not_or] at hm
    obtain ⟨h1, h2, h3, h4, h5, h6, h7⟩ := hm
    simp [batchBins, selector, h1, h2, h3, h4, h5, h6, h7]

/-- C76: a merged profile that has the statistics of different values suggests what is suggested for these values in one batch, by the rules of
Sturges, Rice, the square root and Doane; by Scott's rule never more. -/
theorem C76_merge_batch (p : BinWidth.Prof) (d : List ℝ) (low high : ℝ) (F : Faithful p d low high) (hlt : low < high) :
    (∀ m ∈ ["sturges", "rice", "sqrt", "doane"], BinWidth.bins p m = batchBins m d) ∧
    ∃ k k', BinWidth.bins p "scott" = .ok k ∧ batchBins "scott" d = .ok k' ∧ 1 ≤ k ∧ k ≤ k' := by
  have hn := ends_ne d low high F.ends
  have hne : d ≠ [] := fun e => hn (by rw [e]; rfl)
  obtain ⟨s, hs⟩ := exists_ascending d
  have N := (C76_batch_numpy d low high F.ends hlt s hs).1
  constructor
  · intro m hm
    rw [Verif.Props.BinWidth.C76_numpy p d low high F hne m hm, N m (by
      simp only [List.mem_cons, List.not_mem_nil, or_false] at hm ⊢
      tauto)]
  · have hns : ¬ Same d := fun e => hlt.ne ((same_iff d low high F.ends).1 e)
    have h2 : 2 ≤ d.length := by
      by_contra hc
      apply hns
      obtain ⟨x, hx⟩ := List.length_eq_one_iff.1 (show d.length = 1 by omega)
      rw [hx]
      intro a ha b hb
      rw [List.mem_singleton.1 ha, List.mem_singleton.1 hb]
    obtain ⟨k, a, b, c⟩ := Verif.Props.BinWidth.C76_scott p d low high F h2 (std_pos d hne hns)
    exact ⟨k, _, a, N "scott" (by simp), b, c⟩

/-! ## The report of a column -/

open Verif.Histogram Verif.HistColumn Verif.Spec.HistColumn

theorem extremes_cast (vs : List ℚ) (lo hi : ℚ) (h1 : Smallest lo vs) (h2 : Largest hi vs) :
    Extremes (lo : ℝ) (hi : ℝ) (vs.map fun q : ℚ => (q : ℝ)) := by
  refine ⟨⟨List.mem_map.2 ⟨lo, h1.1, rfl⟩, ?_⟩, List.mem_map.2 ⟨hi, h2.1, rfl⟩, ?_⟩
  · intro x hx
    obtain ⟨q, hq, rfl⟩ := List.mem_map.1 hx
    exact_mod_cast h1.2 q hq
  · intro x hx
    obtain ⟨q, hq, rfl⟩ := List.mem_map.1 hx
    exact_mod_cast h2.2 q hq

theorem estimate_pos (m : String) (vs : List ℚ) : 0 < estimate m vs := by
  unfold estimate
  by_cases hm : m ∈ rules
  · obtain ⟨k, hk, h1, -⟩ := (C76_batch_positive m (vs.map fun q : ℚ => (q : ℝ))).1 hm
    rw [hk]
    simp only
    omega
  · rw [(C76_batch_positive m (vs.map fun q : ℚ => (q : ℝ))).2 hm]
    exact Nat.one_pos

theorem estimate_eq (m : String) (vs : List ℚ) (k : ℤ) (h : batchBins m (vs.map fun q : ℚ => (q : ℝ)) = .ok k) : estimate m vs = k.toNat := by
  unfold estimate
  rw [h]

theorem suggestion_congr (e1 e2 : String → List ℚ → ℕ) (u : Option ℕ) (vs : List ℚ) (h : ∀ m, e1 m vs = e2 m vs) :
    suggestion e1 u vs = suggestion e2 u vs := by
  funext m
  unfold suggestion
  rw [h m]

theorem equalBins_congr (e1 e2 : String → List ℚ → ℕ) (u : Option ℕ) (vs : List ℚ) (ns : List String) (h : ∀ m, e1 m vs = e2 m vs) :
    equalBins e1 u vs ns = equalBins e2 u vs ns := by
  unfold equalBins
  rw [suggestion_congr e1 e2 u vs h]

/-- A column without histogram only asks for the estimates for the batch itself. -/
theorem update_congr (e1 e2 : String → List ℚ → ℕ) (h : Heap) (c : Col) (b : List ℚ) (hb : (h.dict c.stored).body = .absent)
    (he : ∀ m, e1 m b = e2 m b) : HistColumn.update e1 h c b = HistColumn.update e2 h c b := by
  have : updateHist e1 h c b = updateHist e2 h c b := by
    unfold updateHist
    split_ifs
    · rfl
    · rw [hb]
      simp only [combined]
      unfold buildHistogram
      rw [suggestion_congr e1 e2 _ b he, equalBins_congr e1 e2 _ b _ he]
  unfold HistColumn.update
  rw [this]

theorem new_absent (h0 : Heap) (isFloat : Bool) (o : Option Options) :
    ((newCol h0 isFloat o).1.dict (newCol h0 isFloat o).2.stored).body = .absent := by
  obtain ⟨⟨k, hk⟩, -, hs⟩ := Verif.Props.HistColumn.newCol_frame h0 isFloat o
  rw [hs]
  unfold Heap.dict
  rw [hk]
  simp [emptyDict]

/-- C75: after one batch of different values the reported histogram has as many bins as one of the offered rules suggests for exactly these values, at
most 100000. -/
theorem C75_one_batch (est : String → List ℚ → ℕ) (h0 : Heap) (isFloat : Bool) (o : Option Options) (b : List ℚ)
    (hsome : ∀ q, o ≠ some ⟨.methods [], q⟩) (hw : Wanted o = none) (hest : ∀ m, 0 < est m b)
    (hint : isFloat = false → ∀ v ∈ b, ∃ z : ℤ, v = z) (hd : ¬ AllEqual b) :
    let s := updates est (newCol h0 isFloat o).1 (newCol h0 isFloat o).2 [b]
    ∃ h' c' d g m, report s.1 s.2 = .ok (h', c', d) ∧ asHist d.body = some g ∧ Describes g b ∧ Offered o m ∧
      g.counts.length = min (est m b) 100000 := by
  intro s
  have hs : s = updates (fun m _ => est m b) (newCol h0 isFloat o).1 (newCol h0 isFloat o).2 [b] := by
    show updates est _ _ [b] = _
    simp only [updates]
    rw [update_congr est (fun m _ => est m b) _ _ b (new_absent h0 isFloat o) (fun _ => rfl)]
  have hne : b ≠ [] := by
    rintro rfl
    exact hd (by intro x hx; simp at hx)
  have hfl : [b].flatten = b := by simp
  obtain ⟨h', c', d, g, r1, -, r3, r4, -, -, r7, -⟩ := Verif.Props.HistColumn.C75_histogram (fun m _ => est m b) h0 isFloat o [b] hsome
    (by rw [hw]; simp) (fun m _ _ => hest m) (by rw [hfl]; exact hint) (by rw [hfl]; exact hne)
  rw [hfl] at r4 r7
  obtain ⟨m, vs, a1, -, a3⟩ := r7 hd hw
  exact ⟨h', c', d, g, m, by rw [hs]; exact r1, r3, r4, a1, a3⟩

/-- C75 with the estimates of the code: after any batches of numbers, not all the same, under an option naming one of the rules that only use the number
of values, the reported histogram has a number of bins that only depends on how many values there were: for Sturges the least `k` with `n ≤ 2 ^ (k - 1)`,
for Rice the least with `8 n ≤ k ^ 3`, for the square root the least with `n ≤ k ^ 2`, at most 100000 -- however the values were cut into
batches. -/
theorem C75_rule_counts (h0 : Heap) (isFloat : Bool) (m : String) (q : ℕ) (bs : List (List ℚ))
    (hint : isFloat = false → ∀ v ∈ bs.flatten, ∃ z : ℤ, v = z) (hd : ¬ AllEqual bs.flatten) :
    let s := updates estimate (newCol h0 isFloat (some ⟨.method m, q⟩)).1 (newCol h0 isFloat (some ⟨.method m, q⟩)).2 bs
    ∃ h' c' d g, report s.1 s.2 = .ok (h', c', d) ∧ asHist d.body = some g ∧ Describes g bs.flatten ∧
      (m = "sturges" → ∃ k : ℕ, g.counts.length = min k 100000 ∧ LeastWith k fun j => 1 ≤ j ∧ bs.flatten.length ≤ 2 ^ (j - 1)) ∧
      (m = "rice" → ∃ k : ℕ, g.counts.length = min k 100000 ∧ LeastWith k fun j => 8 * bs.flatten.length ≤ j ^ 3) ∧
      (m = "sqrt" → ∃ k : ℕ, g.counts.length = min k 100000 ∧ LeastWith k fun j => bs.flatten.length ≤ j ^ 2) := by
  intro s
  have hne : bs.flatten ≠ [] := by
    intro e
    exact hd (by rw [e]; intro x hx; simp at hx)
  obtain ⟨h', c', d, g, r1, -, r3, r4, -, -, r7, -⟩ := Verif.Props.HistColumn.C75_histogram estimate h0 isFloat (some ⟨.method m, q⟩) bs
    (by intro q' e; simp at e) (by simp [Wanted]) (fun m vs _ => estimate_pos m vs) hint hne
  obtain ⟨m', vs, a1, ⟨l1, l2, l3⟩, a3⟩ := r7 hd (by simp [Wanted])
  have hm : m' = m := by simpa [Offered] using a1
  subst hm
  obtain ⟨lo, -, hlo⟩ := r4.first
  obtain ⟨hi, -, hhi⟩ := r4.last
  have hlt : lo < hi := by
    refine lt_of_le_of_ne (hlo.2 _ hhi.1) ?_
    rintro rfl
    exact hd fun x hx y hy => by rw [le_antisymm (hhi.2 x hx) (hlo.2 x hx), le_antisymm (hhi.2 y hy) (hlo.2 y hy)]
  have hE := extremes_cast vs lo hi ((l2 lo).2 hlo) ((l3 hi).2 hhi)
  obtain ⟨⟨k1, b1, c1⟩, ⟨k2, b2, c2⟩, ⟨k3, b3, c3⟩⟩ := C76_batch_counts _ _ _ hE (by exact_mod_cast hlt)
  have hlen : (vs.map fun q : ℚ => (q : ℝ)).length = bs.flatten.length := by rw [List.length_map, l1]
  rw [hlen] at c1 c2 c3
  refine ⟨h', c', d, g, r1, r3, r4, ?_, ?_, ?_⟩
  · rintro rfl
    obtain ⟨j, rfl, hj⟩ := c1
    exact ⟨j, by rw [a3, estimate_eq _ _ _ b1, Int.toNat_natCast], j, rfl, hj⟩
  · rintro rfl
    obtain ⟨j, rfl, hj⟩ := c2
    exact ⟨j, by rw [a3, estimate_eq _ _ _ b2, Int.toNat_natCast], j, rfl, hj⟩
  · rintro rfl
    obtain ⟨j, rfl, hj⟩ := c3
    exact ⟨j, by rw [a3, estimate_eq _ _ _ b3, Int.toNat_natCast], j, rfl, hj⟩

/-- Five numbers in two batches, by Sturges' rule: four bins. -/
example (h0 : Heap) (o : Options) (ho : o = ⟨.method "sturges", 4⟩) :
    ∃ h' c' d g, report (updates estimate (newCol h0 false (some o)).1 (newCol h0 false (some o)).2 [[3, 1], [1, 5, 2]]).1
        (updates estimate (newCol h0 false (some o)).1 (newCol h0 false (some o)).2 [[3, 1], [1, 5, 2]]).2 = .ok (h', c', d) ∧
      asHist d.body = some g ∧ g.counts.length = 4 := by
  subst ho
  obtain ⟨h', c', d, g, r1, r2, -, r4, -⟩ := C75_rule_counts h0 false "sturges" 4 [[3, 1], [1, 5, 2]] (by
    intro _ v hv
    simp only [List.flatten_cons, List.flatten_nil, List.append_nil, List.cons_append, List.nil_append, List.mem_cons, List.not_mem_nil,
      or_false] at hv
    rcases hv with rfl | rfl | rfl | rfl | rfl
    · exact ⟨3, by norm_num⟩
    · exact ⟨1, by norm_num⟩
    · exact ⟨1, by norm_num⟩
    · exact ⟨5, by norm_num⟩
    · exact ⟨2, by norm_num⟩) (by
    intro h
    have := h 3 (by simp) 1 (by simp)
    norm_num at this)
  obtain ⟨k, hk, j, hj, ⟨j1, j2⟩, j3⟩ := r4 rfl
  have hkj : k = j := by exact_mod_cast hj
  have h4 : j ≤ 4 := j3 4 (by simp)
  have h4' : ¬ j ≤ 3 := by
    intro hc
    simp only [List.flatten_cons, List.flatten_nil, List.append_nil, List.cons_append, List.nil_append, List.length_cons, List.length_nil] at j2
    interval_cases j <;> simp at j2
  refine ⟨h', c', d, g, r1, r2, ?_⟩
  rw [hk]
  omega

/-- The values 0, 1, 1, 1, 9: quartiles that are equal. -/
example : Extremes 0 9 ([0, 1, 1, 9, 1] : List ℝ) ∧ Ascending [0, 1, 1, 1, 9] [0, 1, 1, 9, 1] ∧ quartile 1 [0, 1, 1, 1, 9] = 1 ∧
    quartile 3 [0, 1, 1, 1, 9] = 1 := by
  refine ⟨⟨⟨by simp, ?_⟩, by simp, ?_⟩, ⟨?_, ?_⟩, ?_, ?_⟩
  · intro x hx
    simp only [List.mem_cons, List.not_mem_nil, or_false] at hx
    rcases hx with rfl | rfl | rfl | rfl | rfl <;> norm_num
  · intro x hx
    simp only [List.mem_cons, List.not_mem_nil, or_false] at hx
    rcases hx with rfl | rfl | rfl | rfl | rfl <;> norm_num
  · exact (((List.Perm.swap (9 : ℝ) 1 []).cons 1).cons 1).cons 0
  · simp
  · norm_num [quartile]
  · norm_num [quartile]

end Verif.Props.BatchBins
