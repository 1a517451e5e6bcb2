import Verif.Lemmas.Precision

/-!
# Precision of float columns (C36)
-/

namespace Verif.Precision

open Verif Verif.PrecisionSpec

/-! ## Significant figures of a text -/

/-- **Plain decimals**: after signs, spaces, zeros and points in front, the figures of a decimal are its significant
digits: those left when zeros at the very end are dropped. -/
theorem C36_figures (lead : List Char) (c : Char) (rest : List Char) (hl : ∀ d ∈ lead, d ∈ ['+', '-', '.', '0', ' '])
    (hc : c.isDigit = true) (h0 : c ≠ '0') (hr : ∀ d ∈ rest, d.isDigit = true ∨ d = '.') :
    figures (lead ++ c :: rest) = significant (c :: rest) := by
  have hp : ∀ d ∈ c :: rest, Plain d := by
    intro d hd
    rcases List.mem_cons.1 hd with rfl | hd
    · exact Or.inl hc
    · exact hr d hd
  have hlead : isLead c = false := by
    rw [Bool.eq_false_iff]
    intro hw
    simp only [isLead, Bool.or_eq_true, beq_iff_eq] at hw
    rcases hw with ((((rfl | rfl) | rfl) | rfl) | hw) | hw
    · simp [Char.isDigit] at hc
    · simp [Char.isDigit] at hc
    · simp [Char.isDigit] at hc
    · simp [Char.isDigit] at hc
    · exact h0 hw
    · exact absurd (plain_not_ws (Or.inl hc)) (by simp [hw])
  rw [figures, dropWhile_lead lead (c :: rest) _ c rest rfl hlead, scan_plain _ _ (by simp) hp]
  · rfl
  · intro d hd
    have := hl d hd
    simp only [List.mem_cons, List.not_mem_nil, or_false] at this
    rcases this with rfl | rfl | rfl | rfl | rfl <;> decide

example : figures "-0.0120".toList = 2 ∧ significant "120".toList = 2 ∧ figures " 10.50".toList = 3 ∧
    figures "100".toList = 1 := by decide

/-- **Scientific notation**: with an exponent after `e` every digit before it counts, those of the exponent do not. -/
theorem C36_exponent (lead : List Char) (c : Char) (rest ex : List Char)
    (hl : ∀ d ∈ lead, d ∈ ['+', '-', '.', '0', ' ']) (hc : c.isDigit = true) (h0 : c ≠ '0')
    (hr : ∀ d ∈ rest, d.isDigit = true ∨ d = '.') (hx : ∀ d ∈ ex, d.isWhitespace = false) :
    figures (lead ++ (c :: rest) ++ 'e' :: ex) = ((c :: rest).filter Char.isDigit).length := by
  have hp : ∀ d ∈ c :: rest, Plain d := by
    intro d hd
    rcases List.mem_cons.1 hd with rfl | hd
    · exact Or.inl hc
    · exact hr d hd
  have hlead : isLead c = false := by
    rw [Bool.eq_false_iff]
    intro hw
    simp only [isLead, Bool.or_eq_true, beq_iff_eq] at hw
    rcases hw with ((((rfl | rfl) | rfl) | rfl) | hw) | hw
    · simp [Char.isDigit] at hc
    · simp [Char.isDigit] at hc
    · simp [Char.isDigit] at hc
    · simp [Char.isDigit] at hc
    · exact h0 hw
    · exact absurd (plain_not_ws (Or.inl hc)) (by simp [hw])
  rw [figures, List.append_assoc, dropWhile_lead lead ((c :: rest) ++ 'e' :: ex) _ c (rest ++ 'e' :: ex) rfl hlead,
    scan_exp ex hx (c :: rest) _ (by simp) hp]
  intro d hd
  have := hl d hd
  simp only [List.mem_cons, List.not_mem_nil, or_false] at this
  rcases this with rfl | rfl | rfl | rfl | rfl <;> decide

example : figures "-1.50e+10".toList = 3 := by decide

/-- With a capital `E` the digits of the exponent count too: the same number written differently has another precision. -/
theorem C36_capital_exponent_fails : figures "1e10".toList = 1 ∧ figures "1E12".toList = 3 := by decide

/-! ## How much is sampled -/

/-- **Sampling**: never more than there is; everything up to 20000 values; beyond that at least 20000 and at least a
twentieth; with a ratio, that share of the values. -/
theorem C36_sample_size (n : ℕ) :
    sampleSize n none ≤ n ∧ (n ≤ 20000 → sampleSize n none = n) ∧
      (20000 < n → 20000 ≤ sampleSize n none ∧ n < 20 * (sampleSize n none + 1)) ∧
      (∀ r : ℚ, 0 < r → r ≤ 1 →
        sampleSize n (some r) ≤ n ∧ (sampleSize n (some r) : ℚ) ≤ n * r ∧ n * r < sampleSize n (some r) + 1) := by
  have hfl : (⌊((n : ℚ) * (1 / 20))⌋₊ : ℚ) ≤ n * (1 / 20) := Nat.floor_le (by positivity)
  have hfl' : ((n : ℚ) * (1 / 20)) < ⌊((n : ℚ) * (1 / 20))⌋₊ + 1 := Nat.lt_floor_add_one _
  refine ⟨min_le_left _ _, fun h => ?_, fun h => ⟨?_, ?_⟩, fun r h0 h1 => ?_⟩
  · exact min_eq_left (h.trans (le_max_left _ _))
  · exact le_min h.le (le_max_left _ _)
  · have h20 : n < 20 * (⌊((n : ℚ) * (1 / 20))⌋₊ + 1) := by
      have : (n : ℚ) < 20 * (⌊((n : ℚ) * (1 / 20))⌋₊ + 1) := by linarith
      exact_mod_cast this
    simp only [sampleSize]
    rcases le_total n (max 20000 ⌊((n : ℚ) * (1 / 20))⌋₊) with hm | hm
    · rw [min_eq_left hm]; omega
    · rw [min_eq_right hm]
      have := le_max_right 20000 ⌊((n : ℚ) * (1 / 20))⌋₊
      omega
  · have hn : (0 : ℚ) ≤ n := Nat.cast_nonneg n
    have hle : (⌊(n : ℚ) * r⌋₊ : ℚ) ≤ n * r := Nat.floor_le (mul_nonneg hn h0.le)
    simp only [sampleSize, if_pos h0]
    refine ⟨?_, hle, Nat.lt_floor_add_one _⟩
    have : (⌊(n : ℚ) * r⌋₊ : ℚ) ≤ n := hle.trans (mul_le_of_le_one_right hn h1)
    exact_mod_cast this

example : sampleSize 1000000 none = 50000 ∧ sampleSize 30000 none = 20000 ∧ sampleSize 10 (some (1 / 4)) = 2 := by
  refine ⟨?_, ?_, ?_⟩
  · simp only [sampleSize]; norm_num
  · simp only [sampleSize]; norm_num
  · simp only [sampleSize]; norm_num
    exact (Nat.floor_eq_iff (by norm_num)).2 (by norm_num)

/-! ## Statistics over any updates and merges -/

theorem counts_append (a b : List String) : counts (a ++ b) = counts a ++ counts b := by simp [counts]

theorem counts_ne {a : List String} (h : a ≠ []) : counts a ≠ [] := by simpa [counts] using h

theorem report_ok (fmt : ℕ → Numeric.Flt → Numeric.Flt) (s : State) {xs : List ℝ} {p : Stats} (hs : s.prec = some p)
    (hp : Describes xs p) : ∃ r, report fmt s = .ok (some r) ∧ r.min = p.min ∧ r.max = p.max ∧ r.sum = p.sum ∧
      r.size = p.size ∧ ∃ m, p.max = some m ∧ r.mean = fmt ⌊m⌋₊ p.mean ∧
        r.var = fmt ⌊m⌋₊ (Numeric.correctBiasVariance p.size p.biasedVar) := by
  obtain ⟨m, _, hm, _⟩ := hp.max
  simp only [report, hs, hm]
  exact ⟨_, rfl, rfl, rfl, rfl, rfl, m, rfl, rfl, rfl⟩

/-- The invariant behind the theorems below. -/
theorem run_spec (h : History) (hv : Valid h) (hd : Drawn h) :
    ∃ s, run h = .ok s ∧ s.ratio = ratioOf h ∧ (drawn h = [] → s.prec = none) ∧
      (drawn h ≠ [] → ∃ p, s.prec = some p ∧ Describes (counts (drawn h)) p ∧
        (Once h → p.biasedVar = some (Spec.variance (counts (drawn h))))) := by
  induction h with
  | new r => exact ⟨_, rfl, rfl, fun _ => rfl, fun hne => absurd rfl hne⟩
  | update h b ih =>
    obtain ⟨hv, hsub, hlen⟩ := hv
    obtain ⟨hd, hb⟩ := hd
    obtain ⟨s, hs, hr, h0, h1⟩ := ih hv hd
    refine ⟨update s b, by simp [run, hs, pure, Except.pure, bind, Except.bind], ?_⟩
    by_cases hval : b.values = []
    · have hsam : b.sample = [] := by
        rw [hval] at hsub
        exact List.subperm_nil.1 hsub
      have hu : update s b = s := by simp [update, subset, hval]
      rw [hu]
      simp only [drawn, hsam, List.append_nil, ratioOf, Once]
      exact ⟨hr, h0, fun hne => by
        obtain ⟨p, hp, hdp, hvp⟩ := h1 hne
        exact ⟨p, hp, hdp, fun ho => hvp ho.1⟩⟩
    · have hsam := hb hval
      have hsub' : subset b = some (ofSample (counts b.sample)) := by
        simp [subset, hval, lengths, counts]
      obtain ⟨d1, d2⟩ := ofSample_describes (counts_ne hsam)
      by_cases he : drawn h = []
      · have hp := h0 he
        have hu : update s b = { s with prec := some (ofSample (counts b.sample)) } := by
          simp [update, hsub', hp]
        rw [hu]
        simp only [drawn, he, List.nil_append, ratioOf]
        exact ⟨hr, fun hn => absurd hn hsam, fun _ => ⟨_, rfl, d1, fun _ => d2⟩⟩
      · obtain ⟨p, hp, hdp, hvp⟩ := h1 he
        have hu : update s b = { s with prec := some (absorb p (ofSample (counts b.sample))) } := by
          simp [update, hsub', hp]
        rw [hu]
        simp only [drawn, ratioOf, counts_append]
        refine ⟨hr, fun hn => absurd (List.append_eq_nil_iff.1 hn).1 he, fun _ => ⟨_, rfl, ?_, fun ho => ?_⟩⟩
        · exact absorb_describes (counts_ne he) hdp d1
        · exact absurd ho.2 (by simp [he, hsam])
  | merge h1 h2 ih1 ih2 =>
    obtain ⟨s, hs, hr, s0, s1⟩ := ih1 hv.1 hd.1
    obtain ⟨t, ht, hr', t0, t1⟩ := ih2 hv.2 hd.2
    by_cases he1 : drawn h1 = []
    · refine ⟨⟨none, t.prec⟩, ?_, rfl, ?_, ?_⟩
      · simp [run, hs, ht, bind, Except.bind, merge, s0 he1]
      · simpa [drawn, he1] using t0
      · simp only [drawn, he1, List.nil_append, Once]
        intro hne
        obtain ⟨p, hp, hdp, hvp⟩ := t1 hne
        exact ⟨p, hp, hdp, fun ho => hvp ho.2⟩
    · obtain ⟨p, hp, hdp, hvp⟩ := s1 he1
      by_cases he2 : drawn h2 = []
      · refine ⟨⟨none, some p⟩, ?_, rfl, ?_, ?_⟩
        · simp [run, hs, ht, bind, Except.bind, merge, hp, t0 he2, report, pure, Except.pure]
        · intro hn
          exact absurd (List.append_eq_nil_iff.1 hn).1 he1
        · simp only [drawn, he2, List.append_nil, Once]
          exact fun _ => ⟨p, rfl, hdp, fun ho => hvp ho.1⟩
      · obtain ⟨q, hq, hdq, hvq⟩ := t1 he2
        refine ⟨⟨none, some (combine p q)⟩, ?_, rfl, ?_, ?_⟩
        · obtain ⟨r, hrep, _⟩ := report_ok (fun _ x => x) t hq hdq
          simp [run, hs, ht, bind, Except.bind, merge, hp, hq, hrep, pure, Except.pure]
        · intro hn
          exact absurd (List.append_eq_nil_iff.1 hn).1 he1
        · simp only [drawn, counts_append]
          exact fun _ => ⟨_, rfl, combine_describes (counts_ne he1) hdp hdq,
            fun ho => combine_var (counts_ne he1) (counts_ne he2) hdp hdq (hvp ho.1) (hvq ho.2)⟩

/-- **Batch independence** of count, sum, mean, minimum and maximum: after any updates and merges in which something was
drawn from every batch with values, they are those of all the values drawn, and asking for the report does not fail. -/
theorem C36_stats (fmt : ℕ → Numeric.Flt → Numeric.Flt) (h : History) (hv : Valid h) (hd : Drawn h) :
    ∃ s, run h = .ok s ∧ (drawn h = [] → report fmt s = .ok none) ∧
      (drawn h ≠ [] → ∃ p r, s.prec = some p ∧ Describes (counts (drawn h)) p ∧ report fmt s = .ok (some r) ∧
        r.min = p.min ∧ r.max = p.max ∧ r.sum = (counts (drawn h)).sum ∧ r.size = (drawn h).length ∧
        ∃ m, p.max = some m ∧ r.mean = fmt ⌊m⌋₊ (some (Spec.mean (counts (drawn h))))) := by
  obtain ⟨s, hs, _, h0, h1⟩ := run_spec h hv hd
  refine ⟨s, hs, fun he => by simp [report, h0 he], fun hne => ?_⟩
  obtain ⟨p, hp, hdp, _⟩ := h1 hne
  obtain ⟨r, e1, e2, e3, e4, e5, m, e6, e7, _⟩ := report_ok fmt s hp hdp
  exact ⟨p, r, hp, hdp, e1, e2, e3, e4.trans hdp.sum, by rw [e5, hdp.size]; simp [counts], m, e6, by rw [e7, hdp.mean]⟩

theorem describes_perm {xs ys : List ℝ} {p : Stats} (hxy : xs.Perm ys) (h : Describes xs p) : Describes ys p := by
  obtain ⟨⟨a, ha, ha', hal⟩, ⟨b, hb, hb', hbl⟩, h3, h4, h5⟩ := h
  exact ⟨⟨a, hxy.mem_iff.1 ha, ha', fun x hx => hal x (hxy.mem_iff.2 hx)⟩,
    ⟨b, hxy.mem_iff.1 hb, hb', fun x hx => hbl x (hxy.mem_iff.2 hx)⟩, by rw [h3, hxy.sum_eq],
    by rw [h4, Moments.mean_perm hxy], by rw [h5, hxy.length_eq]⟩

theorem default_ratio (h : History) (hdef : Default h) : ratioOf h = none := by
  induction h with
  | new r => exact hdef
  | update h b ih => exact ih hdef
  | merge => rfl

/-- Without a sampling option something is drawn from every batch with values. -/
theorem C36_default_drawn (h : History) (hv : Valid h) (hdef : Default h) : Drawn h := by
  induction h with
  | new r => trivial
  | update h b ih =>
    obtain ⟨hv, _, hlen⟩ := hv
    refine ⟨ih hv hdef, fun hne hs => ?_⟩
    rw [default_ratio h hdef, hs] at hlen
    have hpos : 0 < b.values.length := List.length_pos_of_ne_nil hne
    obtain ⟨_, h2, h3, _⟩ := C36_sample_size b.values.length
    rcases Nat.lt_or_ge 20000 b.values.length with hb | hb
    · have := (h3 hb).1
      simp at hlen
      omega
    · have := h2 hb
      simp at hlen
      omega
  | merge h1 h2 ih1 ih2 => exact ⟨ih1 hv.1 hdef.1, ih2 hv.2 hdef.2⟩

theorem drawn_perm (h : History) (hv : Valid h) (hdef : Default h) (hs : AtMost 20000 h) :
    (drawn h).Perm (values h) := by
  induction h with
  | new r => exact List.Perm.refl _
  | update h b ih =>
    obtain ⟨hv, hsub, hlen⟩ := hv
    rw [default_ratio h hdef, (C36_sample_size _).2.1 hs.2] at hlen
    exact (ih hv hdef hs.1).append (hsub.perm_of_length_le hlen.ge)
  | merge h1 h2 ih1 ih2 => exact (ih1 hv.1 hdef.1 hs.1).append (ih2 hv.2 hdef.2 hs.2)

/-- **All values**: without a sampling option and with batches of at most 20000 values the statistics are those of every
value of the column, in whatever batches it came. -/
theorem C36_all_values (h : History) (hv : Valid h) (hdef : Default h) (hs : AtMost 20000 h) (hne : values h ≠ []) :
    ∃ s p, run h = .ok s ∧ s.prec = some p ∧ Describes (counts (values h)) p := by
  have hperm := drawn_perm h hv hdef hs
  obtain ⟨s, hrun, _, _, h1⟩ := run_spec h hv (C36_default_drawn h hv hdef)
  obtain ⟨p, hp, hdp, _⟩ := h1 (fun he => hne (by rw [he] at hperm; exact List.nil_perm.1 hperm))
  exact ⟨s, p, hrun, hp, describes_perm (hperm.map _) hdp⟩

/-- A column in two batches and a merged third. -/
def sampleHistory : History :=
  .merge (.update (.update (.new none) ⟨["1.5", "20"], ["20", "1.5"]⟩) ⟨["0.125"], ["0.125"]⟩)
    (.update (.new none) ⟨["7"], ["7"]⟩)

example : Valid sampleHistory ∧ Default sampleHistory ∧ AtMost 20000 sampleHistory ∧
    counts (values sampleHistory) = [2, 1, 3, 1] := by
  have h2 : sampleSize 2 none = 2 := (C36_sample_size 2).2.1 (by omega)
  have h1 : sampleSize 1 none = 1 := (C36_sample_size 1).2.1 (by omega)
  refine ⟨⟨⟨⟨trivial, ?_, ?_⟩, ?_, ?_⟩, trivial, ?_, ?_⟩, ⟨rfl, rfl⟩, by simp [AtMost, sampleHistory], ?_⟩
  · exact (List.Perm.swap _ _ _).subperm
  · simp [h2, ratioOf]
  · exact List.Subperm.refl _
  · simp [h1, ratioOf]
  · exact List.Subperm.refl _
  · simp [h1, ratioOf]
  · have e1 : figures "1.5".toList = 2 := by decide
    have e2 : figures "20".toList = 1 := by decide
    have e3 : figures "0.125".toList = 3 := by decide
    have e4 : figures "7".toList = 1 := by decide
    simp only [counts, values, sampleHistory, List.nil_append, List.cons_append, List.map_cons, List.map_nil, e1, e2, e3, e4]
    norm_num

theorem correct_sample {xs : List ℝ} (h : 2 ≤ xs.length) :
    Numeric.correctBiasVariance xs.length (some (Spec.variance xs)) = some (Spec.sampleVariance xs) := by
  have hne : xs ≠ [] := by rintro rfl; simp at h
  have h2 : (2 : ℝ) ≤ xs.length := by exact_mod_cast h
  rw [Numeric.correctBiasVariance, if_neg (by omega)]
  simp only [Option.map_some, Option.some.injEq, Spec.sampleVariance]
  have := Moments.variance_mul hne
  unfold Moments.M at this
  rw [← this]
  ring

/-- **Variance, partial**: if no profile is updated twice (all data come together by merging), the reported variance is the
sample variance of all the values drawn. Missing: profiles updated with several batches, for which
`C36_variance_fails` shows the claim to be false. -/
theorem C36_variance_partial (fmt : ℕ → Numeric.Flt → Numeric.Flt) (h : History) (hv : Valid h) (hd : Drawn h)
    (ho : Once h) (h2 : 2 ≤ (drawn h).length) :
    ∃ s r m, run h = .ok s ∧ report fmt s = .ok (some r) ∧ r.max = some m ∧
      r.var = fmt ⌊m⌋₊ (some (Spec.sampleVariance (counts (drawn h)))) := by
  obtain ⟨s, hs, _, _, h1⟩ := run_spec h hv hd
  obtain ⟨p, hp, hdp, hvar⟩ := h1 (by intro he; simp [he] at h2)
  obtain ⟨r, e1, _, e3, _, _, m, e6, _, e8⟩ := report_ok fmt s hp hdp
  refine ⟨s, r, m, hs, e1, by rw [e3, e6], ?_⟩
  rw [e8, hvar ho, hdp.size, correct_sample (by simpa [counts] using h2)]

example : Once (.merge (.update (.new none) ⟨["1.5", "20"], ["20", "1.5"]⟩) (.update (.new none) ⟨["7"], ["7"]⟩)) := by
  simp [Once, drawn]

/-- The column `1`, `125` given in two batches. -/
def streamed : History := .update (.update (.new none) ⟨["1"], ["1"]⟩) ⟨["125"], ["125"]⟩

/-- The full claim is false: updated with two batches, a profile reports the variance 16/9 for the figures
1 and 3, whose sample variance is 2. -/
theorem C36_variance_fails :
    Valid streamed ∧ Drawn streamed ∧ Default streamed ∧ Spec.sampleVariance (counts (drawn streamed)) = 2 ∧
      ∃ s r, run streamed = .ok s ∧ report (fun _ x => x) s = .ok (some r) ∧ r.var = some (16 / 9) := by
  have h1 : sampleSize 1 none = 1 := (C36_sample_size 1).2.1 (by omega)
  have e1 : figures "1".toList = 1 := by decide
  have e2 : figures "125".toList = 3 := by decide
  refine ⟨⟨⟨trivial, List.Subperm.refl _, by simp [h1, ratioOf]⟩, List.Subperm.refl _, by simp [h1, ratioOf]⟩,
    ⟨⟨trivial, by simp⟩, by simp⟩, rfl, ?_, ?_⟩
  · simp only [Spec.sampleVariance, Spec.mean, counts, drawn, streamed, List.nil_append, List.cons_append,
      List.map_cons, List.map_nil, e1, e2]
    norm_num
  · simp only [streamed, run, update, subset, lengths, bind, Except.bind, pure, Except.pure, List.map_cons, List.map_nil,
      List.length_cons, List.length_nil, ofSample, least, greatest, absorb, pyMin, pyMax, e1, e2, Nat.reduceAdd,
      one_ne_zero, if_false, report, mergeVar, Numeric.mergeBiasedVariance, Numeric.npVar, Numeric.seriesMean,
      Option.getD_some]
    refine ⟨_, _, rfl, rfl, ?_⟩
    simp only [Numeric.correctBiasVariance]
    norm_num

/-! ## A ratio too small for a batch -/

theorem update_poisoned (s : State) (p : Stats) (hs : s.prec = some p) (hm : p.max = none) (b : Batch) :
    ∃ q, (update s b).prec = some q ∧ q.max = none := by
  unfold update
  rcases subset b with _ | t
  · exact ⟨p, hs, hm⟩
  · simp only [hs]
    exact ⟨_, rfl, by simp [absorb, hm, pyMax]⟩

/-- **AtMost first batch**: if the ratio leaves nothing to draw from the first batch with values, the report fails, now and
after any later updates, however much is drawn then. -/
theorem C36_small_ratio_fails (fmt : ℕ → Numeric.Flt → Numeric.Flt) (r : ℚ) (b : Batch) (hne : b.values ≠ [])
    (hr : 0 < r) (hsmall : b.values.length * r < 1) (hv : Valid (.update (.new (some r)) b)) (later : List Batch) :
    ∃ s, run (later.foldl .update (.update (.new (some r)) b)) = .ok s ∧ report fmt s = .error .valueError := by
  have hsam : b.sample = [] := by
    obtain ⟨_, _, hlen⟩ := hv
    have : sampleSize b.values.length (some r) = 0 := by
      simp only [sampleSize, if_pos hr]
      exact Nat.floor_eq_zero.2 hsmall
    rw [show ratioOf (.new (some r)) = some r from rfl, this] at hlen
    simpa using hlen
  suffices ∃ s p, run (later.foldl .update (.update (.new (some r)) b)) = .ok s ∧ s.prec = some p ∧ p.max = none by
    obtain ⟨s, p, h1, h2, h3⟩ := this
    exact ⟨s, h1, by simp [report, h2, h3]⟩
  induction later using List.reverseRecOn with
  | nil =>
    refine ⟨_, ⟨none, none, none, 0, none, 0⟩, rfl, ?_, rfl⟩
    simp [update, subset, hne, hsam, lengths, ofSample]
  | append_singleton l c ih =>
    obtain ⟨s, p, h1, h2, h3⟩ := ih
    obtain ⟨q, g1, g2⟩ := update_poisoned s p h2 h3 c
    refine ⟨update s c, q, ?_, g1, g2⟩
    rw [List.foldl_append]
    simp [run, h1, bind, Except.bind, pure, Except.pure]

example : Valid (.update (.new (some (1 / 10))) ⟨["1.5", "2.5"], []⟩) ∧ ((2 : ℕ) : ℚ) * (1 / 10) < 1 := by
  refine ⟨⟨trivial, by simp, ?_⟩, by norm_num⟩
  simp only [ratioOf, sampleSize]
  norm_num
  exact (Nat.floor_eq_zero.2 (by norm_num)).symm

/-- The sampling option is forgotten by merging: a merged profile draws by the default rule. -/
theorem C36_merge_forgets_ratio (h1 h2 : History) (s : State) (hs : run (.merge h1 h2) = .ok s) : s.ratio = none := by
  simp only [run, bind, Except.bind] at hs
  rcases e1 : run h1 with e | s1
  · simp [e1] at hs
  rcases e2 : run h2 with e | s2
  · simp [e1, e2] at hs
  simp only [e1, e2, merge, bind, Except.bind, pure, Except.pure] at hs
  rcases hp : s1.prec with _ | p
  · simp only [hp, Except.ok.injEq] at hs
    rw [← hs]
  · simp only [hp] at hs
    rcases hr : report (fun _ x => x) s2 with e | r
    · simp [hr] at hs
    · simp only [hr] at hs
      rcases hq : s2.prec with _ | q <;> simp only [hq, Except.ok.injEq] at hs <;> rw [← hs]

end Verif.Precision
