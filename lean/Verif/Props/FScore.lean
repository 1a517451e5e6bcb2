import Mathlib.Tactic.FinCases
import Mathlib.Tactic.Linarith
import Mathlib.Tactic.Positivity
import Verif.Lemmas.FScore

/-!
# The metric of training (C86)
-/

namespace Verif.Props.FScore

open Verif Verif.FScore Verif.Spec.FScore

/-! ### Making a metric -/

/-- A metric can be made exactly with a known average, a positive float for `beta`, and a threshold that is a float above zero and at
most one, or none. -/
theorem C86_make (n : ℕ) (average : Option String) (beta : Num) (threshold : Option Num) :
    (∃ m, make n average beta threshold = .ok m) ↔
      average ∈ [none, some "micro", some "macro", some "weighted"] ∧ (∃ b, beta = .float b ∧ 0 < b) ∧
        (threshold = none ∨ ∃ t, threshold = some (.float t) ∧ 0 < t ∧ t ≤ 1) := by
  have ha : (∃ a, averageOf average = .ok a) ↔ average ∈ [none, some "micro", some "macro", some "weighted"] := by
    cases average with
    | none => simp [averageOf]
    | some s =>
      simp only [averageOf, List.mem_cons, Option.some.injEq, List.not_mem_nil, or_false, reduceCtorEq, false_or]
      split_ifs with h1 h2 h3 <;> simp [*]
  have hb : (∃ b, betaOf beta = .ok b) ↔ ∃ b, beta = .float b ∧ 0 < b := by
    cases beta with
    | int z => simp [betaOf]
    | float q =>
      simp only [betaOf, Num.float.injEq]
      split_ifs with h
      · simp [h]
      · simp [lt_of_not_ge h]
  have ht : (∃ t, thresholdOf threshold = .ok t) ↔ threshold = none ∨ ∃ t, threshold = some (.float t) ∧ 0 < t ∧ t ≤ 1 := by
    rcases threshold with _ | (z | q)
    · simp [thresholdOf]
    · simp [thresholdOf]
    · simp only [thresholdOf]
      split_ifs with h
      · simp only [exists_false, Option.some.injEq, Num.float.injEq, false_or, false_iff, not_exists, not_and]
        rintro t rfl h0 h1
        rcases h with h | h
        · exact absurd h1 (not_le.2 h)
        · exact absurd h0 (not_lt.2 h)
      · push Not at h
        simp [h.1, h.2]
  rw [← ha, ← hb, ← ht]
  unfold make
  cases averageOf average with
  | error e => simp
  | ok a =>
    cases betaOf beta with
    | error e => simp
    | ok b =>
      cases thresholdOf threshold with
      | error e => simp
      | ok t => simp

/-- A metric is made again from its configuration. -/
theorem C86_config (n : ℕ) (average : Option String) (beta : Num) (threshold : Option Num) (m : Metric)
    (h : make n average beta threshold = .ok m) : config m = (n, average, beta, threshold) ∧
      make (config m).1 (config m).2.1 (config m).2.2.1 (config m).2.2.2 = .ok m := by
  have key : config m = (n, average, beta, threshold) := by
    unfold make at h
    cases ha : averageOf average with
    | error e => simp [ha] at h
    | ok a =>
      cases hb : betaOf beta with
      | error e => simp [ha, hb] at h
      | ok b =>
        cases ht : thresholdOf threshold with
        | error e => simp [ha, hb, ht] at h
        | ok t =>
          simp only [ha, hb, ht, Except.ok.injEq] at h
          subst h
          have h1 : a.map (fun
              | .micro => "micro"
              | .macro => "macro"
              | .weighted => "weighted") = average := by
            cases average with
            | none => simp only [averageOf, Except.ok.injEq] at ha; subst ha; rfl
            | some s =>
              simp only [averageOf] at ha
              split_ifs at ha with h1 h2 h3 <;> (simp only [Except.ok.injEq] at ha; subst ha; simp [*])
          have h2 : Num.float b = beta := by
            cases beta with
            | int z => simp [betaOf] at hb
            | float q =>
              simp only [betaOf] at hb
              split_ifs at hb
              simp only [Except.ok.injEq] at hb; rw [hb]
          have h3 : t.map Num.float = threshold := by
            rcases threshold with _ | (z | q)
            · simp only [thresholdOf, Except.ok.injEq] at ht; subst ht; rfl
            · simp [thresholdOf] at ht
            · simp only [thresholdOf] at ht
              split_ifs at ht
              simp only [Except.ok.injEq] at ht; subst ht; rfl
          exact Prod.ext rfl (Prod.ext h1 (Prod.ext h2 h3))
  exact ⟨key, by rw [key]; exact h⟩

/-- The F1 score is the F-score with `beta` one, and is made again from its configuration, which does not name `beta`. -/
theorem C86_f1 (n : ℕ) (average : Option String) (threshold : Option Num) (m : Metric) :
    (makeF1 n average threshold = .ok m ↔ make n average (.float 1) threshold = .ok m) ∧
      (makeF1 n average threshold = .ok m → m.beta = 1 ∧ makeF1 (configF1 m).1 (configF1 m).2.1 (configF1 m).2.2 = .ok m) := by
  refine ⟨Iff.rfl, fun h => ?_⟩
  have hc := (C86_config n average (.float 1) threshold m h).1
  refine ⟨?_, ?_⟩
  · have : (config m).2.2.1 = .float 1 := by rw [hc]
    exact Num.float.inj this
  · unfold configF1
    rw [hc]
    exact h

/-- Not every threshold is one. -/
example : (∃ m, make 3 (some "macro") (.float 2) (some (.float (1 / 2))) = .ok m) ∧
    make 3 none (.int 1) none = .error .typeError ∧ make 3 none (.float 1) (some (.float 0)) = .error .valueError :=
  ⟨(C86_make _ _ _ _).2 ⟨by simp, ⟨2, rfl, by norm_num⟩, .inr ⟨1 / 2, rfl, by norm_num, by norm_num⟩⟩, by decide +kernel, by decide +kernel⟩

/-! ### The score -/

theorem hits_nonneg {n : ℕ} {t : Option ℚ} {l : List (ℚ × Sample n)} (hw : ∀ x ∈ l, 0 ≤ x.1) (i : Fin n) : 0 ≤ hits t l i :=
  weight_nonneg hw _

theorem wrong_nonneg {n : ℕ} {t : Option ℚ} {l : List (ℚ × Sample n)} (hw : ∀ x ∈ l, 0 ≤ x.1) (i : Fin n) : 0 ≤ wrong t l i :=
  weight_nonneg hw _

theorem missed_nonneg {n : ℕ} {t : Option ℚ} {l : List (ℚ × Sample n)} (hw : ∀ x ∈ l, 0 ≤ x.1) (i : Fin n) : 0 ≤ missed t l i :=
  weight_nonneg hw _

/-- Whatever the batches, the result is the F-score of the samples given: of each class, their mean, their mean by size of class, or
that of all classes together. -/
theorem C86_score (m : Metric) (hb : 0 < m.beta) {bs : List (List (Sample m.classes) × Option (List ℚ))}
    {l : List (ℚ × Sample m.classes)} (h : Given bs l) (hl : ∀ x ∈ l, Labelled x.2) (hw : ∀ x ∈ l, 0 ≤ x.1) :
    ∃ s, updates m bs (start m) = .ok s ∧ result m s = match m.average with
      | none => .vector ((List.finRange m.classes).map (classScore m.beta m.threshold l))
      | some .macro => .number ((∑ i, classScore m.beta m.threshold l i) / m.classes)
      | some .weighted => .number ((∑ i, size l i * classScore m.beta m.threshold l i) / ∑ i, size l i)
      | some .micro =>
        .number (F m.beta (∑ i, hits m.threshold l i) (∑ i, wrong m.threshold l i) (∑ i, missed m.threshold l i)) := by
  refine ⟨_, updates_ok m h, ?_⟩
  have h1 : (fun i => (l.map fun x => predicted m.threshold x.2.pred i * x.2.truth i * x.1).sum) = hits m.threshold l :=
    funext fun i => sum_hits hl i
  have h2 : (fun i => (l.map fun x => predicted m.threshold x.2.pred i * (1 - x.2.truth i) * x.1).sum) = wrong m.threshold l :=
    funext fun i => sum_wrong hl i
  have h3 : (fun i => (l.map fun x => (1 - predicted m.threshold x.2.pred i) * x.2.truth i * x.1).sum) = missed m.threshold l :=
    funext fun i => sum_missed hl i
  have h4 : (fun i => (l.map fun x => x.2.truth i * x.1).sum) = size l := funext fun i => sum_size hl i
  have hs : ∀ i, score m.beta (hits m.threshold l i) (wrong m.threshold l i) (missed m.threshold l i) =
      classScore m.beta m.threshold l i := fun i =>
    score_eq hb (weight_nonneg hw _) (weight_nonneg hw _) (weight_nonneg hw _)
  unfold result counts weightedSum
  simp only [h1, h2, h3, h4]
  rcases ha : m.average with _ | (_ | _ | _)
  · simp only [reduced, ha, reduceCtorEq, if_false, scores_map, hs]
  · simp only [reduced, ha, if_true, scores, sum_finRange, List.sum_cons, List.sum_nil, List.length_cons, List.length_nil]
    have hn : score m.beta (∑ i, hits m.threshold l i) (∑ i, wrong m.threshold l i) (∑ i, missed m.threshold l i) = _ :=
      score_eq hb (Finset.sum_nonneg fun i _ => hits_nonneg hw i)
      (Finset.sum_nonneg fun i _ => wrong_nonneg hw i) (Finset.sum_nonneg fun i _ => missed_nonneg hw i)
    rw [hn]
    simp
  · simp only [reduced, ha, Option.some.injEq, reduceCtorEq, if_false, scores_map, hs, List.length_map, List.length_finRange]
    rw [← sum_finRange]
  · simp only [reduced, ha, Option.some.injEq, reduceCtorEq, if_false, scores_map, hs, List.map_map, zipWith_map_same, divNoNan_eq,
      Function.comp_def, sum_finRange]
    rw [Finset.sum_div]
    congr 1
    exact Finset.sum_congr rfl fun i _ => by ring

/-- Two samples and three classes: one hit, one confusion. -/
def samples0 : List (ℚ × Sample 3) := [(1, ⟨![1, 0, 0], ![3, 1, 1]⟩), (1, ⟨![0, 1, 0], ![0, 1, 2]⟩)]

example : Given [([⟨![1, 0, 0], ![3, 1, 1]⟩], none), ([⟨![0, 1, 0], ![0, 1, 2]⟩], some [1])] samples0 ∧ (∀ x ∈ samples0, Labelled x.2) ∧
    ∀ x ∈ samples0, 0 ≤ x.1 := by
  refine ⟨⟨[[_], [_]], .cons rfl (.cons ⟨rfl, rfl⟩ .nil), rfl⟩, ?_, by simp [samples0]⟩
  intro x hx i
  simp only [samples0, List.mem_cons, List.not_mem_nil, or_false] at hx
  rcases hx with rfl | rfl <;> fin_cases i <;> simp

/-- The result depends on the samples and their weights only, not on the batches or their order. -/
theorem C86_batches (m : Metric) {bs bs' : List (List (Sample m.classes) × Option (List ℚ))} {l l' : List (ℚ × Sample m.classes)}
    (h : Given bs l) (h' : Given bs' l') (hp : l.Perm l') :
    ∃ s, updates m bs (start m) = .ok s ∧ updates m bs' (start m) = .ok s := by
  have key : ∀ val : Sample m.classes → Fin m.classes → ℚ, weightedSum m l val = weightedSum m l' val := by
    intro val
    unfold weightedSum
    congr 1
    funext i
    exact (hp.map _).sum_eq
  refine ⟨_, updates_ok m h, ?_⟩
  rw [updates_ok m h']
  simp only [counts, key]

/-- A sample of a whole weight counts as often as its weight says. -/
theorem C86_weights (m : Metric) {bs bs' : List (List (Sample m.classes) × Option (List ℚ))} {l l' : List (ℚ × Sample m.classes)}
    {x : Sample m.classes} (k : ℕ) (h : Given bs (l ++ ((k : ℚ), x) :: l')) (h' : Given bs' (l ++ (List.replicate k (1, x) ++ l'))) :
    ∃ s, updates m bs (start m) = .ok s ∧ updates m bs' (start m) = .ok s := by
  have key : ∀ val : Sample m.classes → Fin m.classes → ℚ,
      weightedSum m (l ++ ((k : ℚ), x) :: l') val = weightedSum m (l ++ (List.replicate k (1, x) ++ l')) val := by
    intro val
    unfold weightedSum
    congr 1
    funext i
    simp [mul_comm]
  refine ⟨_, updates_ok m h, ?_⟩
  rw [updates_ok m h']
  simp only [counts, key]

/-- Two of weight one and one of weight two. -/
example (x : Sample 3) : Given [([x], some [2])] ([] ++ (((2 : ℕ) : ℚ), x) :: []) ∧
    Given [([x, x], none)] ([] ++ (List.replicate 2 (1, x) ++ [])) :=
  ⟨⟨[[(2, x)]], .cons ⟨rfl, rfl⟩ .nil, by simp⟩, ⟨[[(1, x), (1, x)]], .cons rfl .nil, by simp [List.replicate]⟩⟩

/-- No weights are weights of one; a single weight is the weight of every sample of the batch; weights of any other number are
refused, and the counts stay as they are. -/
theorem C86_batch (m : Metric) (samples : List (Sample m.classes)) (s : State) :
    update m samples none s = update m samples (some (List.replicate samples.length 1)) s ∧
    (∀ w, update m samples (some [w]) s = update m samples (some (List.replicate samples.length w)) s) ∧
    (∀ ws, ws.length ≠ samples.length → ws.length ≠ 1 → samples.length ≠ 1 → update m samples (some ws) s = .error .valueError) := by
  have rep : ∀ w : ℚ, weigh samples (some (List.replicate samples.length w)) = .ok (samples.map fun x => (w, x)) := by
    intro w
    dsimp only [weigh]
    rw [if_pos List.length_replicate]
    congr 1
    clear s
    induction samples with
    | nil => rfl
    | cons x t ih => simp [List.replicate_succ, ih]
  refine ⟨?_, fun w => ?_, fun ws h1 h2 h3 => ?_⟩
  · unfold update
    rw [rep]
    rfl
  · unfold update
    rw [rep]
    have : weigh samples (some [w]) = .ok (samples.map fun x => (w, x)) := by
      dsimp only [weigh]
      split_ifs with hl
      · obtain ⟨x, rfl⟩ := List.length_eq_one_iff.1 hl.symm
        rfl
      · rfl
    rw [this]
  · have : weigh samples (some ws) = .error .valueError := by
      dsimp only [weigh]
      rw [if_neg h1]
      split
      · exact absurd rfl h2
      · exact absurd rfl h3
      · rfl
    unfold update
    rw [this]

/-- Three samples with two weights. -/
example (m : Metric) (x : Sample m.classes) (s : State) : update m [x, x, x] (some [1, 2]) s = .error .valueError :=
  (C86_batch m [x, x, x] s).2.2 _ (by simp) (by simp) (by simp)

theorem classScore_range {n : ℕ} {beta : ℚ} {t : Option ℚ} {l : List (ℚ × Sample n)} (hw : ∀ x ∈ l, 0 ≤ x.1) (i : Fin n) :
    0 ≤ classScore beta t l i ∧ classScore beta t l i ≤ 1 :=
  F_range (weight_nonneg hw _) (weight_nonneg hw _) (weight_nonneg hw _)

/-- Every number returned is from zero to one. -/
theorem C86_range (m : Metric) (hb : 0 < m.beta) {bs : List (List (Sample m.classes) × Option (List ℚ))}
    {l : List (ℚ × Sample m.classes)} (h : Given bs l) (hl : ∀ x ∈ l, Labelled x.2) (hw : ∀ x ∈ l, 0 ≤ x.1) :
    ∃ s, updates m bs (start m) = .ok s ∧ (∀ v, result m s = .vector v → v.length = m.classes ∧ ∀ q ∈ v, 0 ≤ q ∧ q ≤ 1) ∧
      ∀ q, result m s = .number q → 0 ≤ q ∧ q ≤ 1 := by
  obtain ⟨s, hs, hr⟩ := C86_score m hb h hl hw
  refine ⟨s, hs, ?_, ?_⟩
  · intro v hv
    rw [hr] at hv
    rcases ha : m.average with _ | (_ | _ | _) <;> simp only [ha, reduceCtorEq, Result.vector.injEq] at hv
    subst hv
    refine ⟨by simp, fun q hq => ?_⟩
    obtain ⟨i, _, rfl⟩ := List.mem_map.1 hq
    exact classScore_range hw i
  · intro q hq
    rw [hr] at hq
    have hsz : ∀ i, 0 ≤ size l i := fun i => weight_nonneg hw _
    rcases ha : m.average with _ | (_ | _ | _) <;> simp only [ha, reduceCtorEq, Result.number.injEq] at hq
    · subst hq
      exact F_range (Finset.sum_nonneg fun i _ => hits_nonneg hw i) (Finset.sum_nonneg fun i _ => wrong_nonneg hw i)
        (Finset.sum_nonneg fun i _ => missed_nonneg hw i)
    · subst hq
      constructor
      · exact div_nonneg (Finset.sum_nonneg fun i _ => (classScore_range hw i).1) (by positivity)
      · refine div_le_one_of_le₀ ?_ (by positivity)
        calc ∑ i, classScore m.beta m.threshold l i ≤ ∑ _i : Fin m.classes, (1 : ℚ) :=
              Finset.sum_le_sum fun i _ => (classScore_range hw i).2
          _ = m.classes := by simp
    · subst hq
      constructor
      · exact div_nonneg (Finset.sum_nonneg fun i _ => mul_nonneg (hsz i) (classScore_range hw i).1)
          (Finset.sum_nonneg fun i _ => hsz i)
      · refine div_le_one_of_le₀ ?_ (Finset.sum_nonneg fun i _ => hsz i)
        exact Finset.sum_le_sum fun i _ => mul_le_of_le_one_right (hsz i) (classScore_range hw i).2

theorem perfect_counts {n : ℕ} {beta : ℚ} {t : Option ℚ} {l : List (ℚ × Sample n)}
    (hp : ∀ x ∈ l, ∀ i, Predicted t x.2.pred i ↔ x.2.truth i = 1) (hw : ∀ x ∈ l, 0 < x.1) (i : Fin n) :
    wrong t l i = 0 ∧ missed t l i = 0 ∧ 0 ≤ hits t l i ∧ ((∃ x ∈ l, x.2.truth i = 1) → 0 < hits t l i) ∧
      (hits t l i = size l i) ∧ ((∀ x ∈ l, x.2.truth i ≠ 1) → classScore beta t l i = 0) := by
  classical
  have h1 : wrong t l i = 0 := by
    unfold wrong
    rw [weight_sum]
    refine List.sum_eq_zero fun y hy => ?_
    obtain ⟨x, hx, rfl⟩ := List.mem_map.1 hy
    rw [if_neg]
    rintro ⟨h1, h2⟩
    rw [(hp x hx i).1 h1] at h2
    norm_num at h2
  have h2 : missed t l i = 0 := by
    unfold missed
    rw [weight_sum]
    refine List.sum_eq_zero fun y hy => ?_
    obtain ⟨x, hx, rfl⟩ := List.mem_map.1 hy
    rw [if_neg]
    rintro ⟨h1, h2⟩
    exact h1 ((hp x hx i).2 h2)
  refine ⟨h1, h2, hits_nonneg (fun x hx => (hw x hx).le) i, ?_, ?_, ?_⟩
  · rintro ⟨x, hx, hxi⟩
    unfold hits
    rw [weight_sum]
    have hmem : x.1 ∈ l.map fun x => @ite ℚ (Predicted t x.2.pred i ∧ x.2.truth i = 1) (Classical.propDecidable _) x.1 0 :=
      List.mem_map.2 ⟨x, hx, by rw [if_pos ⟨(hp x hx i).2 hxi, hxi⟩]⟩
    refine lt_of_lt_of_le (hw x hx) (List.single_le_sum (fun y hy => ?_) _ hmem)
    obtain ⟨z, hz, rfl⟩ := List.mem_map.1 hy
    split_ifs
    · exact (hw z hz).le
    · exact le_refl 0
  · unfold hits size
    simp only [weight_sum]
    congr 1
    refine List.map_congr_left fun x hx => ?_
    by_cases h : x.2.truth i = 1
    · rw [if_pos ⟨(hp x hx i).2 h, h⟩, if_pos h]
    · rw [if_neg fun h' => h h'.2, if_neg h]
  · intro h0
    unfold classScore
    rw [h1, h2]
    have : hits t l i = 0 := by
      unfold hits
      rw [weight_sum]
      refine List.sum_eq_zero fun y hy => ?_
      obtain ⟨x, hx, rfl⟩ := List.mem_map.1 hy
      rw [if_neg]
      rintro ⟨_, h2⟩
      exact h0 x hx h2
    rw [this, F_zero]

open Classical in
/-- If every class is predicted exactly where it is true, a class that occurs has the score one and a class that does not occur zero;
over all classes, and over the classes by their size, the score is one; the mean is the share of classes that occur. -/
theorem C86_perfect (m : Metric) (hb : 0 < m.beta) {bs : List (List (Sample m.classes) × Option (List ℚ))}
    {l : List (ℚ × Sample m.classes)} (h : Given bs l) (hl : ∀ x ∈ l, Labelled x.2) (hw : ∀ x ∈ l, 0 < x.1)
    (hp : ∀ x ∈ l, ∀ i, Predicted m.threshold x.2.pred i ↔ x.2.truth i = 1) (some : ∃ x ∈ l, ∃ i, x.2.truth i = 1) :
    ∃ s, updates m bs (start m) = .ok s ∧ result m s = match m.average with
      | none => .vector ((List.finRange m.classes).map fun i => if ∃ x ∈ l, x.2.truth i = 1 then 1 else 0)
      | .some .macro => .number ((Finset.univ.filter fun i : Fin m.classes => ∃ x ∈ l, x.2.truth i = 1).card / m.classes)
      | .some _ => .number 1 := by
  obtain ⟨s, hs, hr⟩ := C86_score m hb h hl fun x hx => (hw x hx).le
  refine ⟨s, hs, ?_⟩
  rw [hr]
  have hc : ∀ i, classScore m.beta m.threshold l i = if ∃ x ∈ l, x.2.truth i = 1 then 1 else 0 := by
    intro i
    obtain ⟨h1, h2, _, h3, _, h4⟩ := perfect_counts (beta := m.beta) hp hw i
    split_ifs with hi
    · unfold classScore
      rw [h1, h2]
      exact F_perfect (h3 hi)
    · exact h4 fun x hx hxi => hi ⟨x, hx, hxi⟩
  obtain ⟨x, hx, i, hxi⟩ := some
  have hpos : 0 < ∑ i, hits m.threshold l i :=
    Finset.sum_pos' (fun i _ => (perfect_counts (beta := m.beta) hp hw i).2.2.1)
      ⟨i, Finset.mem_univ i, (perfect_counts (beta := m.beta) hp hw i).2.2.2.1 ⟨x, hx, hxi⟩⟩
  have hsz : ∀ i, size l i = hits m.threshold l i := fun i => (perfect_counts (beta := m.beta) hp hw i).2.2.2.2.1.symm
  rcases m.average with _ | (_ | _ | _)
  · simp only [funext hc]
  · simp only [(perfect_counts (beta := m.beta) hp hw _).1, (perfect_counts (beta := m.beta) hp hw _).2.1, Finset.sum_const_zero]
    rw [F_perfect hpos]
  · simp only [hc, Finset.sum_boole]
  · simp only [hsz]
    have : ∀ i, hits m.threshold l i * classScore m.beta m.threshold l i = hits m.threshold l i := by
      intro i
      rw [hc i]
      split_ifs with hi
      · rw [mul_one]
      · rw [mul_zero, ← hsz i]
        unfold size
        rw [weight_sum]
        symm
        refine List.sum_eq_zero fun y hy => ?_
        obtain ⟨z, hz, rfl⟩ := List.mem_map.1 hy
        rw [if_neg fun h => hi ⟨z, hz, h⟩]
    simp only [this]
    rw [div_self hpos.ne']

/-- A sample predicted rightly. -/
example : Labelled (⟨![1, 0], ![3, 1]⟩ : Sample 2) ∧ ∀ i, Predicted none ![(3 : ℚ), 1] i ↔ ![(1 : ℚ), 0] i = 1 := by
  refine ⟨fun i => by fin_cases i <;> simp, fun i => ?_⟩
  unfold Predicted
  fin_cases i <;> simp [Fin.forall_fin_two]
  norm_num

theorem sum_swap {n : ℕ} (l : List (ℚ × Sample n)) (f : ℚ × Sample n → Fin n → ℚ) :
    ∑ i, (l.map fun x => f x i).sum = (l.map fun x => ∑ i, f x i).sum := by
  induction l with
  | nil => simp
  | cons a t ih => simp [Finset.sum_add_distrib, ih]

open Classical in
/-- If every sample has one class and one prediction, the score of all classes together is the share of samples whose class is
predicted, whatever `beta`. -/
theorem C86_accuracy (m : Metric) (hb : 0 < m.beta) (ha : m.average = some .micro)
    {bs : List (List (Sample m.classes) × Option (List ℚ))} {l : List (ℚ × Sample m.classes)} (h : Given bs l)
    (hl : ∀ x ∈ l, Labelled x.2) (hw : ∀ x ∈ l, 0 ≤ x.1) (one : ∀ x ∈ l, ∃! i, x.2.truth i = 1)
    (pred : ∀ x ∈ l, ∃! i, Predicted m.threshold x.2.pred i) :
    ∃ s, updates m bs (start m) = .ok s ∧ result m s =
      .number (weight l (fun x => ∃ i, Predicted m.threshold x.pred i ∧ x.truth i = 1) / (l.map Prod.fst).sum) := by
  obtain ⟨s, hs, hr⟩ := C86_score m hb h hl hw
  refine ⟨s, hs, ?_⟩
  rw [hr, ha]
  simp only [Result.number.injEq]
  have total : ∀ (Q : Sample m.classes → Fin m.classes → Prop), (∀ x ∈ l, ∃! i, Q x.2 i) →
      ∑ i, weight l (fun x => Q x i) = (l.map Prod.fst).sum := by
    intro Q hQ
    simp only [weight_sum]
    rw [sum_swap l fun x i => if Q x.2 i then x.1 else 0]
    congr 1
    refine List.map_congr_left fun x hx => ?_
    obtain ⟨i, hi, hu⟩ := hQ x hx
    rw [Finset.sum_eq_single i]
    · rw [if_pos hi]
    · intro j _ hj
      rw [if_neg fun hq => hj (hu j hq)]
    · intro hni; exact absurd (Finset.mem_univ i) hni
  have split : ∀ (P Q R : Sample m.classes → Prop), (∀ x ∈ l, (Q x.2 ∧ ¬ R x.2 ∨ R x.2 ∧ ¬ Q x.2) ↔ P x.2) →
      (∀ x ∈ l, ¬ (Q x.2 ∧ R x.2)) → weight l Q + weight l R = weight l P := by
    intro P Q R hPQR hno
    simp only [weight_sum]
    rw [← List.sum_map_add]
    congr 1
    refine List.map_congr_left fun x hx => ?_
    have h1 := hPQR x hx
    have h2 := hno x hx
    by_cases hq : Q x.2 <;> by_cases hr : R x.2
    · exact absurd ⟨hq, hr⟩ h2
    · have : P x.2 := h1.1 (.inl ⟨hq, hr⟩)
      simp [hq, hr, this]
    · have : P x.2 := h1.1 (.inr ⟨hr, hq⟩)
      simp [hq, hr, this]
    · have : ¬ P x.2 := fun hp => by rcases h1.2 hp with h | h <;> tauto
      simp [hq, hr, this]
  have e1 : ∑ i, hits m.threshold l i + ∑ i, wrong m.threshold l i = (l.map Prod.fst).sum := by
    rw [← Finset.sum_add_distrib, ← total (fun x i => Predicted m.threshold x.pred i) pred]
    refine Finset.sum_congr rfl fun i _ => split _ _ _ (fun x hx => ?_) fun x hx => ?_
    · rcases hl x hx i with h | h <;> simp [h]
    · rintro ⟨⟨_, h1⟩, _, h2⟩
      rw [h1] at h2; norm_num at h2
  have e2 : ∑ i, hits m.threshold l i + ∑ i, missed m.threshold l i = (l.map Prod.fst).sum := by
    rw [← Finset.sum_add_distrib, ← total (fun x i => x.truth i = 1) one]
    refine Finset.sum_congr rfl fun i _ => split _ _ _ (fun x hx => ?_) fun x hx => ?_
    · by_cases hp : Predicted m.threshold x.2.pred i <;> simp [hp]
    · rintro ⟨⟨h1, _⟩, h2, _⟩
      exact h2 h1
  have e3 : ∑ i, hits m.threshold l i = weight l fun x => ∃ i, Predicted m.threshold x.pred i ∧ x.truth i = 1 := by
    unfold hits
    simp only [weight_sum]
    rw [sum_swap l fun x i => @ite ℚ (Predicted m.threshold x.2.pred i ∧ x.2.truth i = 1) (Classical.propDecidable _) x.1 0]
    congr 1
    refine List.map_congr_left fun x hx => ?_
    obtain ⟨i, hi, hu⟩ := one x hx
    by_cases hp : Predicted m.threshold x.2.pred i
    · rw [if_pos ⟨i, hp, hi⟩, Finset.sum_eq_single i]
      · rw [if_pos ⟨hp, hi⟩]
      · intro j _ hj
        rw [if_neg fun hq => hj (hu j hq.2)]
      · intro hni; exact absurd (Finset.mem_univ i) hni
    · rw [if_neg]
      · refine Finset.sum_eq_zero fun j _ => ?_
        rw [if_neg]
        rintro ⟨h1, h2⟩
        rw [hu j h2] at h1
        exact hp h1
      · rintro ⟨j, h1, h2⟩
        rw [hu j h2] at h1
        exact hp h1
  rw [← e3]
  have hwr : ∑ i, wrong m.threshold l i = (l.map Prod.fst).sum - ∑ i, hits m.threshold l i := by linarith
  have hmi : ∑ i, missed m.threshold l i = (l.map Prod.fst).sum - ∑ i, hits m.threshold l i := by linarith
  rw [hwr, hmi]
  unfold F
  have hpos : (1 + m.beta ^ 2) ≠ 0 := by positivity
  rw [show (1 + m.beta ^ 2) * ∑ i, hits m.threshold l i + m.beta ^ 2 * ((l.map Prod.fst).sum - ∑ i, hits m.threshold l i) +
    ((l.map Prod.fst).sum - ∑ i, hits m.threshold l i) = (1 + m.beta ^ 2) * (l.map Prod.fst).sum by ring]
  exact mul_div_mul_left _ _ hpos

/-! ### What does not hold -/

/-- Without a threshold every class with the largest prediction counts as predicted, not one: with two equal predictions for two classes
the score of a sample is two thirds, not zero or one. -/
theorem C86_ties_fails : ∃ s, updates ⟨2, some .micro, 1, none⟩ [([⟨![1, 0], ![1, 1]⟩], none)] (start ⟨2, some .micro, 1, none⟩) = .ok s ∧
    result ⟨2, some .micro, 1, none⟩ s = .number (2 / 3) := ⟨_, rfl, by decide +kernel⟩

/-- The mean over classes counts a class that does not occur as zero: perfect predictions of one class of two score one half. -/
theorem C86_absent_fails : ∃ s, updates ⟨2, some .macro, 1, none⟩ [([⟨![1, 0], ![1, 0]⟩], none)] (start ⟨2, some .macro, 1, none⟩) = .ok s ∧
    result ⟨2, some .macro, 1, none⟩ s = .number (1 / 2) := ⟨_, rfl, by decide +kernel⟩

end Verif.Props.FScore
