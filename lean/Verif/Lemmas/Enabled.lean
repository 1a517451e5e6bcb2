import Verif.Spec.Enabled
import Verif.Lemmas.PyDict

/-!
# Lemmas about options and calculations
-/

namespace Verif.Lemmas.Enabled

open Verif Verif.Options Verif.Enabled Verif.Spec.Enabled

variable {F H : Type} {A : Arith F} {step : H → List F → H}

/-- The calculations of a list, leaving out those that are not chosen. -/
def performIf (A : Arith F) (step : H → List F → H) (en : String → Bool) (p : Prev F) (values : List F) :
    List String → Col F H → Batch F → Except Err (Col F H × Batch F)
  | [], s, b => .ok (s, b)
  | n :: rest, s, b =>
    if en n then (calculate A step p values n s b).bind fun r => performIf A step en p values rest r.1 r.2
    else performIf A step en p values rest s b

theorem perform_filter (en : String → Bool) (p : Prev F) (values : List F) (ns : List String) :
    ∀ (s : Col F H) (b : Batch F), perform A step p values (ns.filter en) s b = performIf A step en p values ns s b := by
  induction ns with
  | nil => intro s b; rfl
  | cons n rest ih =>
    intro s b
    by_cases h : en n = true
    · rw [List.filter_cons_of_pos h, perform, performIf, if_pos h]
      congr 1
      funext r
      exact ih r.1 r.2
    · rw [List.filter_cons_of_neg h, performIf, if_neg h]
      exact ih s b

/-- The statistics kept of a batch agree. -/
structure SubAgree (l : String → Bool) (b c : Batch F) : Prop where
  sum : l "sum" = true → b.sum = c.sum
  mean : l "variance" = true → b.mean = c.mean
  var : l "variance" = true → b.var = c.var
  skew : l "skewness" = true → b.skew = c.skew

/-- The statistics before a batch agree. -/
structure PrevAgree (l : String → Bool) (p q : Prev F) : Prop where
  mean : l "sum" = true → p.mean = q.mean
  var : l "variance" = true → p.var = q.var
  skew : l "skewness" = true → p.skew = q.skew

/-- Agreement, for a chosen set. -/
structure ColAgree (l : String → Bool) (s t : Col F H) : Prop where
  count : s.count = t.count
  min : l "min" = true → s.min = t.min
  max : l "max" = true → s.max = t.max
  sum : l "sum" = true → s.sum = t.sum
  var : l "variance" = true → s.var = t.var
  skew : l "skewness" = true → s.skew = t.skew
  kurt : l "kurtosis" = true → s.kurt = t.kurt
  hist : l "histogram_and_quantiles" = true → s.hist = t.hist
  zeros : l "num_zeros" = true → s.zeros = t.zeros
  negatives : l "num_negatives" = true → s.negatives = t.negatives

/-- A closed choice. -/
structure Needs (l : String → Bool) : Prop where
  variance : l "variance" = true → l "sum" = true
  skewness : l "skewness" = true → l "variance" = true
  kurtosis : l "kurtosis" = true → l "skewness" = true

theorem bind_ok {ε α β : Type} {x : Except ε α} {f : α → Except ε β} {y : β} (h : x.bind f = .ok y) :
    ∃ a, x = .ok a ∧ f a = .ok y := by
  cases x with
  | error e => exact nomatch h
  | ok a => exact ⟨a, rfl, h⟩

theorem need_ok {α : Type} {x : Option α} {y : α} (h : need x = .ok y) : x = some y := by
  cases x with
  | none => exact nomatch h
  | some a => injection h with h; rw [h]

/-- A calculation that is not chosen changes nothing that is compared. -/
theorem skip {en : String → Bool} {p : Prev F} {values : List F} {n : String} (hn : en n = false) {s t : Col F H}
    {b c : Batch F} (hs : ColAgree en s t) (hb : SubAgree en b c) {r : Col F H × Batch F}
    (h : calculate A step p values n s b = .ok r) : ColAgree en r.1 t ∧ SubAgree en r.2 c := by
  have no : ∀ {m : String}, n = m → en m = true → False := fun e h => by rw [← e, hn] at h; cases h
  rw [calculate] at h
  split at h
  · rename_i e; injection h with h; subst h
    exact ⟨{ hs with min := fun h => (no e h).elim }, hb⟩
  split at h
  · rename_i e; injection h with h; subst h
    exact ⟨{ hs with max := fun h => (no e h).elim }, hb⟩
  split at h
  · rename_i e; injection h with h; subst h
    rw [getSum]
    split
    · exact ⟨hs, hb⟩
    · exact ⟨{ hs with sum := fun h => (no e h).elim }, { hb with sum := fun h => (no e h).elim }⟩
  split at h
  · rename_i e
    rw [getVariance] at h
    split at h
    · injection h with h; subst h; exact ⟨hs, hb⟩
    · obtain ⟨x, -, h⟩ := bind_ok h
      injection h with h; subst h
      exact ⟨{ hs with var := fun h => (no e h).elim },
        { hb with mean := fun h => (no e h).elim, var := fun h => (no e h).elim }⟩
  split at h
  · rename_i e
    rw [getSkewness] at h
    split at h
    · injection h with h; subst h; exact ⟨hs, hb⟩
    · obtain ⟨x, -, h⟩ := bind_ok h
      obtain ⟨y, -, h⟩ := bind_ok h
      injection h with h; subst h
      exact ⟨{ hs with skew := fun h => (no e h).elim }, { hb with skew := fun h => (no e h).elim }⟩
  split at h
  · rename_i e
    rw [getKurtosis] at h
    split at h
    · injection h with h; subst h; exact ⟨hs, hb⟩
    · obtain ⟨x, -, h⟩ := bind_ok h
      obtain ⟨y, -, h⟩ := bind_ok h
      obtain ⟨z, -, h⟩ := bind_ok h
      injection h with h; subst h
      exact ⟨{ hs with kurt := fun h => (no e h).elim }, hb⟩
  split at h
  · rename_i e; injection h with h; subst h
    exact ⟨{ hs with hist := fun h => (no e h).elim }, hb⟩
  split at h
  · rename_i e; injection h with h; subst h
    exact ⟨{ hs with zeros := fun h => (no e h).elim }, hb⟩
  split at h
  · rename_i e; injection h with h; subst h
    exact ⟨{ hs with negatives := fun h => (no e h).elim }, hb⟩
  · cases h

/-- A chosen calculation succeeds on a column that agrees, and leaves agreement. -/
theorem both {en : String → Bool} (hc : Needs en) {p q : Prev F} (hp : PrevAgree en p q) {values : List F} {n : String}
    (hn : en n = true) {s t : Col F H} {b c : Batch F} (hs : ColAgree en s t) (hb : SubAgree en b c) {r : Col F H × Batch F}
    (h : calculate A step p values n s b = .ok r) :
    ∃ r', calculate A step q values n t c = .ok r' ∧ ColAgree en r.1 r'.1 ∧ SubAgree en r.2 r'.2 := by
  rw [calculate] at h ⊢
  split at h
  · rename_i e; injection h with h; subst h; subst e
    refine ⟨_, if_pos rfl, { hs with min := fun _ => ?_ }, hb⟩
    simp only [getMin, hs.min hn]
  split at h
  · rename_i e; injection h with h; subst h; subst e
    rw [if_neg (by decide), if_pos rfl]
    refine ⟨_, rfl, { hs with max := fun _ => ?_ }, hb⟩
    simp only [getMax, hs.max hn]
  split at h
  · rename_i e; injection h with h; subst h; subst e
    rw [if_neg (by decide), if_neg (by decide), if_pos rfl]
    refine ⟨_, rfl, ?_⟩
    have e : spoiled A s.sum s.count = spoiled A t.sum t.count := by rw [hs.sum hn, hs.count]
    rw [getSum, getSum, e]
    split
    · exact ⟨hs, hb⟩
    · exact ⟨{ hs with sum := fun _ => by simp only [hs.sum hn] }, { hb with sum := fun _ => rfl }⟩
  split at h
  · rename_i e; subst e
    rw [if_neg (by decide), if_neg (by decide), if_neg (by decide), if_pos rfl]
    rw [getVariance] at h ⊢
    have hsum := hc.variance hn
    have e : spoiled A s.var s.count = spoiled A t.var t.count := by rw [hs.var hn, hs.count]
    rw [e] at h
    split at h
    · rename_i g; injection h with h; subst h; rw [if_pos g]; exact ⟨_, rfl, hs, hb⟩
    · rename_i g
      obtain ⟨x, hx, h⟩ := bind_ok h
      injection h with h; subst h
      rw [if_neg g, ← hb.sum hsum, hx]
      exact ⟨_, rfl, { hs with var := fun _ => by simp only [hs.var hn, hs.count, hp.mean hsum] },
        { hb with sum := fun _ => rfl, mean := fun _ => rfl, var := fun _ => rfl }⟩
  split at h
  · rename_i e; subst e
    rw [if_neg (by decide), if_neg (by decide), if_neg (by decide), if_neg (by decide), if_pos rfl]
    rw [getSkewness] at h ⊢
    have hvar := hc.skewness hn
    have hsum := hc.variance hvar
    have e : spoiled A s.skew s.count = spoiled A t.skew t.count := by rw [hs.skew hn, hs.count]
    rw [e] at h
    split at h
    · rename_i g; injection h with h; subst h; rw [if_pos g]; exact ⟨_, rfl, hs, hb⟩
    · rename_i g
      obtain ⟨x, hx, h⟩ := bind_ok h
      obtain ⟨y, hy, h⟩ := bind_ok h
      injection h with h; subst h
      rw [if_neg g, ← hb.mean hvar, ← hb.var hvar, hx, hy]
      exact ⟨_, rfl, { hs with skew := fun _ => by simp only [hs.skew hn, hs.count, hp.mean hsum, hp.var hvar] },
        { hb with mean := fun _ => rfl, var := fun _ => rfl, skew := fun _ => rfl }⟩
  split at h
  · rename_i e; subst e
    rw [if_neg (by decide), if_neg (by decide), if_neg (by decide), if_neg (by decide), if_neg (by decide), if_pos rfl]
    rw [getKurtosis] at h ⊢
    have hskew := hc.kurtosis hn
    have hvar := hc.skewness hskew
    have hsum := hc.variance hvar
    have e : spoiled A s.kurt s.count = spoiled A t.kurt t.count := by rw [hs.kurt hn, hs.count]
    rw [e] at h
    split at h
    · rename_i g; injection h with h; subst h; rw [if_pos g]; exact ⟨_, rfl, hs, hb⟩
    · rename_i g
      obtain ⟨x, hx, h⟩ := bind_ok h
      obtain ⟨y, hy, h⟩ := bind_ok h
      obtain ⟨z, hz, h⟩ := bind_ok h
      injection h with h; subst h
      rw [if_neg g, ← hb.mean hvar, ← hb.var hvar, ← hb.skew hskew, hx, hy, hz]
      exact ⟨_, rfl, { hs with
        kurt := fun _ => by simp only [hs.kurt hn, hs.count, hp.mean hsum, hp.var hvar, hp.skew hskew] }, hb⟩
  split at h
  · rename_i e; injection h with h; subst h; subst e
    rw [if_neg (by decide), if_neg (by decide), if_neg (by decide), if_neg (by decide), if_neg (by decide), if_neg (by decide), if_pos rfl]
    refine ⟨_, rfl, { hs with hist := fun _ => ?_ }, hb⟩
    simp only [hs.hist hn]
  split at h
  · rename_i e; injection h with h; subst h; subst e
    rw [if_neg (by decide), if_neg (by decide), if_neg (by decide), if_neg (by decide), if_neg (by decide), if_neg (by decide), if_neg (by decide), if_pos rfl]
    refine ⟨_, rfl, { hs with zeros := fun _ => ?_ }, hb⟩
    simp only [hs.zeros hn]
  split at h
  · rename_i e; injection h with h; subst h; subst e
    rw [if_neg (by decide), if_neg (by decide), if_neg (by decide), if_neg (by decide), if_neg (by decide), if_neg (by decide), if_neg (by decide), if_neg (by decide), if_pos rfl]
    refine ⟨_, rfl, { hs with negatives := fun _ => ?_ }, hb⟩
    simp only [hs.negatives hn]
  · cases h

theorem perform_agree {en all : String → Bool} (hc : Needs en) (hall : ∀ n, en n = true → all n = true) {p q : Prev F}
    (hp : PrevAgree en p q) {values : List F} (ns : List String) : ∀ {s t : Col F H} {b c : Batch F}, ColAgree en s t →
      SubAgree en b c → ∀ {r : Col F H × Batch F}, performIf A step all p values ns s b = .ok r →
      ∃ r', performIf A step en q values ns t c = .ok r' ∧ ColAgree en r.1 r'.1 ∧ SubAgree en r.2 r'.2 := by
  induction ns with
  | nil => intro s t b c hs hb r h; injection h with h; subst h; exact ⟨_, rfl, hs, hb⟩
  | cons n rest ih =>
    intro s t b c hs hb r h
    rw [performIf] at h ⊢
    by_cases hn : en n = true
    · rw [if_pos (hall n hn)] at h
      obtain ⟨r1, h1, h2⟩ := bind_ok h
      obtain ⟨r2, h3, h4, h5⟩ := both hc hp hn hs hb h1
      obtain ⟨r3, h6, h7⟩ := ih h4 h5 h2
      exact ⟨r3, by rw [if_pos hn, h3]; exact h6, h7⟩
    · rw [if_neg hn]
      by_cases ha : all n = true
      · rw [if_pos ha] at h
        obtain ⟨r1, h1, h2⟩ := bind_ok h
        obtain ⟨h4, h5⟩ := skip (by simpa using hn) hs hb h1
        exact ih h4 h5 h2
      · rw [if_neg ha] at h
        exact ih hs hb h

theorem update_filter (en : String → Bool) (values : List F) (s : Col F H) :
    update A step (numericNames.filter en) values s =
      (if values = [] then .ok s
        else (performIf A step en ⟨mean A s, s.var, s.skew, s.kurt⟩ values numericNames s {}).map Prod.fst).map fun r =>
          { r with count := r.count + values.length } := by
  rw [update]
  by_cases hv : values = []
  · rw [if_pos (Or.inr hv), if_pos hv]
  · by_cases hn : numericNames.filter en = []
    · rw [if_pos (Or.inl hn), if_neg hv, ← perform_filter, hn]
      rfl
    · rw [if_neg (by simp [hv, hn]), if_neg hv, perform_filter]

theorem map_ok {ε α β : Type} {x : Except ε α} {f : α → β} {y : β} (h : x.map f = .ok y) : ∃ a, x = .ok a ∧ f a = y := by
  cases x with
  | error e => exact nomatch h
  | ok a => injection h with h; exact ⟨a, rfl, h⟩

theorem update_agree {en all : String → Bool} (hc : Needs en) (hall : ∀ n, en n = true → all n = true) {values : List F}
    {s t s' : Col F H} (hs : ColAgree en s t) (h : update A step (numericNames.filter all) values s = .ok s') :
    ∃ t', update A step (numericNames.filter en) values t = .ok t' ∧ ColAgree en s' t' := by
  rw [update_filter] at h ⊢
  obtain ⟨r, g, rfl⟩ := map_ok h
  clear h
  by_cases hv : values = []
  · rw [if_pos hv] at g ⊢
    injection g with g; subst g
    exact ⟨_, rfl, { hs with count := by simp only [hs.count] }⟩
  · rw [if_neg hv] at g ⊢
    obtain ⟨r', h, rfl⟩ := map_ok g
    have hp : PrevAgree en (⟨mean A s, s.var, s.skew, s.kurt⟩ : Prev F) ⟨mean A t, t.var, t.skew, t.kurt⟩ :=
      ⟨fun g => by simp only [mean, hs.sum g, hs.count], hs.var, hs.skew⟩
    obtain ⟨q, h1, h2, -⟩ := perform_agree hc hall hp numericNames hs ⟨fun _ => rfl, fun _ => rfl, fun _ => rfl, fun _ => rfl⟩ h
    rw [h1]
    exact ⟨_, rfl, { h2 with count := by simp only [h2.count] }⟩

theorem updates_agree {en all : String → Bool} (hc : Needs en) (hall : ∀ n, en n = true → all n = true)
    (batches : List (List F)) : ∀ {s t s' : Col F H}, ColAgree en s t →
      updates A step (numericNames.filter all) batches s = .ok s' →
      ∃ t', updates A step (numericNames.filter en) batches t = .ok t' ∧ ColAgree en s' t' := by
  induction batches with
  | nil => intro s t s' hs h; injection h with h; subst h; exact ⟨t, rfl, hs⟩
  | cons v rest ih =>
    intro s t s' hs h
    obtain ⟨s1, h1, h2⟩ := bind_ok h
    obtain ⟨t1, h3, h4⟩ := update_agree hc hall hs h1
    obtain ⟨t', h5, h6⟩ := ih h4 h2
    exact ⟨t', by rw [updates, h3]; exact h5, h6⟩

/-! ### What is not chosen stays -/

/-- What is not chosen stays, for a chosen set. -/
structure Stays (l : String → Bool) (s t : Col F H) : Prop where
  count : s.count = t.count
  min : l "min" = false → s.min = t.min
  max : l "max" = false → s.max = t.max
  sum : l "sum" = false → s.sum = t.sum
  var : l "variance" = false → s.var = t.var
  skew : l "skewness" = false → s.skew = t.skew
  kurt : l "kurtosis" = false → s.kurt = t.kurt
  hist : l "histogram_and_quantiles" = false → s.hist = t.hist
  zeros : l "num_zeros" = false → s.zeros = t.zeros
  negatives : l "num_negatives" = false → s.negatives = t.negatives

theorem calculate_stays {en : String → Bool} {p : Prev F} {values : List F} {n : String} (hn : en n = true)
    {s t : Col F H} {b : Batch F} (hs : Stays en s t) {r : Col F H × Batch F}
    (h : calculate A step p values n s b = .ok r) : Stays en r.1 t := by
  have no : ∀ {m : String}, n = m → en m = false → False := fun e h => by rw [← e, hn] at h; cases h
  rw [calculate] at h
  split at h
  · rename_i e; injection h with h; subst h; exact { hs with min := fun h => (no e h).elim }
  split at h
  · rename_i e; injection h with h; subst h; exact { hs with max := fun h => (no e h).elim }
  split at h
  · rename_i e; injection h with h; subst h
    rw [getSum]
    split
    · exact hs
    · exact { hs with sum := fun h => (no e h).elim }
  split at h
  · rename_i e
    rw [getVariance] at h
    split at h
    · injection h with h; subst h; exact hs
    · obtain ⟨x, -, h⟩ := bind_ok h
      injection h with h; subst h
      exact { hs with var := fun h => (no e h).elim }
  split at h
  · rename_i e
    rw [getSkewness] at h
    split at h
    · injection h with h; subst h; exact hs
    · obtain ⟨x, -, h⟩ := bind_ok h
      obtain ⟨y, -, h⟩ := bind_ok h
      injection h with h; subst h
      exact { hs with skew := fun h => (no e h).elim }
  split at h
  · rename_i e
    rw [getKurtosis] at h
    split at h
    · injection h with h; subst h; exact hs
    · obtain ⟨x, -, h⟩ := bind_ok h
      obtain ⟨y, -, h⟩ := bind_ok h
      obtain ⟨z, -, h⟩ := bind_ok h
      injection h with h; subst h
      exact { hs with kurt := fun h => (no e h).elim }
  split at h
  · rename_i e; injection h with h; subst h; exact { hs with hist := fun h => (no e h).elim }
  split at h
  · rename_i e; injection h with h; subst h; exact { hs with zeros := fun h => (no e h).elim }
  split at h
  · rename_i e; injection h with h; subst h; exact { hs with negatives := fun h => (no e h).elim }
  · cases h

theorem perform_stays {en : String → Bool} {p : Prev F} {values : List F} (ns : List String) :
    ∀ {s t : Col F H} {b : Batch F}, Stays en s t → ∀ {r : Col F H × Batch F},
      performIf A step en p values ns s b = .ok r → Stays en r.1 t := by
  induction ns with
  | nil => intro s t b hs r h; injection h with h; subst h; exact hs
  | cons n rest ih =>
    intro s t b hs r h
    rw [performIf] at h
    split at h
    · rename_i hn
      obtain ⟨r1, h1, h2⟩ := bind_ok h
      exact ih (calculate_stays hn hs h1) h2
    · exact ih hs h

/-- Stays, apart from the number of values. -/
theorem update_stays {en : String → Bool} {values : List F} {s s' : Col F H}
    (h : update A step (numericNames.filter en) values s = .ok s') :
    Stays en { s' with count := s.count } s ∧ s'.count = s.count + values.length := by
  rw [update_filter] at h
  obtain ⟨r, g, rfl⟩ := map_ok h
  clear h
  have base : Stays en s s := by constructor <;> first | rfl | intro _; rfl
  by_cases hv : values = []
  · rw [if_pos hv] at g
    injection g with g; subst g
    exact ⟨base, rfl⟩
  · rw [if_neg hv] at g
    obtain ⟨r', h, rfl⟩ := map_ok g
    have := perform_stays numericNames base h
    exact ⟨{ this with count := rfl }, by simp only [this.count]⟩

/-! ### Success -/

theorem spoiled_iff {x : F} {c : ℕ} :
    spoiled A x c = true ↔ A.isInf x = true ∨ A.isNan x = true ∧ 0 < c := by
  simp [spoiled]

theorem cont {en : String → Bool} {p : Prev F} {values : List F} {n : String} {rest : List String} {s : Col F H}
    {b : Batch F}
    (h : en n = true → ∃ r, calculate A step p values n s b = .ok r ∧ ∃ r', performIf A step en p values rest r.1 r.2 = .ok r')
    (g : en n = false → ∃ r', performIf A step en p values rest s b = .ok r') :
    ∃ r, performIf A step en p values (n :: rest) s b = .ok r := by
  rw [performIf]
  cases hn : en n with
  | true =>
    obtain ⟨r, h1, r', h2⟩ := h hn
    exact ⟨r', by rw [if_pos rfl, h1]; exact h2⟩
  | false =>
    obtain ⟨r', h2⟩ := g hn
    exact ⟨r', by rw [if_neg (by simp)]; exact h2⟩

theorem tail_ok (en : String → Bool) (p : Prev F) (values : List F) (s : Col F H) (b : Batch F) :
    ∃ r, performIf A step en p values ["histogram_and_quantiles", "num_zeros", "num_negatives"] s b = .ok r := by
  have h3 : ∀ s : Col F H, ∃ r, performIf A step en p values ["num_negatives"] s b = .ok r := fun s =>
    cont (fun _ => ⟨_, rfl, _, rfl⟩) (fun _ => ⟨_, rfl⟩)
  have h2 : ∀ s : Col F H, ∃ r, performIf A step en p values ["num_zeros", "num_negatives"] s b = .ok r := fun s =>
    cont (fun _ => ⟨_, rfl, h3 _⟩) (fun _ => h3 _)
  exact cont (fun _ => ⟨_, rfl, h2 _⟩) (fun _ => h2 _)

theorem isSome_need {α : Type} {x : Option α} (h : x.isSome = true) : ∃ y, x = some y ∧ need x = .ok y := by
  cases x with
  | none => cases h
  | some y => exact ⟨y, rfl, rfl⟩

theorem kurt_ok {en : String → Bool} {p : Prev F} {values : List F} {s : Col F H} {b : Batch F}
    (h : en "kurtosis" = true → spoiled A s.kurt s.count = false →
      b.var.isSome = true ∧ b.skew.isSome = true ∧ b.mean.isSome = true) :
    ∃ r, performIf A step en p values ["kurtosis", "histogram_and_quantiles", "num_zeros", "num_negatives"] s b = .ok r := by
  refine cont (fun hn => ?_) (fun _ => tail_ok ..)
  have e : calculate A step p values "kurtosis" s b = getKurtosis A p values s b := rfl
  rw [e, getKurtosis]
  cases hs : spoiled A s.kurt s.count with
  | true => rw [if_pos rfl]; exact ⟨_, rfl, tail_ok ..⟩
  | false =>
    obtain ⟨h1, h2, h3⟩ := h hn hs
    obtain ⟨x, -, hx⟩ := isSome_need h1
    obtain ⟨y, -, hy⟩ := isSome_need h2
    obtain ⟨z, -, hz⟩ := isSome_need h3
    rw [if_neg (by simp), hx, hy, hz]
    exact ⟨_, rfl, tail_ok ..⟩

theorem skew_ok {en : String → Bool} (hc : Needs en) {p : Prev F} {values : List F} {s : Col F H} {b : Batch F}
    (h : en "skewness" = true → spoiled A s.skew s.count = false → b.var.isSome = true ∧ b.mean.isSome = true)
    (h3 : en "kurtosis" = true → spoiled A s.skew s.count = true → spoiled A s.kurt s.count = true) :
    ∃ r, performIf A step en p values ["skewness", "kurtosis", "histogram_and_quantiles", "num_zeros", "num_negatives"] s b
      = .ok r := by
  refine cont (fun hn => ?_) (fun hn => kurt_ok fun hk => ?_)
  · have e : calculate A step p values "skewness" s b = getSkewness A p values s b := rfl
    rw [e, getSkewness]
    cases hs : spoiled A s.skew s.count with
    | true =>
      rw [if_pos rfl]
      refine ⟨_, rfl, kurt_ok fun hk hks => ?_⟩
      rw [h3 hk hs] at hks
      cases hks
    | false =>
      obtain ⟨h1, h2⟩ := h hn hs
      obtain ⟨x, hx', hx⟩ := isSome_need h1
      obtain ⟨y, hy', hy⟩ := isSome_need h2
      rw [if_neg (by simp), hx, hy]
      exact ⟨_, rfl, kurt_ok fun _ _ => ⟨h1, rfl, h2⟩⟩
  · rw [hc.kurtosis hk] at hn; cases hn

theorem var_ok {en : String → Bool} (hc : Needs en) {p : Prev F} {values : List F} {s : Col F H} {b : Batch F}
    (h : en "variance" = true → spoiled A s.var s.count = false → b.sum.isSome = true)
    (h2 : en "skewness" = true → spoiled A s.var s.count = true → spoiled A s.skew s.count = true)
    (h3 : en "kurtosis" = true → spoiled A s.skew s.count = true → spoiled A s.kurt s.count = true) :
    ∃ r, performIf A step en p values
      ["variance", "skewness", "kurtosis", "histogram_and_quantiles", "num_zeros", "num_negatives"] s b = .ok r := by
  refine cont (fun hn => ?_) (fun hn => skew_ok hc (fun hk => ?_) h3)
  · have e : calculate A step p values "variance" s b = getVariance A p values s b := rfl
    rw [e, getVariance]
    cases hs : spoiled A s.var s.count with
    | true =>
      rw [if_pos rfl]
      refine ⟨_, rfl, skew_ok hc (fun hk hks => ?_) h3⟩
      rw [h2 hk hs] at hks
      cases hks
    | false =>
      obtain ⟨x, -, hx⟩ := isSome_need (h hn hs)
      rw [if_neg (by simp), hx]
      exact ⟨_, rfl, skew_ok hc (fun _ _ => ⟨rfl, rfl⟩) h3⟩
  · rw [hc.skewness hk] at hn; cases hn

/-- With what is needed still calculated, no calculation misses anything. -/
theorem perform_ok {en : String → Bool} (hc : Needs en) {p : Prev F} {values : List F} {s : Col F H}
    (h1 : en "variance" = true → spoiled A s.sum s.count = true → spoiled A s.var s.count = true)
    (h2 : en "skewness" = true → spoiled A s.var s.count = true → spoiled A s.skew s.count = true)
    (h3 : en "kurtosis" = true → spoiled A s.skew s.count = true → spoiled A s.kurt s.count = true) :
    ∃ r, performIf A step en p values numericNames s {} = .ok r := by
  have hsum : ∀ s' : Col F H, s'.count = s.count → s'.sum = s.sum → s'.var = s.var → s'.skew = s.skew → s'.kurt = s.kurt →
      ∃ r, performIf A step en p values
        ["sum", "variance", "skewness", "kurtosis", "histogram_and_quantiles", "num_zeros", "num_negatives"] s' {} = .ok r := by
    intro s' ec es ev ek eu
    refine cont (fun hn => ⟨_, rfl, ?_⟩) (fun hn => var_ok hc (fun hk => ?_) (by rw [ec, ev, ek]; exact h2)
      (by rw [ec, ek, eu]; exact h3))
    · rw [getSum]
      cases hs : spoiled A s'.sum s'.count with
      | true =>
        rw [if_pos rfl]
        refine var_ok hc (fun hk hv => ?_) (by rw [ec, ev, ek]; exact h2) (by rw [ec, ek, eu]; exact h3)
        rw [ec, es] at hs
        rw [ec, ev, h1 hk hs] at hv
        cases hv
      | false =>
        rw [if_neg (by simp)]
        exact var_ok hc (fun _ _ => rfl) (by simp only [ec, ev, ek]; exact h2) (by simp only [ec, ek, eu]; exact h3)
    · rw [hc.variance hk] at hn; cases hn
  have hmax : ∀ s' : Col F H, s'.count = s.count → s'.sum = s.sum → s'.var = s.var → s'.skew = s.skew → s'.kurt = s.kurt →
      ∃ r, performIf A step en p values
        ["max", "sum", "variance", "skewness", "kurtosis", "histogram_and_quantiles", "num_zeros", "num_negatives"] s' {}
          = .ok r := fun s' a b c d e =>
    cont (fun _ => ⟨_, rfl, hsum _ a b c d e⟩) (fun _ => hsum _ a b c d e)
  exact cont (fun _ => ⟨_, rfl, hmax _ rfl rfl rfl rfl rfl⟩) (fun _ => hmax _ rfl rfl rfl rfl rfl)

theorem update_ok {en : String → Bool} (hc : Needs en) {values : List F} {s : Col F H}
    (h1 : en "variance" = true → spoiled A s.sum s.count = true → spoiled A s.var s.count = true)
    (h2 : en "skewness" = true → spoiled A s.var s.count = true → spoiled A s.skew s.count = true)
    (h3 : en "kurtosis" = true → spoiled A s.skew s.count = true → spoiled A s.kurt s.count = true) :
    ∃ s', update A step (numericNames.filter en) values s = .ok s' := by
  rw [update_filter]
  by_cases hv : values = []
  · rw [if_pos hv]; exact ⟨_, rfl⟩
  · rw [if_neg hv]
    obtain ⟨r, hr⟩ := perform_ok (A := A) (step := step) hc (p := ⟨mean A s, s.var, s.skew, s.kurt⟩) (values := values) h1 h2 h3
    rw [hr]
    exact ⟨_, rfl⟩

/-! ### Without overflow -/

/-- Nothing has become infinite or undefined. -/
structure Good (A : Arith F) (s : Col F H) : Prop where
  sum : Finite A s.sum
  var : A.isInf s.var = false ∧ (0 < s.count → Finite A s.var)
  skew : A.isInf s.skew = false ∧ (0 < s.count → Finite A s.skew)
  kurt : A.isInf s.kurt = false ∧ (0 < s.count → Finite A s.kurt)

theorem not_spoiled {x : F} {c : ℕ} (h : A.isInf x = false ∧ (0 < c → Finite A x)) : spoiled A x c = false := by
  rw [Bool.eq_false_iff, Ne, spoiled_iff]
  rintro (g | ⟨g, hc⟩)
  · rw [h.1] at g; cases g
  · rw [(h.2 hc).2] at g; cases g

/-- An update with all statistics, when nothing is spoiled. -/
theorem update_all {values : List F} (hv : values ≠ []) {s : Col F H} (h0 : spoiled A s.sum s.count = false)
    (h1 : spoiled A s.var s.count = false) (h2 : spoiled A s.skew s.count = false) (h3 : spoiled A s.kurt s.count = false) :
    update A step (numericNames.filter fun _ => true) values s = .ok
      { count := s.count + values.length
        min := some (extreme A A.smaller (A.least values) s.min)
        max := some (extreme A A.larger (A.greatest values) s.max)
        sum := A.add s.sum (A.total values)
        var := A.mergeVar s.count s.var (mean A s) values.length (A.var values) (A.over (A.total values) values.length)
        skew := A.mergeSkew s.count s.skew s.var (mean A s) values.length (A.skew values) (A.var values)
          (A.over (A.total values) values.length)
        kurt := A.mergeKurt s.count s.kurt s.skew s.var (mean A s) values.length (A.kurt values) (A.skew values)
          (A.var values) (A.over (A.total values) values.length)
        hist := step s.hist values
        zeros := s.zeros + A.zeros values
        negatives := s.negatives + A.negatives values } := by
  have hl : values.length ≠ 0 := by simpa using hv
  rw [update_filter, if_neg hv]
  simp [numericNames, performIf, calculate, getMin, getMax, getSum, getVariance, getSkewness, getKurtosis, h0, h1, h2, h3,
    hl, need, Except.bind, Except.map]

theorem update_good (hA : NoOverflow A) {values : List F} (hf : ∀ x ∈ values, Finite A x) {s : Col F H} (hs : Good A s) :
    ∃ s', update A step (numericNames.filter fun _ => true) values s = .ok s' ∧ Good A s' := by
  by_cases hv : values = []
  · rw [update_filter, if_pos hv, hv]
    exact ⟨_, rfl, hs⟩
  · refine ⟨_, update_all hv (not_spoiled ⟨hs.sum.1, fun _ => hs.sum⟩) (not_spoiled hs.var) (not_spoiled hs.skew)
      (not_spoiled hs.kurt), ?_⟩
    have hl : 0 < values.length := List.length_pos_iff.2 hv
    have ht := hA.total values hv hf
    have hm : Finite A (mean A s) := by
      rw [mean]
      split
      · exact hA.zero
      · rename_i g; exact hA.over _ _ (Nat.pos_of_ne_zero g) hs.sum
    have ho := hA.over _ values.length hl ht
    have h1 := hA.mergeVar s.count s.var (mean A s) values.length _ _ hl hs.var.2 hm (hA.var values hv hf) ho
    have h2 := hA.mergeSkew s.count s.skew s.var (mean A s) values.length _ _ _ hl (fun g => ⟨hs.skew.2 g, hs.var.2 g⟩) hm
      (hA.skew values hv hf) (hA.var values hv hf) ho
    have h3 := hA.mergeKurt s.count s.kurt s.skew s.var (mean A s) values.length _ _ _ _ hl
      (fun g => ⟨hs.kurt.2 g, hs.skew.2 g, hs.var.2 g⟩) hm (hA.kurt values hv hf) (hA.skew values hv hf)
      (hA.var values hv hf) ho
    exact ⟨hA.add _ _ hs.sum ht, ⟨h1.1, fun _ => h1⟩, ⟨h2.1, fun _ => h2⟩, ⟨h3.1, fun _ => h3⟩⟩

theorem updates_good (hA : NoOverflow A) (batches : List (List F)) (hf : ∀ v ∈ batches, ∀ x ∈ v, Finite A x) :
    ∀ {s : Col F H}, Good A s → ∃ s', updates A step (numericNames.filter fun _ => true) batches s = .ok s' ∧ Good A s' := by
  induction batches with
  | nil => intro s hs; exact ⟨s, rfl, hs⟩
  | cons v rest ih =>
    intro s hs
    obtain ⟨s1, h1, h2⟩ := update_good (step := step) hA (hf v (by simp)) hs
    obtain ⟨s', h3, h4⟩ := ih (fun w hw => hf w (by simp [hw])) h2
    exact ⟨s', by rw [updates, h1]; exact h3, h4⟩

/-! ### Names -/

theorem filterNames_none (ns : List String) : filterNames none ns = .ok ns := by
  induction ns with
  | nil => rfl
  | cons n rest ih => rw [filterNames, ih]; rfl

theorem flagged_iff (c : Cls) : Flagged c ↔ isBoolean c = true := by
  unfold Flagged; cases c <;> decide

theorem filterNames_some {o : Opt} (ns : List String) (ho : Shaped o ns) :
    filterNames (some o) ns = .ok (ns.filter fun n => truthy (attr o [n, "is_enabled"])) := by
  obtain ⟨cls, fields, rfl, h⟩ := ho
  induction ns with
  | nil => rfl
  | cons n rest ih =>
    obtain ⟨c, fs, h1, h2⟩ := h n (by simp)
    rw [flagged_iff] at h2
    have e : attr (.obj cls fields) [n, "is_enabled"] = attr (.obj c fs) ["is_enabled"] := by
      rw [attr, h1]
    rw [filterNames, ih (fun m hm => h m (by simp [hm]))]
    simp only [isPropEnabled, h1, h2, if_true, Except.bind, Except.map]
    rw [List.filter_cons, e]

theorem mem_numeric (en : String → Bool) {n : String} (hn : n ∈ numericNames) :
    n ∈ numericNames.filter en ↔ en n = true := by
  rw [List.mem_filter]; exact ⟨fun h => h.2, fun h => ⟨hn, h⟩⟩

end Verif.Lemmas.Enabled
