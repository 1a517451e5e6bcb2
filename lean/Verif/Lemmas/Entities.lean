import Verif.Spec.Entities
import Verif.Lemmas.Counter
import Verif.Lemmas.PyDict
import Mathlib.Tactic.SplitIfs
import Mathlib.Tactic.Ring
import Mathlib.Tactic.Tauto
import Mathlib.Algebra.Order.Ring.Int
import Mathlib.Algebra.Order.Field.Rat
import Mathlib.Algebra.BigOperators.Group.List.Basic
import Mathlib.Data.List.Nodup

/-!
# Lemmas on the profile of entities
-/

namespace Verif.Entities

open Verif EntitiesSpec Counter

/-! ### Positions -/

theorem range'_split {a b c : ℕ} (h1 : a ≤ b) (h2 : b ≤ c) :
    List.range' a (c - a) = List.range' a (b - a) ++ List.range' b (c - b) := by
  have e1 : c - a = (b - a) + (c - b) := by omega
  have e2 : b = a + (b - a) := by omega
  rw [e1, ← List.range'_append_1, ← e2]

theorem ordered_le {n k : ℕ} {es : List Entity} (h : Ordered n k es) : k ≤ n := by
  induction es generalizing k with
  | nil => exact h
  | cons e es ih => exact h.1.trans (h.2.1.trans (ih h.2.2))

theorem ordered_first {n k : ℕ} {es : List Entity} (h : Ordered n k es) : ∀ e ∈ es, k ≤ e.first := by
  induction es generalizing k with
  | nil => intro e he; cases he
  | cons e es ih =>
    intro e' he'
    rcases List.mem_cons.1 he' with rfl | he'
    · exact h.1
    · exact h.1.trans (h.2.1.trans (ih h.2.2 e' he'))

theorem labelAt_before {n k i : ℕ} {es : List Entity} (h : Ordered n k es) (hi : i < k) : labelAt es i = "UNKNOWN" := by
  unfold labelAt
  have : (es.find? fun e => decide (e.first ≤ i ∧ i < e.last)) = none := by
    rw [List.find?_eq_none]
    intro e he hc
    have h1 := ordered_first h e he
    have h2 := (of_decide_eq_true hc).1
    omega
  rw [this]

theorem labelAt_in {e : Entity} {es : List Entity} {i : ℕ} (h : e.first ≤ i ∧ i < e.last) : labelAt (e :: es) i = e.label := by
  unfold labelAt
  rw [List.find?_cons_of_pos (by simpa using h)]

theorem labelAt_out {e : Entity} {es : List Entity} {i : ℕ} (h : ¬(e.first ≤ i ∧ i < e.last)) :
    labelAt (e :: es) i = labelAt es i := by
  unfold labelAt
  rw [List.find?_cons_of_neg (by simpa using h)]

/-- Positions between `a` and `n` with a label. -/
def cnt (es : List Entity) (a n : ℕ) (l : String) : ℕ :=
  (List.range' a (n - a)).countP fun i => decide (labelAt es i = l)

theorem countP_const {p : ℕ → Bool} {b : Bool} {a n : ℕ} (h : ∀ i, a ≤ i → i < a + n → p i = b) :
    (List.range' a n).countP p = if b then n else 0 := by
  cases b
  · simp only [Bool.false_eq_true, if_false]
    rw [List.countP_eq_zero]
    intro i hi
    rw [List.mem_range'_1] at hi
    rw [h i hi.1 hi.2]
    exact Bool.false_ne_true
  · simp only [if_true]
    have : (List.range' a n).countP p = (List.range' a n).length := by
      rw [List.countP_eq_length]
      intro i hi
      rw [List.mem_range'_1] at hi
      exact h i hi.1 hi.2
    rw [this, List.length_range']

theorem cnt_nil (a n : ℕ) (l : String) : cnt [] a n l = if "UNKNOWN" = l then n - a else 0 := by
  unfold cnt
  rw [countP_const (p := fun i => decide (labelAt [] i = l)) (b := decide ("UNKNOWN" = l)) (fun i _ _ => rfl)]
  simp

theorem cnt_cons {e : Entity} {es : List Entity} {a n : ℕ} (h : Ordered n a (e :: es)) (l : String) :
    cnt (e :: es) a n l = (if "UNKNOWN" = l then e.first - a else 0) + (if e.label = l then e.last - e.first else 0) +
      cnt es e.last n l := by
  obtain ⟨h1, h2, h3⟩ := h
  have h4 := ordered_le h3
  unfold cnt
  rw [range'_split h1 (h2.trans h4), range'_split h2 h4, List.countP_append, List.countP_append, ← Nat.add_assoc]
  congr 1
  · congr 1
    · rw [countP_const (b := decide ("UNKNOWN" = l))]
      · simp
      · intro i hi1 hi2
        have : ¬(e.first ≤ i ∧ i < e.last) := by omega
        rw [labelAt_out this, labelAt_before h3 (by omega)]
    · rw [countP_const (b := decide (e.label = l))]
      · simp
      · intro i hi1 hi2
        rw [labelAt_in (by omega)]
  · refine List.countP_congr fun i hi => ?_
    rw [List.mem_range'_1] at hi
    rw [labelAt_out (by omega)]

/-! ### Postprocessed characters -/

theorem post_entities {n : ℕ} {es : List Entity} {d : PyDict String ℤ} {a : ℕ} (h : Ordered n a es) (l : String) :
    at0 (bump (es.foldl postEntity (d, a)).1 "UNKNOWN" ((n : ℤ) - (es.foldl postEntity (d, a)).2)) l =
      at0 d l + cnt es a n l := by
  induction es generalizing d a with
  | nil =>
    have hle := ordered_le h
    simp only [List.foldl_nil]
    rw [at0_bump, cnt_nil]
    split_ifs <;> push_cast [Nat.cast_sub hle] <;> rfl
  | cons e es ih =>
    rw [cnt_cons h]
    obtain ⟨h1, h2, h3⟩ := h
    rw [List.foldl_cons]
    have := ih (d := (postEntity (d, a) e).1) h3
    rw [show postEntity (d, a) e = ((postEntity (d, a) e).1, e.last) from rfl, this]
    unfold postEntity
    rw [at0_bump, at0_bump]
    split_ifs <;> push_cast [Nat.cast_sub h1, Nat.cast_sub h2] <;> ring

theorem post_step {s : Sample} (h : Sample.Ordered s) (d : PyDict String ℤ) (l : String) :
    at0 (postStep d s) l = at0 d l + labelled s l := by
  unfold postStep
  rw [post_entities h]
  simp [cnt, labelled, List.range_eq_range']

theorem post_total_entities (n : ℕ) (es : List Entity) (d : PyDict String ℤ) (a : ℕ) :
    total (bump (es.foldl postEntity (d, a)).1 "UNKNOWN" ((n : ℤ) - (es.foldl postEntity (d, a)).2)) =
      total d + (n - a) := by
  induction es generalizing d a with
  | nil => simp only [List.foldl_nil]; rw [total_bump]
  | cons e es ih =>
    rw [List.foldl_cons]
    have := ih (postEntity (d, a) e).1 e.last
    rw [show postEntity (d, a) e = ((postEntity (d, a) e).1, e.last) from rfl, this]
    unfold postEntity
    rw [total_bump, total_bump]
    ring

theorem post_total_step (d : PyDict String ℤ) (s : Sample) : total (postStep d s) = total d + s.text.length := by
  unfold postStep
  rw [post_total_entities]
  simp

theorem post_wf_entities {es : List Entity} {d : PyDict String ℤ} (h : PyDict.WF d) (a : ℕ) :
    PyDict.WF (es.foldl postEntity (d, a)).1 := by
  induction es generalizing d a with
  | nil => exact h
  | cons e es ih => exact ih (wf_bump (wf_bump h _ _) _ _) _

theorem post_wf_step {d : PyDict String ℤ} (h : PyDict.WF d) (s : Sample) : PyDict.WF (postStep d s) :=
  wf_bump (post_wf_entities h 0) _ _

theorem post_fold {ss : List Sample} {d : PyDict String ℤ} (hd : PyDict.WF d) :
    PyDict.WF (ss.foldl postStep d) ∧ total (ss.foldl postStep d) = total d + textChars ss ∧
      ((∀ s ∈ ss, Sample.Ordered s) → ∀ l,
        at0 (ss.foldl postStep d) l = at0 d l + (ss.map fun s => (labelled s l : ℤ)).sum) := by
  induction ss generalizing d with
  | nil => exact ⟨hd, by simp [textChars], fun _ l => by simp⟩
  | cons s ss ih =>
    obtain ⟨h1, h2, h3⟩ := ih (post_wf_step hd s)
    refine ⟨h1, ?_, fun ho l => ?_⟩
    · rw [List.foldl_cons, h2, post_total_step]
      simp [textChars, add_assoc]
    · rw [List.foldl_cons, h3 (fun s' hs' => ho s' (List.mem_cons_of_mem _ hs')) l, post_step (ho s List.mem_cons_self),
        List.map_cons, List.sum_cons, add_assoc]

/-! ### Predicted characters -/

theorem foldl_bump_one (ls : List String) (d : PyDict String ℤ) :
    ls.foldl (fun d l => bump d l 1) d = bumps d (ls.map fun l => (l, 1)) := by
  unfold bumps
  rw [List.foldl_map]

theorem sum_ones (ls : List String) (l : String) :
    ((ls.map fun l => (l, (1 : ℤ))).map fun kc => if kc.1 = l then kc.2 else 0).sum = ls.count l := by
  induction ls with
  | nil => rfl
  | cons a as ih =>
    rw [List.map_cons, List.map_cons, List.sum_cons, ih, List.count_cons]
    by_cases h : a = l
    · subst h; simp [add_comm]
    · simp [h]

theorem true_fold {ss : List Sample} {d : PyDict String ℤ} (n : ℤ) (hd : PyDict.WF d) :
    PyDict.WF (ss.foldl trueStep (d, n)).1 ∧ (ss.foldl trueStep (d, n)).2 = n + predictedChars ss ∧
      total (ss.foldl trueStep (d, n)).1 = total d + predictedChars ss ∧
      ∀ l, at0 (ss.foldl trueStep (d, n)).1 l = at0 d l + (ss.map fun s => (s.chars.count l : ℤ)).sum := by
  induction ss generalizing d n with
  | nil => exact ⟨hd, by simp [predictedChars], by simp [predictedChars], fun l => by simp⟩
  | cons s ss ih =>
    have hd' : PyDict.WF (trueStep (d, n) s).1 := by
      simp only [trueStep, foldl_bump_one]
      exact wf_bumps hd _
    obtain ⟨h1, h2, h3, h4⟩ := ih (trueStep (d, n) s).2 hd'
    refine ⟨h1, ?_, ?_, fun l => ?_⟩
    · refine h2.trans ?_
      simp [trueStep, predictedChars, add_assoc]
    · refine h3.trans ?_
      simp only [trueStep, foldl_bump_one]
      rw [total_bumps]
      simp [predictedChars, add_assoc, Function.comp_def]
    · refine (h4 l).trans ?_
      simp only [trueStep, foldl_bump_one]
      rw [at0_bumps, sum_ones, List.map_cons, List.sum_cons, add_assoc]

/-! ### Words -/

theorem mem_separators (c : Char) : c ∈ separators ↔ Ends c := by
  unfold separators Ends
  simp only [List.mem_cons, List.not_mem_nil, or_false]
  tauto

/-- Ended words, given whether a word has begun. -/
def ended : Bool → List Char → ℕ
  | _, [] => 0
  | b, c :: cs => (if b && decide (c ∈ separators) then 1 else 0) + ended (!decide (c ∈ separators)) cs

theorem endedWords_cons (c : Char) (cs : List Char) : endedWords (c :: cs) = ended (!decide (c ∈ separators)) cs := by
  induction cs generalizing c with
  | nil => rfl
  | cons c' cs ih =>
    have h : endedWords (c :: c' :: cs) =
        endedWords (c' :: cs) + if decide (c ∉ separators ∧ c' ∈ separators) then 1 else 0 := by
      simp only [endedWords, List.tail_cons, List.zip_cons_cons, List.countP_cons, mem_separators]
    rw [h, ih, ended, Nat.add_comm]
    congr 1
    by_cases h1 : c ∈ separators <;> by_cases h2 : c' ∈ separators <;> simp [h1, h2]

theorem ended_false (cs : List Char) : ended false cs = endedWords cs := by
  cases cs with
  | nil => rfl
  | cons c cs => rw [endedWords_cons, ended]; simp

theorem wordChar_fold (cs : List Char) (d : PyDict String ℤ) (b : Bool) :
    (PyDict.WF d → PyDict.WF (cs.foldl wordChar (d, b)).1) ∧
      ∀ l, at0 (cs.foldl wordChar (d, b)).1 l = at0 d l + if "UNKNOWN" = l then (ended b cs : ℤ) else 0 := by
  induction cs generalizing d b with
  | nil => exact ⟨id, fun l => by simp [ended]⟩
  | cons c cs ih =>
    rw [List.foldl_cons]
    cases b
    · by_cases hc : c ∈ separators
      · have e : wordChar (d, false) c = (d, false) := by simp [wordChar, hc]
        rw [e]
        refine ⟨(ih d false).1, fun l => ?_⟩
        rw [(ih d false).2 l]; simp [ended, hc]
      · have e : wordChar (d, false) c = (d, true) := by simp [wordChar, hc]
        rw [e]
        refine ⟨(ih d true).1, fun l => ?_⟩
        rw [(ih d true).2 l]; simp [ended, hc]
    · by_cases hc : c ∈ separators
      · have e : wordChar (d, true) c = (bump d "UNKNOWN" 1, false) := by simp [wordChar, hc]
        rw [e]
        refine ⟨fun h => (ih _ false).1 (wf_bump h _ _), fun l => ?_⟩
        rw [(ih _ false).2 l, at0_bump]
        split_ifs <;> simp [ended, hc, add_assoc]
      · have e : wordChar (d, true) c = (d, true) := by simp [wordChar, hc]
        rw [e]
        refine ⟨(ih d true).1, fun l => ?_⟩
        rw [(ih d true).2 l]; simp [ended, hc]

/-- The characters from `a` on outside the entities. -/
def bgFrom (text : List Char) (es : List Entity) (a : ℕ) : List Char :=
  ((List.range' a (text.length - a)).filter fun i => es.all fun e => !decide (e.first ≤ i ∧ i < e.last)).filterMap
    (text[·]?)

theorem filterMap_range' (text : List Char) (a n : ℕ) :
    (List.range' a n).filterMap (text[·]?) = (text.drop a).take n := by
  induction n generalizing a with
  | zero => simp
  | succ n ih =>
    rw [List.range'_succ, List.filterMap_cons]
    by_cases h : a < text.length
    · rw [List.getElem?_eq_getElem h, List.drop_eq_getElem_cons h, List.take_succ_cons, ← ih]
    · rw [List.getElem?_eq_none (not_lt.1 h), ih, List.drop_eq_nil_of_le (not_lt.1 h),
        List.drop_eq_nil_of_le (by omega)]
      simp

theorem bgFrom_cons {text : List Char} {e : Entity} {es : List Entity} {a : ℕ}
    (h : Ordered text.length a (e :: es)) :
    bgFrom text (e :: es) a = (text.drop a).take (e.first - a) ++ bgFrom text es e.last := by
  obtain ⟨h1, h2, h3⟩ := h
  have h4 := ordered_le h3
  unfold bgFrom
  rw [range'_split h1 (h2.trans h4), range'_split h2 h4, List.filter_append, List.filter_append, List.filterMap_append,
    List.filterMap_append]
  have e1 : ((List.range' a (e.first - a)).filter fun i =>
      (e :: es).all fun e => !decide (e.first ≤ i ∧ i < e.last)) = List.range' a (e.first - a) := by
    rw [List.filter_eq_self]
    intro i hi
    rw [List.mem_range'_1] at hi
    rw [List.all_eq_true]
    intro e' he'
    have : ¬(e'.first ≤ i ∧ i < e'.last) := by
      rcases List.mem_cons.1 he' with rfl | he'
      · omega
      · have := ordered_first h3 e' he'
        omega
    rw [decide_eq_false this]; rfl
  have e2 : ((List.range' e.first (e.last - e.first)).filter fun i =>
      (e :: es).all fun e => !decide (e.first ≤ i ∧ i < e.last)) = [] := by
    rw [List.filter_eq_nil_iff]
    intro i hi
    rw [List.mem_range'_1] at hi
    rw [List.all_cons, Bool.and_eq_true]
    rintro ⟨hc, _⟩
    have : e.first ≤ i ∧ i < e.last := by omega
    simp [this] at hc
  have e3 : ((List.range' e.last (text.length - e.last)).filter fun i =>
      (e :: es).all fun e => !decide (e.first ≤ i ∧ i < e.last)) =
      (List.range' e.last (text.length - e.last)).filter fun i => es.all fun e => !decide (e.first ≤ i ∧ i < e.last) := by
    refine List.filter_congr fun i hi => ?_
    rw [List.mem_range'_1] at hi
    rw [List.all_cons]
    have : ¬(e.first ≤ i ∧ i < e.last) := by omega
    have e0 : (!decide (e.first ≤ i ∧ i < e.last)) = true := by rw [decide_eq_false this]; rfl
    rw [e0, Bool.true_and]
  rw [e1, e2, e3, filterMap_range', List.filterMap_nil, List.nil_append]

theorem bgFrom_nil (text : List Char) (a : ℕ) : bgFrom text [] a = (text.drop a).take (text.length - a) := by
  unfold bgFrom
  rw [List.filter_eq_self.2 (by simp), filterMap_range']

theorem wordEntities_ok {text : List Char} {es : List Entity} {a : ℕ} (h : Ordered text.length a es)
    (st : PyDict String ℤ × Bool) : wordEntities text es a st = .ok ((bgFrom text es a).foldl wordChar st).1 := by
  induction es generalizing a st with
  | nil =>
    unfold wordEntities wordScan
    rw [if_neg (by omega), bgFrom_nil]
    rfl
  | cons e es ih =>
    rw [bgFrom_cons h]
    obtain ⟨h1, h2, h3⟩ := h
    have h4 := ordered_le h3
    have e1 : wordScan text st a e.first = .ok (((text.drop a).take (e.first - a)).foldl wordChar st) :=
      if_neg (by omega)
    unfold wordEntities
    rw [e1]
    simp only
    rw [ih h3, List.foldl_append]

theorem background_eq (s : Sample) : background s = bgFrom s.text s.entities 0 := by
  simp [background, bgFrom, List.range_eq_range']

theorem wordSamples_ok {ss : List Sample} (ho : ∀ s ∈ ss, Sample.Ordered s) {d : PyDict String ℤ} (hd : PyDict.WF d) :
    ∃ d', wordSamples ss d = .ok d' ∧ PyDict.WF d' ∧
      ∀ l, at0 d' l = at0 d l + (ss.map fun s => if "UNKNOWN" = l then (endedWords (background s) : ℤ) else 0).sum := by
  induction ss generalizing d with
  | nil => exact ⟨d, rfl, hd, fun l => by simp⟩
  | cons s ss ih =>
    have e := wordEntities_ok (ho s List.mem_cons_self) (d, false)
    obtain ⟨hw, ha⟩ := wordChar_fold (bgFrom s.text s.entities 0) d false
    obtain ⟨d', h1, h2, h3⟩ := ih (fun s' hs' => ho s' (List.mem_cons_of_mem _ hs')) (hw hd)
    refine ⟨d', ?_, h2, fun l => ?_⟩
    · unfold wordSamples
      rw [e]
      exact h1
    · rw [h3, ha, ended_false, ← background_eq, List.map_cons, List.sum_cons, add_assoc]

theorem foldl_entity (es : List Entity) (d : PyDict String ℤ) :
    es.foldl (fun d e => bump d e.label 1) d = bumps d ((es.map (·.label)).map fun l => (l, 1)) := by
  unfold bumps
  rw [List.map_map, List.foldl_map]
  rfl

theorem count_flatMap (ss : List Sample) (l : String) :
    (((ss.flatMap (·.entities)).map (·.label)).count l : ℤ) =
      (ss.map fun s => ((s.entities.map (·.label)).count l : ℤ)).sum := by
  induction ss with
  | nil => rfl
  | cons s ss ih => simp [List.flatMap_cons, List.map_append, List.count_append, ih]

theorem wordCounts_ok {ss : List Sample} (ho : ∀ s ∈ ss, Sample.Ordered s) {d : PyDict String ℤ} (hd : PyDict.WF d) :
    ∃ d', wordCounts ss d = .ok d' ∧ PyDict.WF d' ∧
      ∀ l, at0 d' l = at0 d l + (ss.map fun s => ((s.entities.map (·.label)).count l : ℤ) +
        if "UNKNOWN" = l then (endedWords (background s) : ℤ) else 0).sum := by
  obtain ⟨d', h1, h2, h3⟩ := wordSamples_ok ho hd
  refine ⟨_, by unfold wordCounts; rw [h1], ?_, fun l => ?_⟩
  · rw [foldl_entity]; exact wf_bumps h2 _
  · rw [foldl_entity, at0_bumps, sum_ones, h3, count_flatMap, List.sum_map_add]
    ring

theorem wordSamples_wf {ss : List Sample} {d d' : PyDict String ℤ} (hd : PyDict.WF d) (h : wordSamples ss d = .ok d') :
    PyDict.WF d' := by
  have hent : ∀ (text : List Char) (es : List Entity) (a : ℕ) (st : PyDict String ℤ × Bool) (d' : PyDict String ℤ),
      PyDict.WF st.1 → wordEntities text es a st = .ok d' → PyDict.WF d' := by
    intro text es
    have hscan : ∀ a b (st st' : PyDict String ℤ × Bool), PyDict.WF st.1 → wordScan text st a b = .ok st' → PyDict.WF st'.1 := by
      intro a b st st' hst hs
      unfold wordScan at hs
      split_ifs at hs
      cases hs
      exact (wordChar_fold _ st.1 st.2).1 hst
    induction es with
    | nil =>
      intro a st d' hst h
      unfold wordEntities at h
      cases hs : wordScan text st a text.length with
      | error e => rw [hs] at h; cases h
      | ok st' => rw [hs] at h; cases h; exact hscan _ _ _ _ hst hs
    | cons e es ih =>
      intro a st d' hst h
      unfold wordEntities at h
      cases hs : wordScan text st a e.first with
      | error e => rw [hs] at h; cases h
      | ok st' => rw [hs] at h; exact ih _ _ _ (hscan _ _ _ _ hst hs) h
  induction ss generalizing d with
  | nil => cases h; exact hd
  | cons s ss ih =>
    unfold wordSamples at h
    cases hs : wordEntities s.text s.entities 0 (d, false) with
    | error e => rw [hs] at h; cases h
    | ok d1 => rw [hs] at h; exact ih (hent _ _ _ _ _ hd hs) h

theorem wordCounts_wf {ss : List Sample} {d d' : PyDict String ℤ} (hd : PyDict.WF d) (h : wordCounts ss d = .ok d') :
    PyDict.WF d' := by
  unfold wordCounts at h
  cases hs : wordSamples ss d with
  | error e => rw [hs] at h; cases h
  | ok d1 =>
    rw [hs] at h
    cases h
    rw [foldl_entity]
    exact wf_bumps (wordSamples_wf hd hs) _

/-! ### Shares -/

theorem shares_get? (d : PyDict String ℤ) {n : ℤ} (hn : 0 < n) (l : String) :
    PyDict.get? (shares d n) l = (PyDict.get? d l).map fun v => (v : ℚ) / (n : ℚ) := by
  unfold shares
  rw [if_pos hn]
  induction d with
  | nil => rfl
  | cons kv d ih =>
    obtain ⟨k, v⟩ := kv
    rw [List.map_cons, PyDict.get?_cons, PyDict.get?_cons, ih]
    split_ifs <;> rfl

theorem shares_sum (d : PyDict String ℤ) {n : ℤ} (hn : 0 < n) :
    (PyDict.values (shares d n)).sum = ((PyDict.values d).sum : ℚ) / (n : ℚ) := by
  unfold shares
  rw [if_pos hn]
  induction d with
  | nil => simp [PyDict.values]
  | cons kv d ih =>
    unfold PyDict.values at ih ⊢
    simp only [List.map_cons, List.sum_cons]
    rw [ih]
    push_cast
    rw [add_div]

end Verif.Entities
