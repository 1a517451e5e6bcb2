import Verif.Lemmas.Entities
import Mathlib.Tactic.NormNum

/-!
# C39: counts of labelled characters and words
-/

namespace Verif.EntitiesProps

open Verif Entities EntitiesSpec Counter

/-- What is stored after a history, whatever the entities. -/
structure Inv (ss : List Sample) (p : Profile) : Prop where
  wfWords : PyDict.WF p.words
  wfTrue : PyDict.WF p.trueChars
  wfPost : PyDict.WF p.postChars
  charSize : p.charSize = predictedChars ss
  wordSize : p.wordSize = total p.words
  trueTotal : total p.trueChars = predictedChars ss
  trueCount : ∀ l, at0 p.trueChars l = (ss.map fun s => (s.chars.count l : ℤ)).sum
  postTotal : total p.postChars = textChars ss
  wordShares : p.wordShares = shares p.words p.wordSize
  trueShares : p.trueShares = shares p.trueChars p.charSize
  postShares : p.postShares = shares p.postChars p.charSize
  postCount : (∀ s ∈ ss, Sample.Ordered s) → ∀ l, at0 p.postChars l = (ss.map fun s => (labelled s l : ℤ)).sum
  wordCount : (∀ s ∈ ss, Sample.Ordered s) → ∀ l, at0 p.words l = (ss.map fun s =>
    ((s.entities.map (·.label)).count l : ℤ) + if "UNKNOWN" = l then (endedWords (background s) : ℤ) else 0).sum

theorem inv_new : Inv [] new := by
  constructor <;> first | exact PyDict.WF_nil | rfl | (intros; rfl)

theorem inv_update {ss0 ss : List Sample} {p q : Profile} (h : Inv ss0 p) (hq : update p ss = .ok q) :
    Inv (ss0 ++ ss) q := by
  unfold update at hq
  by_cases he : ss = []
  · rw [if_pos he] at hq
    cases hq
    subst he
    rwa [List.append_nil]
  rw [if_neg he] at hq
  cases hw : wordCounts ss p.words with
  | error e => rw [hw] at hq; cases hq
  | ok words =>
    rw [hw] at hq
    cases hq
    obtain ⟨t1, t2, t3, t4⟩ := true_fold (ss := ss) p.charSize h.wfTrue
    obtain ⟨p1, p2, p3⟩ := post_fold (ss := ss) h.wfPost
    constructor
    · exact wordCounts_wf h.wfWords hw
    · exact t1
    · exact p1
    · refine t2.trans ?_
      rw [h.charSize]; simp [predictedChars]
    · rfl
    · refine t3.trans ?_
      rw [h.trueTotal]; simp [predictedChars]
    · intro l
      refine (t4 l).trans ?_
      rw [h.trueCount, List.map_append, List.sum_append]
    · refine p2.trans ?_
      rw [h.postTotal]; simp [textChars]
    · rfl
    · rfl
    · rfl
    · intro ho l
      refine (p3 (fun s hs => ho s (List.mem_append_right _ hs)) l).trans ?_
      rw [h.postCount (fun s hs => ho s (List.mem_append_left _ hs)), List.map_append, List.sum_append]
    · intro ho l
      obtain ⟨d', h1, _, h3⟩ := wordCounts_ok (fun s hs => ho s (List.mem_append_right _ hs)) h.wfWords
      rw [hw] at h1
      cases h1
      refine (h3 l).trans ?_
      rw [h.wordCount (fun s hs => ho s (List.mem_append_left _ hs)), List.map_append, List.sum_append]

theorem inv_merge {ss1 ss2 : List Sample} {a b : Profile} (ha : Inv ss1 a) (hb : Inv ss2 b) :
    Inv (ss1 ++ ss2) (merge a b) := by
  constructor
  · exact wf_addCounts ha.wfWords
  · exact wf_addCounts ha.wfTrue
  · exact wf_addCounts ha.wfPost
  · show a.charSize + b.charSize = _
    rw [ha.charSize, hb.charSize]; simp [predictedChars]
  · show a.wordSize + b.wordSize = total (addCounts _ _)
    rw [ha.wordSize, hb.wordSize, total_addCounts]
  · show total (addCounts _ _) = _
    rw [total_addCounts, ha.trueTotal, hb.trueTotal]; simp [predictedChars]
  · intro l
    show at0 (addCounts _ _) l = _
    rw [at0_addCounts hb.wfTrue, ha.trueCount, hb.trueCount, List.map_append, List.sum_append]
  · show total (addCounts _ _) = _
    rw [total_addCounts, ha.postTotal, hb.postTotal]; simp [textChars]
  · rfl
  · rfl
  · rfl
  · intro ho l
    show at0 (addCounts _ _) l = _
    rw [at0_addCounts hb.wfPost, ha.postCount (fun s hs => ho s (List.mem_append_left _ hs)),
      hb.postCount (fun s hs => ho s (List.mem_append_right _ hs)), List.map_append, List.sum_append]
  · intro ho l
    show at0 (addCounts _ _) l = _
    rw [at0_addCounts hb.wfWords, ha.wordCount (fun s hs => ho s (List.mem_append_left _ hs)),
      hb.wordCount (fun s hs => ho s (List.mem_append_right _ hs)), List.map_append, List.sum_append]

theorem run_inv {h : History} {p : Profile} (hp : run h = .ok p) : Inv (samples h) p := by
  induction h generalizing p with
  | new => cases hp; exact inv_new
  | update h ss ih =>
    rw [run] at hp
    cases hr : run h with
    | error e => rw [hr] at hp; cases hp
    | ok q =>
      rw [hr] at hp
      exact inv_update (ih hr) hp
  | merge h1 h2 ih1 ih2 =>
    rw [run] at hp
    cases hr1 : run h1 with
    | error e => rw [hr1] at hp; cases hp
    | ok a =>
      cases hr2 : run h2 with
      | error e => rw [hr1, hr2] at hp; cases hp
      | ok b =>
        rw [hr1, hr2] at hp
        cases hp
        exact inv_merge (ih1 hr1) (ih2 hr2)

/-- Ordered entities never make profiling fail. -/
theorem C39_runs (h : History) (ho : ∀ s ∈ samples h, Sample.Ordered s) : ∃ p, run h = .ok p := by
  induction h with
  | new => exact ⟨_, rfl⟩
  | update h ss ih =>
    obtain ⟨p, hp⟩ := ih fun s hs => ho s (List.mem_append_left _ hs)
    rw [run, hp]
    show ∃ q, update p ss = .ok q
    unfold update
    by_cases he : ss = []
    · exact ⟨p, if_pos he⟩
    · rw [if_neg he]
      obtain ⟨d', h1, _⟩ := wordCounts_ok (fun s hs => ho s (List.mem_append_right _ hs)) (run_inv hp).wfWords
      rw [h1]
      exact ⟨_, rfl⟩
  | merge h1 h2 ih1 ih2 =>
    obtain ⟨a, ha⟩ := ih1 fun s hs => ho s (List.mem_append_left _ hs)
    obtain ⟨b, hb⟩ := ih2 fun s hs => ho s (List.mem_append_right _ hs)
    rw [run, ha, hb]
    exact ⟨_, rfl⟩

/-- A text with two entities, and one without. -/
def sample : History :=
  .merge (.update .new [⟨"I am Bob, 42 .".toList, List.replicate 14 "A", [⟨5, 8, "NAME"⟩, ⟨10, 12, "AGE"⟩]⟩])
    (.update .new [⟨"hi all".toList, List.replicate 6 "B", []⟩])

example : ∀ s ∈ samples sample, Sample.Ordered s := by
  intro s hs
  rcases List.mem_cons.1 hs with rfl | hs
  · simp [Sample.Ordered, EntitiesSpec.Ordered]
  · rcases List.mem_cons.1 hs with rfl | hs
    · simp [Sample.Ordered, EntitiesSpec.Ordered]
    · cases hs

/-- After any history, the count of a label is the number of characters inside entities with that label; for the
background label also those outside all entities. -/
theorem C39_characters (h : History) (ho : ∀ s ∈ samples h, Sample.Ordered s) {p : Profile} (hp : run h = .ok p)
    (l : String) : PyDict.getD p.postChars l 0 = ((samples h).map fun s => (labelled s l : ℤ)).sum :=
  (run_inv hp).postCount ho l

/-- The counts of all labels add up to the number of characters of all texts, even if entities overlap. -/
theorem C39_characters_total (h : History) {p : Profile} (hp : run h = .ok p) :
    (PyDict.values p.postChars).sum = textChars (samples h) :=
  (run_inv hp).postTotal

example : (run sample).map (·.postChars) = .ok [("UNKNOWN", 15), ("NAME", 3), ("AGE", 2)] := by decide +kernel

/-- Character level counts are the numbers of predictions, and add up to the number of characters predicted. -/
theorem C39_predictions (h : History) {p : Profile} (hp : run h = .ok p) :
    (∀ l, PyDict.getD p.trueChars l 0 = ((samples h).map fun s => (s.chars.count l : ℤ)).sum) ∧
      (PyDict.values p.trueChars).sum = predictedChars (samples h) ∧ p.charSize = predictedChars (samples h) :=
  ⟨(run_inv hp).trueCount, (run_inv hp).trueTotal, (run_inv hp).charSize⟩

example : (run sample).map (fun p => (p.trueChars, p.charSize)) = .ok ([("A", 14), ("B", 6)], 20) := by decide +kernel

/-- Word level counts are the numbers of entities; for the background label also those words outside all entities that are
followed by a separator. -/
theorem C39_words (h : History) (ho : ∀ s ∈ samples h, Sample.Ordered s) {p : Profile} (hp : run h = .ok p) :
    (∀ l, PyDict.getD p.words l 0 = ((samples h).map fun s => ((s.entities.map (·.label)).count l : ℤ) +
      if "UNKNOWN" = l then (endedWords (background s) : ℤ) else 0).sum) ∧ (PyDict.values p.words).sum = p.wordSize :=
  ⟨(run_inv hp).wordCount ho, (run_inv hp).wordSize.symm⟩

example : (run sample).map (·.words) = .ok [("UNKNOWN", 3), ("NAME", 1), ("AGE", 1)] := by decide +kernel

/-- Shares are counts divided by the total, at each level; words and predicted characters have shares that add up to 1. -/
theorem C39_shares (h : History) {p : Profile} (hp : run h = .ok p) :
    (0 < p.wordSize → (∀ l, PyDict.get? p.wordShares l =
        (PyDict.get? p.words l).map fun n => (n : ℚ) / (p.wordSize : ℚ)) ∧ (PyDict.values p.wordShares).sum = 1) ∧
      (0 < p.charSize → (∀ l, PyDict.get? p.trueShares l =
        (PyDict.get? p.trueChars l).map fun n => (n : ℚ) / (p.charSize : ℚ)) ∧ (PyDict.values p.trueShares).sum = 1) ∧
      (0 < p.charSize → (∀ l, PyDict.get? p.postShares l =
        (PyDict.get? p.postChars l).map fun n => (n : ℚ) / (p.charSize : ℚ)) ∧
        (PyDict.values p.postShares).sum = (textChars (samples h) : ℚ) / (predictedChars (samples h) : ℚ)) := by
  have hi := run_inv hp
  refine ⟨fun h0 => ?_, fun h0 => ?_, fun h0 => ?_⟩
  · rw [hi.wordShares]
    refine ⟨shares_get? _ h0, ?_⟩
    rw [shares_sum _ h0, show (PyDict.values p.words).sum = p.wordSize from hi.wordSize.symm]
    exact div_self (by exact_mod_cast h0.ne')
  · rw [hi.trueShares]
    refine ⟨shares_get? _ h0, ?_⟩
    rw [shares_sum _ h0, show (PyDict.values p.trueChars).sum = p.charSize from hi.trueTotal.trans hi.charSize.symm]
    exact div_self (by exact_mod_cast h0.ne')
  · rw [hi.postShares]
    refine ⟨shares_get? _ h0, ?_⟩
    rw [shares_sum _ h0, show (PyDict.values p.postChars).sum = textChars (samples h) from hi.postTotal, hi.charSize]

/-- The shares of the postprocessed labels add up to 1 when every character of the texts has a prediction. -/
theorem C39_shares_aligned (h : History) {p : Profile} (hp : run h = .ok p)
    (ha : ∀ s ∈ samples h, s.chars.length = s.text.length) (h0 : 0 < textChars (samples h)) :
    (PyDict.values p.postShares).sum = 1 := by
  have e : predictedChars (samples h) = textChars (samples h) := by
    unfold predictedChars textChars
    congr 1
    exact List.map_congr_left fun s hs => by rw [ha s hs]
  have hc : 0 < p.charSize := by rw [(run_inv hp).charSize, e]; exact h0
  rw [((C39_shares h hp).2.2 hc).2, e]
  exact div_self (by exact_mod_cast h0.ne')

example : (run sample).map (·.postShares) = .ok [("UNKNOWN", 3 / 4), ("NAME", 3 / 20), ("AGE", 1 / 10)] := by
  decide +kernel

example : (∀ s ∈ samples sample, s.chars.length = s.text.length) ∧ 0 < textChars (samples sample) := by decide +kernel

/-- If the labeler predicts fewer characters than the text has, the shares add up to more than 1. -/
theorem C39_shares_fails : ∃ h p, run h = .ok p ∧ (PyDict.values p.postShares).sum = 2 := by
  refine ⟨.update .new [⟨"ab".toList, ["A"], []⟩], _, rfl, ?_⟩
  decide +kernel

/-- Counts do not depend on how the texts were batched or merged, nor on their order. -/
theorem C39_batching (h1 h2 : History) (hs : (samples h1).Perm (samples h2)) (ho : ∀ s ∈ samples h1, Sample.Ordered s)
    {p q : Profile} (hp : run h1 = .ok p) (hq : run h2 = .ok q) :
    (∀ l, PyDict.getD p.postChars l 0 = PyDict.getD q.postChars l 0) ∧
      (∀ l, PyDict.getD p.trueChars l 0 = PyDict.getD q.trueChars l 0) ∧
      (∀ l, PyDict.getD p.words l 0 = PyDict.getD q.words l 0) ∧ p.charSize = q.charSize := by
  have ho2 : ∀ s ∈ samples h2, Sample.Ordered s := fun s h => ho s (hs.mem_iff.2 h)
  refine ⟨fun l => ?_, fun l => ?_, fun l => ?_, ?_⟩
  · rw [C39_characters h1 ho hp, C39_characters h2 ho2 hq, (hs.map _).sum_eq]
  · rw [(C39_predictions h1 hp).1, (C39_predictions h2 hq).1, (hs.map _).sum_eq]
  · rw [(C39_words h1 ho hp).1, (C39_words h2 ho2 hq).1, (hs.map _).sum_eq]
  · rw [(C39_predictions h1 hp).2.2, (C39_predictions h2 hq).2.2]
    exact (hs.map _).sum_eq

/-- A word at the end of a text is not counted: a text of one word counts for nothing. -/
theorem C39_last_word_fails (text : List Char) (hne : text ≠ []) (he : ∀ c ∈ text, ¬Ends c) :
    allWords text = 1 ∧ (run (.update .new [⟨text, [], []⟩])).map (·.words) = .ok [] := by
  have hs : ∀ c ∈ text, c ∉ separators := fun c hc h => he c hc ((mem_separators c).1 h)
  have h0 : ∀ cs : List Char, (∀ c ∈ cs, c ∉ separators) → ∀ b, (cs.foldl wordChar ([], b)).1 = [] := by
    intro cs
    induction cs with
    | nil => intro _ _; rfl
    | cons c cs ih =>
      intro hc b
      have hc1 := hc c List.mem_cons_self
      rw [List.foldl_cons]
      have e : wordChar ([], b) c = ([], true) := by cases b <;> simp [wordChar, hc1]
      rw [e]
      exact ih (fun c' h' => hc c' (List.mem_cons_of_mem _ h')) true
  constructor
  · have h1 : endedWords text = 0 := by
      unfold endedWords
      rw [List.countP_eq_zero]
      rintro ⟨a, b⟩ hab hc
      exact he b (List.mem_of_mem_tail (List.of_mem_zip hab).2) (of_decide_eq_true hc).2
    have h2 : ∃ c, text.getLast? = some c ∧ ¬Ends c :=
      ⟨text.getLast hne, List.getLast?_eq_some_getLast hne, he _ (List.getLast_mem hne)⟩
    unfold allWords
    rw [h1, if_pos h2]
  · have e : wordEntities text [] 0 ([], false) = .ok ((bgFrom text [] 0).foldl wordChar ([], false)).1 :=
      wordEntities_ok (Nat.zero_le _) _
    rw [bgFrom_nil] at e
    have e2 : (text.drop 0).take (text.length - 0) = text := by simp
    rw [e2, h0 text hs] at e
    have hr : run (.update .new [⟨text, [], []⟩]) = update new [⟨text, [], []⟩] := by rw [run, run]; rfl
    rw [hr]
    unfold update wordCounts wordSamples
    rw [if_neg (by simp)]
    simp only [new]
    rw [e]
    rfl

/-- Pieces of words on both sides of an entity count as one word. -/
theorem C39_joined_words_fails :
    (run (.update .new [⟨"abXcd ".toList, [], [⟨2, 3, "NAME"⟩]⟩])).map (·.words) = .ok [("UNKNOWN", 1), ("NAME", 1)] ∧
      allWords "ab".toList + allWords "cd ".toList = 2 := by decide +kernel

end Verif.EntitiesProps
