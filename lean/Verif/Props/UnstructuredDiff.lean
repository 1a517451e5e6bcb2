import Verif.Lemmas.UnstructuredDiff
import Verif.Spec.Unstructured
import Verif.Props.Unstructured

/-!
# C81: differences of profiles of unstructured text
-/

namespace Verif.Props.UnstructuredDiff

open Verif Verif.Diffs Verif.Unstructured Verif.UnstructuredSpec
open Verif.Words (Chars Word)

variable {ch : Chars}

theorem vocab_eq (hc : WordsSpec.Sane ch) (h : Words.History) (c : Char) :
    PyDict.get? (Words.run ch h).vocab c = charTable h c := by
  rw [get?_pos (pos_run h).1, (WordsProps.run_inv hc h).vocab c]
  unfold charTable
  by_cases hm : c ∈ (WordsSpec.texts h).flatten
  · rw [if_pos hm, if_neg (List.count_pos_iff.2 hm).ne']
  · rw [if_neg hm, if_pos (List.count_eq_zero.2 hm)]

theorem words_eq (hc : WordsSpec.Sane ch) (h : Words.History) (hb : WordsSpec.Balanced h) (w : Word) :
    PyDict.get? (Words.run ch h).words w = wordTable ch h w := by
  have hi := WordsProps.run_inv hc h
  unfold wordTable
  by_cases h0 : w = []
  · rw [if_pos (Or.inl h0), h0, PyDict.get?_eq_none_iff]; exact hi.empty
  by_cases h1 : ch.lower w ∈ WordsSpec.stops h
  · rw [if_pos (Or.inr (Or.inl h1))]; exact WordsProps.C40_stopped_partial hc h hb w h1
  rw [get?_pos (pos_run h).2, hi.count w h0 h1]
  by_cases h2 : WordsSpec.occurrences ch h w = 0
  · rw [if_pos h2, if_pos (Or.inr (Or.inr h2))]
  · rw [if_neg h2, if_neg]
    rintro (h | h | h)
    · exact h0 h
    · exact h1 h
    · exact h2 h

theorem mem_keys {V K : Type} [DecidableEq K] (d : PyDict K V) (k : K) : k ∈ PyDict.keys d ↔ PyDict.get? d k ≠ none := by
  rw [ne_eq, PyDict.get?_eq_none_iff, not_not]

/-- Characters: those of the first texts only, of both and of the second only, each once, or "unchanged"; the counts compared
are those of the most frequent characters of either, as many as the first profile reports. -/
theorem C81_characters (hc : WordsSpec.Sane ch) (h1 h2 : Words.History) :
    ReportsSet (· ∈ (WordsSpec.texts h1).flatten) (· ∈ (WordsSpec.texts h2).flatten)
      (textDiff ch (Words.run ch h1) (Words.run ch h2)).vocab ∧
    ∃ t1 t2, Top (Words.run ch h1).opts.topChars (charTable h1) t1 ∧ Top (Words.run ch h1).opts.topChars (charTable h2) t2 ∧
      ReportsCounts t1 t2 (textDiff ch (Words.run ch h1) (Words.run ch h2)).vocabCount := by
  have i1 := WordsProps.run_inv hc h1
  have i2 := WordsProps.run_inv hc h2
  have hk : ∀ h c, c ∈ PyDict.keys (Words.run ch h).vocab ↔ c ∈ (WordsSpec.texts h).flatten := by
    intro h c
    rw [mem_keys, vocab_eq hc]
    unfold charTable
    split_ifs with hm <;> simp [hm]
  refine ⟨reportsSet_congr (hk h1) (hk h2) (diffLists_set i1.wfVocab i2.wfVocab), ?_⟩
  obtain ⟨t1, w1⟩ := mostCommon_top i1.wfVocab (Words.run ch h1).opts.topChars
  obtain ⟨t2, w2⟩ := mostCommon_top i2.wfVocab (Words.run ch h1).opts.topChars
  rw [funext (vocab_eq hc h1)] at t1
  rw [funext (vocab_eq hc h2)] at t2
  exact ⟨_, _, t1, t2, countDiff_spec w1⟩

theorem lowA_eq (hc : WordsSpec.Sane ch) (h : Words.History) :
    (Words.run ch h).opts.caseSensitive = true ↔ WordsSpec.Sensitive h := (WordsProps.run_inv hc h).sensitive

/-- Words, if both profiles or neither are case sensitive: those of the first texts only, of both and of the second only,
each once, or "unchanged"; the counts compared are those of the most frequent words of either, as many as the first profile
reports. -/
theorem C81_words_partial (hc : WordsSpec.Sane ch) (h1 h2 : Words.History) (b1 : WordsSpec.Balanced h1)
    (b2 : WordsSpec.Balanced h2) (hs : WordsSpec.Sensitive h1 ↔ WordsSpec.Sensitive h2) :
    ReportsSet (fun w => wordTable ch h1 w ≠ none) (fun w => wordTable ch h2 w ≠ none)
      (textDiff ch (Words.run ch h1) (Words.run ch h2)).words ∧
    ∃ t1 t2, Top (Words.run ch h1).opts.topWords (wordTable ch h1) t1 ∧
      Top (Words.run ch h1).opts.topWords (wordTable ch h2) t2 ∧
      ReportsCounts t1 t2 (textDiff ch (Words.run ch h1) (Words.run ch h2)).wordCount := by
  have i1 := WordsProps.run_inv hc h1
  have i2 := WordsProps.run_inv hc h2
  have hsame : (Words.run ch h1).opts.caseSensitive = (Words.run ch h2).opts.caseSensitive := by
    rw [Bool.eq_iff_iff, lowA_eq hc, lowA_eq hc]; exact hs
  have e1 : ((Words.run ch h1).opts.caseSensitive && !(Words.run ch h2).opts.caseSensitive) = false := by
    rw [hsame]; cases (Words.run ch h2).opts.caseSensitive <;> rfl
  have e2 : (!(Words.run ch h1).opts.caseSensitive && (Words.run ch h2).opts.caseSensitive) = false := by
    rw [hsame]; cases (Words.run ch h2).opts.caseSensitive <;> rfl
  unfold textDiff
  simp only [e1, e2, Bool.false_eq_true, if_false]
  have hk : ∀ h, WordsSpec.Balanced h → ∀ w, w ∈ PyDict.keys (Words.run ch h).words ↔ wordTable ch h w ≠ none := by
    intro h hb w
    rw [mem_keys, words_eq hc h hb]
  refine ⟨reportsSet_congr (hk h1 b1) (hk h2 b2) (diffLists_set i1.wfWords i2.wfWords), ?_⟩
  obtain ⟨t1, w1⟩ := mostCommon_top i1.wfWords (Words.run ch h1).opts.topWords
  obtain ⟨t2, w2⟩ := mostCommon_top i2.wfWords (Words.run ch h1).opts.topWords
  rw [funext (words_eq hc h1 b1)] at t1
  rw [funext (words_eq hc h2 b2)] at t2
  exact ⟨_, _, t1, t2, countDiff_spec w1⟩

theorem nodup_lower {h : Words.History} (hc : WordsSpec.Sane ch) (hb : WordsSpec.Balanced h)
    (ha : Apart ch (wordTable ch h)) : ((PyDict.keys (Words.run ch h).words).map ch.lower).Nodup := by
  refine List.Nodup.map_on (fun v hv w hw he => ?_) (WordsProps.run_inv hc h).wfWords
  rw [mem_keys, words_eq hc h hb] at hv hw
  exact ha v w hv hw he

theorem lowered_top {h : Words.History} (hc : WordsSpec.Sane ch) (hb : WordsSpec.Balanced h)
    (ha : Apart ch (wordTable ch h)) (n : Option ℕ) :
    ∃ t t', Top n (wordTable ch h) t ∧ Lowered ch t t' ∧
      t' = PyDict.get? (lowerTable ch (Counter.mostCommon (Words.run ch h).words n)) ∧
      PyDict.WF (lowerTable ch (Counter.mostCommon (Words.run ch h).words n)) := by
  have hi := WordsProps.run_inv hc h
  obtain ⟨t, w⟩ := mostCommon_top hi.wfWords n
  have hl := lowerTable_spec (ch := ch) (d := Counter.mostCommon (Words.run ch h).words n) (fun v hv w hw he => by
    rw [mem_keys] at hv hw
    refine ha v w ?_ ?_ he
    · obtain ⟨x, hx⟩ := Option.ne_none_iff_exists'.1 hv
      rw [← words_eq hc h hb, t.sub v x hx]; simp
    · obtain ⟨x, hx⟩ := Option.ne_none_iff_exists'.1 hw
      rw [← words_eq hc h hb, t.sub w x hx]; simp) w
  rw [funext (words_eq hc h hb)] at t
  exact ⟨_, _, t, hl.2, rfl, hl.1⟩

theorem mem_map_lower {h : Words.History} (hc : WordsSpec.Sane ch) (hb : WordsSpec.Balanced h) (w : Word) :
    w ∈ (PyDict.keys (Words.run ch h).words).map ch.lower ↔ ∃ v, ch.lower v = w ∧ wordTable ch h v ≠ none := by
  rw [List.mem_map]
  constructor
  · rintro ⟨v, hv, rfl⟩
    rw [mem_keys, words_eq hc h hb] at hv
    exact ⟨v, rfl, hv⟩
  · rintro ⟨v, rfl, hv⟩
    refine ⟨v, ?_, rfl⟩
    rw [mem_keys, words_eq hc h hb]
    exact hv

/-- If one profile is case sensitive and the other not, the words of the first are compared in lower case, provided that no
two of them have the same lower case. -/
theorem C81_words_case_partial (hc : WordsSpec.Sane ch) (h1 h2 : Words.History) (b1 : WordsSpec.Balanced h1)
    (b2 : WordsSpec.Balanced h2) (n : Option ℕ) (hn : n = (Words.run ch h1).opts.topWords) :
    (WordsSpec.Sensitive h1 → ¬WordsSpec.Sensitive h2 → Apart ch (wordTable ch h1) →
      ReportsSet (fun w => ∃ v, ch.lower v = w ∧ wordTable ch h1 v ≠ none) (fun w => wordTable ch h2 w ≠ none)
        (textDiff ch (Words.run ch h1) (Words.run ch h2)).words ∧
      ∃ t1 t1' t2, Top n (wordTable ch h1) t1 ∧ Lowered ch t1 t1' ∧ Top n (wordTable ch h2) t2 ∧
        ReportsCounts t1' t2 (textDiff ch (Words.run ch h1) (Words.run ch h2)).wordCount) ∧
    (¬WordsSpec.Sensitive h1 → WordsSpec.Sensitive h2 → Apart ch (wordTable ch h2) →
      ReportsSet (fun w => wordTable ch h1 w ≠ none) (fun w => ∃ v, ch.lower v = w ∧ wordTable ch h2 v ≠ none)
        (textDiff ch (Words.run ch h1) (Words.run ch h2)).words ∧
      ∃ t1 t2 t2', Top n (wordTable ch h1) t1 ∧ Top n (wordTable ch h2) t2 ∧ Lowered ch t2 t2' ∧
        ReportsCounts t1 t2' (textDiff ch (Words.run ch h1) (Words.run ch h2)).wordCount) := by
  subst hn
  have i1 := WordsProps.run_inv hc h1
  have i2 := WordsProps.run_inv hc h2
  have hk : ∀ h, WordsSpec.Balanced h → ∀ w, w ∈ PyDict.keys (Words.run ch h).words ↔ wordTable ch h w ≠ none := by
    intro h hb w
    rw [mem_keys, words_eq hc h hb]
  refine ⟨fun s1 s2 ha => ?_, fun s1 s2 ha => ?_⟩
  · have c1 : (Words.run ch h1).opts.caseSensitive = true := (lowA_eq hc h1).2 s1
    have c2 : (Words.run ch h2).opts.caseSensitive = false := by
      rw [Bool.eq_false_iff]; exact fun h => s2 ((lowA_eq hc h2).1 h)
    unfold textDiff
    simp only [c1, c2, Bool.not_true, Bool.not_false, Bool.and_true, Bool.false_and, if_true, Bool.false_eq_true, if_false]
    refine ⟨reportsSet_congr (mem_map_lower hc b1) (hk h2 b2) (diffLists_set (nodup_lower hc b1 ha) i2.wfWords), ?_⟩
    obtain ⟨t, t', p1, p2, p3, p4⟩ := lowered_top hc b1 ha (Words.run ch h1).opts.topWords
    obtain ⟨t2, w2⟩ := mostCommon_top i2.wfWords (Words.run ch h1).opts.topWords
    rw [funext (words_eq hc h2 b2)] at t2
    refine ⟨t, t', _, p1, p2, t2, ?_⟩
    rw [p3]
    exact countDiff_spec p4
  · have c1 : (Words.run ch h1).opts.caseSensitive = false := by
      rw [Bool.eq_false_iff]; exact fun h => s1 ((lowA_eq hc h1).1 h)
    have c2 : (Words.run ch h2).opts.caseSensitive = true := (lowA_eq hc h2).2 s2
    unfold textDiff
    simp only [c1, c2, Bool.not_true, Bool.not_false, Bool.and_true, Bool.false_and, if_true, Bool.false_eq_true, if_false]
    refine ⟨reportsSet_congr (hk h1 b1) (mem_map_lower hc b2) (diffLists_set i1.wfWords (nodup_lower hc b2 ha)), ?_⟩
    obtain ⟨t, t', p1, p2, p3, p4⟩ := lowered_top hc b2 ha (Words.run ch h1).opts.topWords
    obtain ⟨t1, w1⟩ := mostCommon_top i1.wfWords (Words.run ch h1).opts.topWords
    rw [funext (words_eq hc h1 b1)] at t1
    refine ⟨_, t, t', t1, p1, p2, ?_⟩
    rw [p3]
    exact countDiff_spec w1

/-! ## Labels -/

theorem find?_get? {V : Type} (d : PyDict String V) (k : String) :
    (d.find? fun kv => kv.1 = k).map Prod.snd = PyDict.get? d k := by
  induction d with
  | nil => rfl
  | cons p d ih =>
    obtain ⟨k', v⟩ := p
    rw [List.find?_cons, PyDict.get?_cons]
    by_cases h : k' = k <;> simp [h, ih]

/-- Numbers of a dictionary as report values. -/
theorem diffDicts_rats (d1 d2 : PyDict String ℚ) :
    ∃ d, diffDicts (some (shareVals d1)) (some (shareVals d2)) = .ok d ∧
      ProfileDiff.ReportsNums (numberOf d1) (numberOf d2) d := by
  have e : ∀ d : PyDict String ℚ, shareVals d = ProfileDiff.numVals (d.map fun kv => (kv.1, Num.fin kv.2)) := by
    intro d
    simp [shareVals, ProfileDiff.numVals]
  have g : ∀ d : PyDict String ℚ, PyDict.get? (d.map fun kv => (kv.1, Num.fin kv.2)) = numberOf d := by
    intro d
    funext k
    rw [← find?_get?]
    unfold numberOf
    rw [List.find?_map, Option.map_map]
    rfl
  refine ⟨_, by rw [e, e]; exact ProfileDiff.diffDicts_nums _ _, ?_⟩
  have := ProfileDiff.numsD_spec (d1.map fun kv => (kv.1, Num.fin kv.2)) (d2.map fun kv => (kv.1, Num.fin kv.2))
  rwa [g, g] at this

/-- The counts and shares of entities are compared label by label, for words, characters and postprocessed characters. -/
theorem C81_labels (a b : Entities.Profile) :
    ∃ d, labelDiff a b = .ok d ∧
      ProfileDiff.ReportsNums (numberOf (a.words.map fun kv => (kv.1, (kv.2 : ℚ))))
        (numberOf (b.words.map fun kv => (kv.1, (kv.2 : ℚ)))) d.words ∧
      ProfileDiff.ReportsNums (numberOf (a.trueChars.map fun kv => (kv.1, (kv.2 : ℚ))))
        (numberOf (b.trueChars.map fun kv => (kv.1, (kv.2 : ℚ)))) d.trueChars ∧
      ProfileDiff.ReportsNums (numberOf (a.postChars.map fun kv => (kv.1, (kv.2 : ℚ))))
        (numberOf (b.postChars.map fun kv => (kv.1, (kv.2 : ℚ)))) d.postChars ∧
      ProfileDiff.ReportsNums (numberOf a.wordShares) (numberOf b.wordShares) d.wordShares ∧
      ProfileDiff.ReportsNums (numberOf a.trueShares) (numberOf b.trueShares) d.trueShares ∧
      ProfileDiff.ReportsNums (numberOf a.postShares) (numberOf b.postShares) d.postShares := by
  have e : ∀ d : PyDict String ℤ, countVals d = shareVals (d.map fun kv => (kv.1, (kv.2 : ℚ))) := by
    intro d
    simp [countVals, shareVals]
  obtain ⟨d1, q1, r1⟩ := diffDicts_rats (a.words.map fun kv => (kv.1, (kv.2 : ℚ))) (b.words.map fun kv => (kv.1, (kv.2 : ℚ)))
  obtain ⟨d2, q2, r2⟩ := diffDicts_rats (a.trueChars.map fun kv => (kv.1, (kv.2 : ℚ)))
    (b.trueChars.map fun kv => (kv.1, (kv.2 : ℚ)))
  obtain ⟨d3, q3, r3⟩ := diffDicts_rats (a.postChars.map fun kv => (kv.1, (kv.2 : ℚ)))
    (b.postChars.map fun kv => (kv.1, (kv.2 : ℚ)))
  obtain ⟨d4, q4, r4⟩ := diffDicts_rats a.wordShares b.wordShares
  obtain ⟨d5, q5, r5⟩ := diffDicts_rats a.trueShares b.trueShares
  obtain ⟨d6, q6, r6⟩ := diffDicts_rats a.postShares b.postShares
  refine ⟨⟨d1, d2, d3, d4, d5, d6⟩, ?_, r1, r2, r3, r4, r5, r6⟩
  unfold labelDiff
  simp only [e, q1, q2, q3, q4, q5, q6]
  rfl

/-! ## The whole report -/

theorem diffNat (m n : ℚ) : diffNumbers (α := String) (.num (.fin m)) (.num (.fin n)) =
    .ok (ProfileDiff.numD (some (.fin m)) (some (.fin n))) := ProfileDiff.diffNumbers_eq (some (.fin m)) (some (.fin n))

/-- Profiles without data cannot be compared: an `AttributeError` if the first has none, else a `TypeError`. All others can,
and the report has the differences of file type, encoding, samples used, empty lines and memory, and of labels and text
where both profiles have them. -/
theorem C81_report (a b : Side) :
    (a.parts = none → diff ch a b = .error .attributeError) ∧
    (a.parts ≠ none → b.parts = none → diff ch a b = .error .typeError) ∧
    ∀ p q, a.parts = some p → b.parts = some q → ∃ d, diff ch a b = .ok d ∧
      ProfileDiff.ReportsText a.fileType b.fileType d.fileType ∧ ProfileDiff.ReportsText a.encoding b.encoding d.encoding ∧
      ProfileDiff.ReportsNum (some (.fin a.samplesUsed)) (some (.fin b.samplesUsed)) d.samplesUsed ∧
      ProfileDiff.ReportsNum (some (.fin a.emptyLines)) (some (.fin b.emptyLines)) d.emptyLines ∧
      ProfileDiff.ReportsNum (some (.fin a.memory)) (some (.fin b.memory)) d.memory ∧
      (∀ l m, p.labels = some l → q.labels = some m → ∃ e, labelDiff l m = .ok e ∧ d.dataLabel = some e) ∧
      ((p.labels = none ∨ q.labels = none) → d.dataLabel = none) ∧
      (∀ t u, p.text = some t → q.text = some u → d.statistics = some (textDiff ch t u)) ∧
      ((p.text = none ∨ q.text = none) → d.statistics = none) := by
  unfold diff
  simp only [diffNat]
  refine ⟨fun h => ?_, fun h h' => ?_, fun p q hp hq => ?_⟩
  · rw [h]; rfl
  · rw [h']
    obtain ⟨p, hp⟩ := Option.ne_none_iff_exists'.1 h
    rw [hp]; rfl
  · rw [hp, hq]
    have hl : ∃ o, labelPart p.labels q.labels = .ok o ∧
        (∀ l m, p.labels = some l → q.labels = some m → ∃ e, labelDiff l m = .ok e ∧ o = some e) ∧
        ((p.labels = none ∨ q.labels = none) → o = none) := by
      cases hpl : p.labels with
      | none => exact ⟨none, rfl, fun l m h => (by cases h), fun _ => rfl⟩
      | some l =>
        cases hql : q.labels with
        | none => exact ⟨none, rfl, fun l m _ h => (by cases h), fun _ => rfl⟩
        | some m =>
          obtain ⟨e, he, -⟩ := C81_labels l m
          refine ⟨some e, by simp only [labelPart, he]; rfl, fun l' m' h1 h2 => ?_, fun h => ?_⟩
          · cases h1
            cases h2
            exact ⟨e, he, rfl⟩
          · rcases h with h | h <;> cases h
    obtain ⟨o, ho, l1, l2⟩ := hl
    refine ⟨⟨diffStrings a.fileType b.fileType, diffStrings a.encoding b.encoding, _, _, _, o, textPart ch p.text q.text⟩, ?_,
      ProfileDiff.diffStrings_spec _ _, ProfileDiff.diffStrings_spec _ _, ProfileDiff.numD_spec _ _,
      ProfileDiff.numD_spec _ _, ProfileDiff.numD_spec _ _, l1, l2, ?_, ?_⟩
    · simp only [ho]; rfl
    · intro t u ht hu
      rw [ht, hu]; rfl
    · rintro (h | h)
      · rw [h]; cases q.text <;> rfl
      · rw [h]; cases p.text <;> rfl

/-- Profiles made by updates and merges can be compared exactly if both were given lines. -/
theorem C81_fed {mem : List String → ℚ} {h1 h2 : Unstructured.History} (s1 : Sensible h1) (s2 : Sensible h2) {a b : State}
    (r1 : Unstructured.run ch mem h1 = .ok a) (r2 : Unstructured.run ch mem h2 = .ok b) :
    (∃ d, diff ch a.side b.side = .ok d) ↔ Fed h1 ∧ Fed h2 := by
  obtain ⟨_, _, i1⟩ := Props.Unstructured.run_inv h1 s1 r1
  obtain ⟨_, _, i2⟩ := Props.Unstructured.run_inv h2 s2 r2
  rw [← i1.fed, ← i2.fed]
  obtain ⟨c1, c2, c3⟩ := C81_report (ch := ch) a.side b.side
  constructor
  · rintro ⟨d, hd⟩
    constructor
    · intro hn
      rw [c1 (by simp [State.side, hn])] at hd
      cases hd
    · intro hn
      by_cases ha : a.side.parts = none
      · rw [c1 ha] at hd; cases hd
      · rw [c2 ha (by simp [State.side, hn])] at hd
        cases hd
  · rintro ⟨ha, hb⟩
    obtain ⟨p, hp⟩ := Option.ne_none_iff_exists'.1 ha
    obtain ⟨q, hq⟩ := Option.ne_none_iff_exists'.1 hb
    obtain ⟨d, hd, -⟩ := c3 ⟨p.text, none⟩ ⟨q.text, none⟩ (by simp [State.side, hp]) (by simp [State.side, hq])
    exact ⟨d, hd⟩

/-! ## Cases -/

/-- A profile of one text. -/
def one (sensitive : Bool) (limit : Option ℕ) (t : String) : Words.History :=
  .update (.new ⟨sensitive, [], none, limit⟩) [t.toList]

/-- The differences of the words of two texts, both case sensitive. -/
def texts (t u : String) : TextDiff :=
  textDiff WordsProps.ascii (Words.run WordsProps.ascii (one true none t)) (Words.run WordsProps.ascii (one true none u))

example : (texts "to be or not to be" "not to see").wordCount =
    .parts [("be".toList, 2), ("or".toList, 1)] [("to".toList, some 1), ("not".toList, none)] [("see".toList, 1)] := by
  decide +kernel

/-- Which lists a difference shows. -/
def listsOf {α : Type} : Diff α → Option (List α × List α × List α)
  | .lists a b c => some (a, b, c)
  | _ => none

/-- Whether a difference is "unchanged". -/
def same {α : Type} : Diff α → Bool
  | .unchanged => true
  | _ => false

example : listsOf (texts "to be or not to be" "not to see").words =
    some (["be".toList, "or".toList], ["to".toList, "not".toList], ["see".toList]) := by decide +kernel

example : same (texts "a b" "b a").words = true ∧ (texts "a b" "b a").wordCount =
    .parts [] [("a".toList, none), ("b".toList, none)] [] := by decide +kernel

example : WordsSpec.Balanced (one true none "a") ∧ (WordsSpec.Sensitive (one true none "a") ↔
    WordsSpec.Sensitive (one true (some 2) "b")) := by
  refine ⟨trivial, ?_⟩
  simp [one, WordsSpec.Sensitive]

example : Apart WordsProps.ascii (PyDict.get? (Words.run WordsProps.ascii (one true none "Hello world")).words) := by
  have e : (Words.run WordsProps.ascii (one true none "Hello world")).words = [("Hello".toList, 1), ("world".toList, 1)] := by
    decide +kernel
  rw [e]
  intro v w hv hw h
  rw [← mem_keys] at hv hw
  have hv' : v = "Hello".toList ∨ v = "world".toList := by simpa [PyDict.keys] using hv
  have hw' : w = "Hello".toList ∨ w = "world".toList := by simpa [PyDict.keys] using hw
  revert h
  rcases hv' with rfl | rfl <;> rcases hw' with rfl | rfl <;> decide +kernel

/-- One text profiled with and without regard to case: the same word in two spellings is reported as surplus, and the count
compared is that of the rarest spelling only. -/
theorem C81_case_fails :
    let d := textDiff WordsProps.ascii (Words.run WordsProps.ascii (one true none "The the The"))
      (Words.run WordsProps.ascii (one false none "The the The"))
    listsOf d.words = some (["the".toList], ["the".toList], []) ∧ d.wordCount = .parts [] [("the".toList, some (-2))] [] := by
  decide +kernel

/-- The limit of the first profile applies to both: words of both texts appear as words of one only, and the report differs
in the other direction. -/
theorem C81_limits_fails :
    let a := Words.run WordsProps.ascii (one true (some 1) "a a b")
    let b := Words.run WordsProps.ascii (one true none "b b a")
    (textDiff WordsProps.ascii a b).wordCount = .parts [("a".toList, 2)] [] [("b".toList, 2)] ∧
    (textDiff WordsProps.ascii b a).wordCount = .parts [] [("b".toList, some 1), ("a".toList, some (-1))] [] := by
  decide +kernel

end Verif.Props.UnstructuredDiff
