import Verif.Lemmas.Words
import Verif.Lemmas.Split
import Mathlib.Tactic.NormNum

/-!
# C40: words of unstructured text
-/

namespace Verif.WordsProps

open Verif Words WordsSpec Counter

variable {ch : Chars}

/-- The words of a text are its maximal pieces without whitespace, stripped of punctuation; this describes exactly the list
that is counted. -/
theorem C40_split (isSpace : Char → Bool) (t : Word) (ws : List Word) : WordsOf isSpace t ws ↔ ws = split isSpace t :=
  wordsOf_iff t ws

example : split (fun c => decide (c = ' ')) "Hi, the (cat)  -- 'tis it's!".toList =
    ["Hi".toList, "the".toList, "cat".toList, [], "tis".toList, "it's".toList] := by decide +kernel

open scoped Classical in
/-- A word as it is counted. -/
noncomputable def norm (ch : Chars) (h : History) (w : Word) : Word := if Sensitive h then w else ch.lower w

/-- All words of a history. -/
def allWords (ch : Chars) (h : History) : List Word := (texts h).flatMap (split ch.isSpace)

theorem occurrences_eq (h : History) (w : Word) :
    occurrences ch h w = (allWords ch h).countP fun v => decide (norm ch h v = w) := by
  unfold occurrences allWords norm
  refine List.countP_congr fun v _ => ?_
  simp only [decide_eq_true_eq]

/-- What is stored after a history. -/
structure Inv (ch : Chars) (h : History) (p : Profile) : Prop where
  sensitive : p.opts.caseSensitive = true ↔ Sensitive h
  stop : ∀ w, w ∈ p.opts.stop ↔ w ∈ stops h
  size : p.size = (texts h).length
  wfVocab : PyDict.WF p.vocab
  wfWords : PyDict.WF p.words
  vocab : ∀ c, at0 p.vocab c = (texts h).flatten.count c
  empty : [] ∉ PyDict.keys p.words
  count : ∀ w, w ≠ [] → ch.lower w ∉ stops h → at0 p.words w = occurrences ch h w
  clean : Balanced h → ∀ w ∈ PyDict.keys p.words, ch.lower w ∉ stops h

theorem inv_update (hs : Sane ch) {h : History} {p : Profile} (hi : Inv ch h p) (rows : List Word) :
    Inv ch (.update h rows) (update ch p rows) := by
  unfold update
  split_ifs with he
  · subst he
    have e : texts (.update h []) = texts h := List.append_nil _
    exact
      { sensitive := hi.sensitive, stop := hi.stop, size := by rw [e]; exact hi.size, wfVocab := hi.wfVocab,
        wfWords := hi.wfWords, vocab := by rw [e]; exact hi.vocab, empty := hi.empty,
        count := by unfold occurrences; rw [e]; exact hi.count
        clean := hi.clean }
  obtain ⟨h1, h2, h3⟩ := addWord_fold (ch := ch) p.opts.stop (wf_ofList (rowWords ch p.opts.caseSensitive rows)) hi.wfWords
  constructor
  · exact hi.sensitive
  · exact hi.stop
  · show p.size + rows.length = _
    rw [hi.size]; simp [texts]
  · exact wf_plus hi.wfVocab
  · exact h1
  · intro c
    show at0 (plus _ _) c = _
    rw [at0_plus hi.wfVocab (wf_ofList _), hi.vocab, at0_ofList]
    rw [show texts (.update h rows) = texts h ++ rows from rfl, List.flatten_append, List.count_append,
      List.count_eq_countP (l := rows.flatten)]
    congr 1
  · intro hk
    rcases h2 [] hk with h | h
    · exact hi.empty h
    · exact h.1 rfl
  · intro w hw hstop
    refine (h3 w).trans ?_
    have hst : ch.lower w ∉ p.opts.stop := fun h => hstop ((hi.stop _).1 h)
    rw [if_pos ⟨hw, hst⟩, hi.count w hw hstop, at0_ofList, occurrences_eq, occurrences_eq]
    unfold allWords
    rw [show texts (.update h rows) = texts h ++ rows from rfl, List.flatMap_append, List.countP_append]
    congr 1
    unfold rowWords norm
    by_cases hc : p.opts.caseSensitive = true
    · have hS : Sensitive (.update h rows) := hi.sensitive.1 hc
      rw [if_pos hc]
      simp only [if_pos hS]
    · have hS : ¬Sensitive (.update h rows) := fun h' => hc (hi.sensitive.2 h')
      rw [if_neg hc]
      simp only [if_neg hS]
      have e : (rows.flatMap fun row => split ch.isSpace (ch.lower row)) =
          (rows.flatMap (split ch.isSpace)).map ch.lower := by
        rw [List.map_flatMap]
        congr 1
        funext row
        exact hs.split row
      rw [e, List.countP_map]
      rfl
  · intro hb w hw
    rcases h2 w hw with h | h
    · exact hi.clean hb w h
    · exact fun h' => h.2.1 ((hi.stop _).2 h')

theorem mem_stops_merge (h1 h2 : History) (w : Word) : w ∈ stops (.merge h1 h2) ↔ w ∈ stops h1 ∨ w ∈ stops h2 :=
  List.mem_append

/-- The table of a merge before keys are lowered. -/
theorem merge_table {h1 h2 : History} {a b : Profile} (ha : Inv ch h1 a) (hb : Inv ch h2 b) {d : PyDict Word ℕ}
    (hd : d = if (union a.opts.stop b.opts.stop).length ≠ a.opts.stop.length
      then removeStopped ch (union a.opts.stop b.opts.stop) (plus a.words b.words) else plus a.words b.words) :
    PyDict.WF d ∧ [] ∉ PyDict.keys d ∧
      (∀ w, w ≠ [] → ch.lower w ∉ stops (.merge h1 h2) → at0 d w = occurrences ch h1 w + occurrences ch h2 w) ∧
      (Balanced (.merge h1 h2) → ∀ w ∈ PyDict.keys d, ch.lower w ∉ stops (.merge h1 h2)) := by
  have hstop : ∀ w, w ∈ union a.opts.stop b.opts.stop ↔ w ∈ stops (.merge h1 h2) := by
    intro w
    rw [mem_union, mem_stops_merge, ha.stop, hb.stop]
  have hw0 : PyDict.WF (plus a.words b.words) := wf_plus ha.wfWords
  have he0 : [] ∉ PyDict.keys (plus a.words b.words) := fun h => by
    rcases mem_keys_plus h with h | h
    · exact ha.empty h
    · exact hb.empty h
  have hc0 : ∀ w, w ≠ [] → ch.lower w ∉ stops (.merge h1 h2) →
      at0 (plus a.words b.words) w = occurrences ch h1 w + occurrences ch h2 w := by
    intro w hw hst
    rw [mem_stops_merge] at hst
    rw [at0_plus ha.wfWords hb.wfWords, ha.count w hw fun h => hst (Or.inl h), hb.count w hw fun h => hst (Or.inr h)]
  obtain ⟨r1, r2, r3⟩ := removeStopped_spec (ch := ch) (union a.opts.stop b.opts.stop) hw0
  by_cases hl : (union a.opts.stop b.opts.stop).length ≠ a.opts.stop.length
  · rw [if_pos hl] at hd
    subst hd
    refine ⟨r1, fun h => he0 ((r2 _).1 h).1, fun w hw hst => ?_, fun _ w hw => ?_⟩
    · rw [r3 w fun h => hst ((hstop _).1 h)]
      exact hc0 w hw hst
    · exact fun h => ((r2 w).1 hw).2 ((hstop _).2 h)
  · rw [if_neg hl] at hd
    subst hd
    refine ⟨hw0, he0, hc0, fun hbal w hw => ?_⟩
    obtain ⟨b1, b2, b3⟩ := hbal
    have hsub : ∀ w ∈ stops h2, w ∈ stops h1 := by
      intro x hx
      rw [← ha.stop]
      exact (union_length _ _).1 (not_not.1 hl) x ((hb.stop x).2 hx)
    have hsup := b3 hsub
    rw [mem_stops_merge]
    rcases mem_keys_plus hw with h | h
    · have := ha.clean b1 w h
      rintro (h' | h')
      · exact this h'
      · exact this (hsub _ h')
    · have := hb.clean b2 w h
      rintro (h' | h')
      · exact this (hsup _ h')
      · exact this h'

theorem allWords_merge (h1 h2 : History) : allWords ch (.merge h1 h2) = allWords ch h1 ++ allWords ch h2 := by
  unfold allWords
  rw [show texts (.merge h1 h2) = texts h1 ++ texts h2 from rfl, List.flatMap_append]

theorem lower_norm (hs : Sane ch) (h : History) (w : Word) : ch.lower (norm ch h w) = ch.lower w := by
  unfold norm
  split_ifs
  · rfl
  · exact hs.idem w

theorem inv_merge (hs : Sane ch) {h1 h2 : History} {a b : Profile} (ha : Inv ch h1 a) (hb : Inv ch h2 b) :
    Inv ch (.merge h1 h2) (merge ch a b) := by
  obtain ⟨t1, t2, t3, t4⟩ := merge_table ha hb rfl
  have hsens : (a.opts.caseSensitive && b.opts.caseSensitive) = true ↔ Sensitive (.merge h1 h2) := by
    rw [Bool.and_eq_true, ha.sensitive, hb.sensitive]; rfl
  have hvocab : ∀ c, at0 (plus a.vocab b.vocab) c = (texts (.merge h1 h2)).flatten.count c := by
    intro c
    rw [at0_plus ha.wfVocab hb.wfVocab, ha.vocab, hb.vocab]
    simp [texts, List.count_append]
  have hstop : ∀ w, w ∈ union a.opts.stop b.opts.stop ↔ w ∈ stops (.merge h1 h2) := by
    intro w
    rw [mem_union, mem_stops_merge, ha.stop, hb.stop]
  have hsize : a.size + b.size = (texts (.merge h1 h2)).length := by
    rw [ha.size, hb.size]; simp [texts]
  generalize hd : (if (union a.opts.stop b.opts.stop).length ≠ a.opts.stop.length
      then removeStopped ch (union a.opts.stop b.opts.stop) (plus a.words b.words) else plus a.words b.words) = d at *
  have hmw : mergeWords ch a b = if a.opts.caseSensitive ≠ b.opts.caseSensitive then lowerKeys ch d d else d := by
    rw [← hd]; rfl
  by_cases hc : a.opts.caseSensitive = b.opts.caseSensitive
  · -- same case mode
    rw [if_neg (not_not.2 hc)] at hmw
    have hnorm : ∀ w, norm ch (.merge h1 h2) w = norm ch h1 w ∧ norm ch (.merge h1 h2) w = norm ch h2 w := by
      intro w
      have e12 : Sensitive h1 ↔ Sensitive h2 := by rw [← ha.sensitive, ← hb.sensitive, hc]
      have e1 : Sensitive (.merge h1 h2) ↔ Sensitive h1 := ⟨fun h => h.1, fun h => ⟨h, e12.1 h⟩⟩
      unfold norm
      by_cases h : Sensitive h1
      · rw [if_pos (e1.2 h), if_pos h, if_pos (e12.1 h)]; exact ⟨rfl, rfl⟩
      · rw [if_neg (fun h' => h (e1.1 h')), if_neg h, if_neg (fun h' => h (e12.2 h'))]; exact ⟨rfl, rfl⟩
    have hocc : ∀ w, occurrences ch (.merge h1 h2) w = occurrences ch h1 w + occurrences ch h2 w := by
      intro w
      rw [occurrences_eq, occurrences_eq, occurrences_eq, allWords_merge, List.countP_append]
      congr 1
      · exact List.countP_congr fun v _ => by rw [(hnorm v).1]
      · exact List.countP_congr fun v _ => by rw [(hnorm v).2]
    refine ⟨hsens, hstop, hsize, wf_plus ha.wfVocab, ?_, hvocab, ?_, ?_, ?_⟩
    · show PyDict.WF (mergeWords ch a b)
      rw [hmw]; exact t1
    · show [] ∉ PyDict.keys (mergeWords ch a b)
      rw [hmw]; exact t2
    · intro w hw hst
      show at0 (mergeWords ch a b) w = _
      rw [hmw, t3 w hw hst, hocc]
    · intro hbal w hw
      have hw : w ∈ PyDict.keys (mergeWords ch a b) := hw
      rw [hmw] at hw
      exact t4 hbal w hw
  · -- different case modes
    rw [if_pos hc] at hmw
    obtain ⟨l1, l2, l3⟩ := lowerKeys_spec hs t1
    have hS : ¬Sensitive (.merge h1 h2) := by
      rintro ⟨s1, s2⟩
      exact hc ((ha.sensitive.2 s1).trans (hb.sensitive.2 s2).symm)
    refine ⟨hsens, hstop, hsize, wf_plus ha.wfVocab, ?_, hvocab, ?_, ?_, ?_⟩
    · show PyDict.WF (mergeWords ch a b)
      rw [hmw]; exact l1
    · show [] ∉ PyDict.keys (mergeWords ch a b)
      rw [hmw]
      intro h
      obtain ⟨k, hk, e⟩ := l2 _ h
      exact t2 ((hs.empty k).1 e.symm ▸ hk)
    · intro v hv hst
      show at0 (mergeWords ch a b) v = _
      rw [hmw, l3 v]
      have hsum := sum_table t1 (fun k => decide (ch.lower k = v)) id
        ((allWords ch h1).map (norm ch h1) ++ (allWords ch h2).map (norm ch h2)) (by
          intro k hk
          have hk : ch.lower k = v := of_decide_eq_true hk
          have hk0 : k ≠ [] := fun h => hv (by rw [← hk, (hs.empty k).2 h])
          have hkst : ch.lower k ∉ stops (.merge h1 h2) := by
            rw [← hk, hs.idem] at hst
            exact hst
          rw [t3 k hk0 hkst, occurrences_eq, occurrences_eq, List.countP_append, List.countP_map, List.countP_map]
          rfl)
      simp only [decide_eq_true_eq] at hsum
      rw [hsum, occurrences_eq, allWords_merge, List.countP_append, List.countP_append, List.countP_map, List.countP_map]
      congr 1
      · refine List.countP_congr fun u _ => ?_
        simp only [Function.comp_apply, id_eq, decide_eq_true_eq]
        rw [lower_norm hs, norm, if_neg hS]
      · refine List.countP_congr fun u _ => ?_
        simp only [Function.comp_apply, id_eq, decide_eq_true_eq]
        rw [lower_norm hs, norm, if_neg hS]
    · intro hbal w hw
      have hw : w ∈ PyDict.keys (mergeWords ch a b) := hw
      rw [hmw] at hw
      obtain ⟨k, hk, rfl⟩ := l2 w hw
      rw [hs.idem]
      exact t4 hbal k hk

theorem run_inv (hs : Sane ch) (h : History) : Inv ch h (run ch h) := by
  induction h with
  | new o =>
    exact
      { sensitive := Iff.rfl, stop := fun _ => Iff.rfl, size := rfl, wfVocab := PyDict.WF_nil, wfWords := PyDict.WF_nil,
        vocab := fun _ => rfl, empty := fun h => by cases h
        count := fun _ _ _ => rfl
        clean := fun _ _ h => by cases h }
  | update h rows ih => exact inv_update hs ih rows
  | merge h1 h2 ih1 ih2 => exact inv_merge hs ih1 ih2

/-- After any history of updates and merges, every word that nobody stopped has its exact number of occurrences in all
texts, with its case ignored unless all profiles were case sensitive; the empty word is never counted. -/
theorem C40_count (hs : Sane ch) (h : History) :
    (∀ w, w ≠ [] → ch.lower w ∉ stops h → PyDict.getD (run ch h).words w 0 = occurrences ch h w) ∧
      PyDict.get? (run ch h).words [] = none := by
  have hi := run_inv hs h
  exact ⟨hi.count, (PyDict.get?_eq_none_iff _ _).2 hi.empty⟩

/-- Stopped words are absent from the table, if in no merge the first profile has all stop words of the second and more. -/
theorem C40_stopped_partial (hs : Sane ch) (h : History) (hb : Balanced h) (w : Word) (hw : ch.lower w ∈ stops h) :
    PyDict.get? (run ch h).words w = none := by
  rw [PyDict.get?_eq_none_iff]
  exact fun hk => (run_inv hs h).clean hb w hk hw

/-- Every character of the texts is counted. -/
theorem C40_vocab (hs : Sane ch) (h : History) (c : Char) :
    PyDict.getD (run ch h).vocab c 0 = (texts h).flatten.count c ∧ (run ch h).size = (texts h).length :=
  ⟨(run_inv hs h).vocab c, (run_inv hs h).size⟩

/-- Tables are the same however the texts were batched, merged and ordered. -/
theorem C40_batching (hs : Sane ch) (h1 h2 : History) (ht : (texts h1).Perm (texts h2))
    (hst : ∀ w, w ∈ stops h1 ↔ w ∈ stops h2) (hse : Sensitive h1 ↔ Sensitive h2) :
    (∀ w, w ≠ [] → ch.lower w ∉ stops h1 →
      PyDict.getD (run ch h1).words w 0 = PyDict.getD (run ch h2).words w 0) ∧
      ∀ c, PyDict.getD (run ch h1).vocab c 0 = PyDict.getD (run ch h2).vocab c 0 := by
  refine ⟨fun w hw hl => ?_, fun c => ?_⟩
  · rw [(C40_count hs h1).1 w hw hl, (C40_count hs h2).1 w hw fun h => hl ((hst _).2 h)]
    unfold occurrences
    rw [(ht.flatMap_right _).countP_eq]
    refine List.countP_congr fun v _ => ?_
    by_cases hS : Sensitive h1
    · rw [if_pos hS, if_pos (hse.1 hS)]
    · rw [if_neg hS, if_neg fun h => hS (hse.2 h)]
  · rw [(C40_vocab hs h1 c).1, (C40_vocab hs h2 c).1]
    exact ht.flatten.count_eq c

/-! ### Lower case of the letters A to Z -/

/-- The capital letters. -/
def capitals : List Char := "ABCDEFGHIJKLMNOPQRSTUVWXYZ".toList

/-- The small letters. -/
def smalls : List Char := "abcdefghijklmnopqrstuvwxyz".toList

/-- Lower case of a letter. -/
def lowerC (c : Char) : Char := if c ∈ capitals then Char.ofNat (c.toNat + 32) else c

/-- `str.lower` and `str.islower` for texts in which only A to Z have a lower case. -/
def ascii : Chars where
  lower w := w.map lowerC
  islower w := w.any (fun c => decide (c ∈ smalls)) && w.all fun c => decide (c ∉ capitals)
  isSpace c := decide (c ∈ [' ', '\t', '\n', '\r', '\x0b', '\x0c'])

theorem lowerC_capital : ∀ c ∈ capitals, lowerC c ∈ smalls ∧ lowerC c ∉ capitals ∧ ascii.isSpace (lowerC c) = false ∧
    ascii.isSpace c = false ∧ lowerC c ∉ punctuation ∧ c ∉ punctuation := by decide +kernel

theorem lowerC_other {c : Char} (h : c ∉ capitals) : lowerC c = c := if_neg h

theorem lowerC_not_capital (c : Char) : lowerC c ∉ capitals := by
  by_cases h : c ∈ capitals
  · exact (lowerC_capital c h).2.1
  · rwa [lowerC_other h]

theorem lowerC_space (c : Char) : ascii.isSpace (lowerC c) = ascii.isSpace c := by
  by_cases h : c ∈ capitals
  · rw [(lowerC_capital c h).2.2.1, (lowerC_capital c h).2.2.2.1]
  · rw [lowerC_other h]

theorem lowerC_punctuation (c : Char) : lowerC c ∈ punctuation ↔ c ∈ punctuation := by
  by_cases h : c ∈ capitals
  · exact iff_of_false (lowerC_capital c h).2.2.2.2.1 (lowerC_capital c h).2.2.2.2.2
  · rw [lowerC_other h]

theorem pieces_map (f : Char → Char) (isSpace : Char → Bool) (h : ∀ c, isSpace (f c) = isSpace c) (t : Word) :
    pieces isSpace (t.map f) = (pieces isSpace t).map (List.map f) := by
  induction t with
  | nil => rfl
  | cons c t ih =>
    obtain ⟨p, ps, hp⟩ := List.exists_cons_of_ne_nil (pieces_ne_nil (isSpace := isSpace) t)
    rw [List.map_cons, pieces, pieces, ih, hp]
    simp only [List.map_cons, h]
    split_ifs <;> rfl

theorem dropWhile_map (f : Char → Char) (p : Char → Bool) (h : ∀ c, p (f c) = p c) (t : Word) :
    (t.map f).dropWhile p = (t.dropWhile p).map f := by
  induction t with
  | nil => rfl
  | cons c t ih =>
    by_cases hc : p c = true
    · rw [List.map_cons, List.dropWhile_cons_of_pos ((h c).trans hc), List.dropWhile_cons_of_pos hc, ih]
    · rw [List.map_cons, List.dropWhile_cons_of_neg (by rw [h]; exact hc), List.dropWhile_cons_of_neg hc, List.map_cons]

theorem strip_map (w : Word) : strip (w.map lowerC) = (strip w).map lowerC := by
  have h : ∀ c, (decide (lowerC c ∈ punctuation)) = decide (c ∈ punctuation) := fun c => by
    rw [decide_eq_decide]; exact lowerC_punctuation c
  unfold strip
  rw [dropWhile_map lowerC (fun c => decide (c ∈ punctuation)) h, ← List.map_reverse,
    dropWhile_map lowerC (fun c => decide (c ∈ punctuation)) h, ← List.map_reverse]

theorem filter_nonempty_map (f : Char → Char) (l : List Word) :
    (l.map (List.map f)).filter (fun p => decide (p ≠ [])) = (l.filter fun p => decide (p ≠ [])).map (List.map f) := by
  rw [List.filter_map]
  congr 1
  refine List.filter_congr fun p _ => ?_
  simp

/-- The assumptions hold for texts in which only A to Z have a lower case. -/
theorem C40_ascii_sane : Sane ascii where
  idem w := by
    show (w.map lowerC).map lowerC = w.map lowerC
    rw [List.map_map]
    exact List.map_congr_left fun c _ => lowerC_other (lowerC_not_capital c)
  empty w := List.map_eq_nil_iff
  islower w h := by
    show w.map lowerC = w
    have h2 : (w.all fun c => decide (c ∉ capitals)) = true := ((Bool.and_eq_true _ _).mp h).2
    rw [List.all_eq_true] at h2
    have : w.map lowerC = w.map id := List.map_congr_left fun c hc => lowerC_other (of_decide_eq_true (h2 c hc))
    rwa [List.map_id] at this
  lowered w h := by
    have h : w.map lowerC ≠ w := h
    show ((w.map lowerC).any (fun c => decide (c ∈ smalls)) && (w.map lowerC).all fun c => decide (c ∉ capitals)) = true
    have hc : ∃ c ∈ w, c ∈ capitals := by
      by_contra hn
      apply h
      have : w.map lowerC = w.map id :=
        List.map_congr_left fun c hc => lowerC_other fun h' => hn ⟨c, hc, h'⟩
      rwa [List.map_id] at this
    obtain ⟨c, h1, h2⟩ := hc
    rw [Bool.and_eq_true, List.any_eq_true, List.all_eq_true]
    refine ⟨⟨lowerC c, List.mem_map.2 ⟨c, h1, rfl⟩, decide_eq_true (lowerC_capital c h2).1⟩, fun x hx => ?_⟩
    obtain ⟨y, _, rfl⟩ := List.mem_map.1 hx
    exact decide_eq_true (lowerC_not_capital y)
  split row := by
    unfold split
    rw [show ascii.lower row = row.map lowerC from rfl, pieces_map lowerC ascii.isSpace lowerC_space,
      filter_nonempty_map, List.map_map, List.map_map]
    exact List.map_congr_left fun p _ => strip_map p

/-- Two case sensitive batches, merged with a profile that ignores case and has another stop word. -/
def sample : History :=
  .merge (.update (.update (.new ⟨true, ["the".toList], none, none⟩) ["The cat, the Dog".toList]) ["Cat!".toList])
    (.update (.new ⟨false, ["a".toList], none, some 1⟩) ["A DOG".toList])

example : Balanced sample ∧ ¬Sensitive sample := by
  refine ⟨⟨trivial, trivial, fun h => ?_⟩, fun h => ?_⟩
  · exact absurd (h "a".toList List.mem_cons_self) (by decide)
  · exact Bool.false_ne_true h.2

example : (run ascii sample).words = [("cat".toList, 2), ("dog".toList, 2)] := by decide +kernel

/-- A word stopped by the first profile comes back when the second one has no further stop words. -/
theorem C40_merge_fails :
    "the".toList ∈ stops (.merge (.new ⟨true, ["the".toList], none, none⟩)
        (.update (.new ⟨true, [], none, none⟩) ["the".toList])) ∧
      (run ascii (.merge (.new ⟨true, ["the".toList], none, none⟩)
        (.update (.new ⟨true, [], none, none⟩) ["the".toList]))).words = [("the".toList, 1)] ∧
      (run ascii (.merge (.update (.new ⟨true, [], none, none⟩) ["the".toList])
        (.new ⟨true, ["the".toList], none, none⟩))).words = [] := by decide +kernel

/-! ### The reported tables -/

/-- The reported word table has no word twice, falling counts, entries of the whole table, as many as the limit allows, and
leaves out only words that are not more frequent. Likewise for characters. -/
theorem C40_report (hs : Sane ch) (h : History) :
    (PyDict.WF (report (run ch h)).2 ∧ (∀ x ∈ (report (run ch h)).2, x ∈ (run ch h).words) ∧
      (report (run ch h)).2.Pairwise (fun a b => b.2 ≤ a.2) ∧
      (report (run ch h)).2.length = (match (run ch h).opts.topWords with
        | none => (run ch h).words.length
        | some n => min n (run ch h).words.length) ∧
      ∀ x ∈ (run ch h).words, x ∉ (report (run ch h)).2 → ∀ y ∈ (report (run ch h)).2, x.2 ≤ y.2) ∧
    (PyDict.WF (report (run ch h)).1 ∧ (∀ x ∈ (report (run ch h)).1, x ∈ (run ch h).vocab) ∧
      (report (run ch h)).1.Pairwise (fun a b => b.2 ≤ a.2) ∧
      (report (run ch h)).1.length = (match (run ch h).opts.topChars with
        | none => (run ch h).vocab.length
        | some n => min n (run ch h).vocab.length) ∧
      ∀ x ∈ (run ch h).vocab, x ∉ (report (run ch h)).1 → ∀ y ∈ (report (run ch h)).1, x.2 ≤ y.2) :=
  ⟨mostCommon_spec (run_inv hs h).wfWords _, mostCommon_spec (run_inv hs h).wfVocab _⟩

example : (report (run ascii (.update (.new ⟨false, [], none, some 2⟩) ["b a c a B a".toList]))).2 =
    [("a".toList, 3), ("b".toList, 2)] := by decide +kernel

/-- A limit is kept by merging only if every profile has one, and is then the largest. -/
theorem C40_limits (h : History) (f : Opts → Option ℕ)
    (hf : f = Opts.topWords ∨ f = Opts.topChars) (hpos : ∀ n, some n ∈ limits f h → 0 < n) :
    (none ∈ limits f h → f (run ch h).opts = none) ∧
      (none ∉ limits f h → ∃ n, f (run ch h).opts = some n ∧ some n ∈ limits f h ∧ ∀ m, some m ∈ limits f h → m ≤ n) := by
  have hup : ∀ h rows, f (run ch (.update h rows)).opts = f (run ch h).opts := by
    intro h rows
    rw [run]
    unfold update
    split_ifs <;> rfl
  have hme : ∀ h1 h2, f (run ch (.merge h1 h2)).opts = mergeTop (f (run ch h1).opts) (f (run ch h2).opts) := by
    intro h1 h2
    rcases hf with rfl | rfl <;> rfl
  induction h with
  | new o =>
    refine ⟨fun h => ?_, fun h => ?_⟩
    · exact (List.mem_singleton.1 h).symm
    · cases ho : f o with
      | none => exact absurd (by simp [limits, ho]) h
      | some n =>
        refine ⟨n, ho, by simp [limits, ho], fun m hm => ?_⟩
        simp [limits, ho] at hm
        exact hm.le
  | update h rows ih =>
    rw [hup]
    exact ih hpos
  | merge h1 h2 ih1 ih2 =>
    rw [hme]
    obtain ⟨i1, i2⟩ := ih1 fun n hn => hpos n (List.mem_append_left _ hn)
    obtain ⟨j1, j2⟩ := ih2 fun n hn => hpos n (List.mem_append_right _ hn)
    refine ⟨fun h => ?_, fun h => ?_⟩
    · rcases List.mem_append.1 h with h | h
      · rw [i1 h]; rfl
      · rw [j1 h]
        cases f (run ch h1).opts with
        | none => rfl
        | some n => cases n <;> rfl
    · have n1 : none ∉ limits f h1 := fun h' => h (List.mem_append_left _ h')
      have n2 : none ∉ limits f h2 := fun h' => h (List.mem_append_right _ h')
      obtain ⟨a, ha, ha1, ha2⟩ := i2 n1
      obtain ⟨b, hb, hb1, hb2⟩ := j2 n2
      have pa := hpos a (List.mem_append_left _ ha1)
      have pb := hpos b (List.mem_append_right _ hb1)
      obtain ⟨a', rfl⟩ := Nat.exists_eq_succ_of_ne_zero pa.ne'
      obtain ⟨b', rfl⟩ := Nat.exists_eq_succ_of_ne_zero pb.ne'
      refine ⟨max (a' + 1) (b' + 1), by rw [ha, hb]; rfl, ?_, fun m hm => ?_⟩
      · rcases max_choice (a' + 1) (b' + 1) with e | e <;> rw [e]
        · exact List.mem_append_left _ ha1
        · exact List.mem_append_right _ hb1
      · rcases List.mem_append.1 hm with hm | hm
        · exact (ha2 m hm).trans (le_max_left _ _)
        · exact (hb2 m hm).trans (le_max_right _ _)

end Verif.WordsProps
