import Verif.Lemmas.Unstructured

/-!
# C80: profiles of unstructured text
-/

namespace Verif.Props.Unstructured

open Verif Verif.Unstructured Verif.UnstructuredSpec
open Verif.Words (Chars Word)

variable {ch : Chars} {mem : List String → ℚ}

theorem update_eq {s : State} {b : Batch} (h : b.data ≠ .other) :
    update ch mem s b =
      if len b.data = 0 then .ok s
      else match series b.data with
        | .error e => .error e
        | .ok (name, col) =>
          match clean ch col (SampleSize.chosen b.sampleSize s.opts.perUpdate s.opts.ratio 5000 (len b.data))
              (if b.minTrue = 0 then s.opts.minTrue else b.minTrue) b.draws with
          | .error e => .error e
          | .ok (lines, total, empty) =>
            .ok { s with
                  total := s.total + total
                  empty := s.empty + empty
                  memory := s.memory + mem (col.map Prod.snd)
                  profile := some (feed ch s.opts name lines s.profile)
                  encoding := (match b.reader with
                    | some (some e, _) => some e
                    | _ => s.encoding)
                  fileType := (match b.reader with
                    | some (_, t) => some t
                    | none => some (className b.data)) } := by
  rcases b with ⟨d, r, ss, mt, dr⟩
  cases d with
  | other => exact absurd rfl h
  | _ => rfl

theorem lines_of_len {d : Data} (hd : Distinct d) (h : len d = 0) : lines d = [] := by
  cases d with
  | text s =>
    have : s = "" := String.length_eq_zero_iff.1 h
    simp [lines, this]
  | list ls => exact List.length_eq_zero_iff.1 h
  | series nm cs =>
    have : cs = [] := List.length_eq_zero_iff.1 h
    simp [lines, this]
  | frame ix cols =>
    match cols, hd with
    | [], _ => rfl
    | [(n, c)], hd =>
      have h2 := hd.2 (n, c) (List.mem_singleton.2 rfl)
      have h3 : ix.length = 0 := h
      exact List.length_eq_zero_iff.1 (h2.trans h3)
    | _ :: _ :: _, _ => rfl
  | other => rfl

/-- What an update does. -/
theorem update_spec {s : State} {b : Batch} (hd : Distinct b.data)
    (hv : Shuffle.ValidDraws (lines b.data).length b.draws) :
    (b.data = .other ∧ update ch mem s b = .error .typeError) ∨
    (b.data ≠ .other ∧ len b.data = 0 ∧ update ch mem s b = .ok s) ∨
    (b.data ≠ .other ∧ len b.data ≠ 0 ∧ ∃ e, series b.data = .error e ∧ update ch mem s b = .error e) ∨
    (b.data ≠ .other ∧ lines b.data ≠ [] ∧ ∃ name col rest seen, series b.data = .ok (name, col) ∧
      rest.Perm (seen.filter fun l => ¬Blank ch l) ∧ List.Subperm seen (lines b.data) ∧
      (seen.length = (lines b.data).length ∨ (wanted s.opts b ≤ seen.length ∧
        wantedTrue s.opts b ≤ (seen.filter fun l => ¬Blank ch l).length)) ∧
      update ch mem s b = .ok { s with
        total := s.total + seen.length
        empty := s.empty + (seen.filter fun l => Blank ch l).length
        memory := s.memory + mem (lines b.data)
        profile := some (feed ch s.opts name rest s.profile)
        encoding := (match b.reader with
          | some (some e, _) => some e
          | _ => s.encoding)
        fileType := (match b.reader with
          | some (_, t) => some t
          | none => some (className b.data)) }) := by
  by_cases ho : b.data = .other
  · left
    refine ⟨ho, ?_⟩
    rcases b with ⟨d, r, ss, mt, dr⟩
    cases ho
    rfl
  by_cases hl : len b.data = 0
  · right; left
    exact ⟨ho, hl, by rw [update_eq ho, if_pos hl]⟩
  cases hs : series b.data with
  | error e =>
    right; right; left
    refine ⟨ho, hl, e, rfl, ?_⟩
    rw [update_eq ho, if_neg hl, hs]
  | ok nc =>
    obtain ⟨name, col⟩ := nc
    right; right; right
    obtain ⟨h1, h2, h3⟩ := series_spec hd hl hs
    have hlen : (lines b.data).length = col.length := by rw [← h1, List.length_map]
    have hex : len b.data = extent b.data := len_extent hd fun e he => by rw [hs] at he; cases he
    have hp := wanted_pos s.opts b (hex ▸ hl)
    rw [hlen] at hv
    obtain ⟨rest, seen, g1, g2, g3, g4⟩ := clean_spec (ch := ch) h2 h3 hp (wantedTrue s.opts b) hv
    refine ⟨ho, ?_, name, col, rest, seen, rfl, g2, ?_, ?_, ?_⟩
    · intro h0
      rw [h0] at hlen
      exact h3 (List.length_eq_zero_iff.1 hlen.symm)
    · rw [← h1]; exact g3
    · rw [hlen]; exact g4
    · have hw : (if b.minTrue = 0 then s.opts.minTrue else b.minTrue) = wantedTrue s.opts b := by
        unfold wantedTrue
        rcases b.minTrue with _ | n <;> simp
      rw [update_eq ho, if_neg hl, hs]
      simp only [chosen_wanted s.opts b hex, hw, g1, h1]

/-- What is stored after a history in which `seen` was looked at. -/
structure Inv (ch : Chars) (mem : List String → ℚ) (h : History) (s : State) (seen : List String) : Prop where
  opts : s.opts = settings h
  total : s.total = seen.length
  empty : s.empty = (seen.filter fun l => Blank ch l).length
  memory : s.memory = UnstructuredSpec.memory mem h
  fed : s.profile ≠ none ↔ Fed h
  unfed : s.profile = none → seen = [] ∧ options h = [s.opts]
  enabled : ∀ c, s.profile = some c → ∀ o ∈ options h, (o.text = none ↔ c.text = none)
  text : ∀ c, s.profile = some c → ∀ p, c.text = some p → ∃ wh, p = Words.run ch wh ∧
    (WordsSpec.texts wh).Perm ((seen.filter fun l => ¬Blank ch l).map String.toList) ∧
    (∀ w, w ∈ WordsSpec.stops wh ↔ ∃ o ∈ options h, ∃ t, o.text = some t ∧ w ∈ t.stop) ∧
    (WordsSpec.Sensitive wh ↔ CaseSensitive h)

theorem run_inv (h : History) (hs : Sensible h) {s : State} (hr : run ch mem h = .ok s) :
    ∃ seen, Looked ch h seen ∧ Inv ch mem h s seen := by
  induction h generalizing s with
  | new o =>
    simp only [run, Except.ok.injEq] at hr
    subst hr
    exact ⟨[], .new o,
      { opts := rfl, total := rfl, empty := rfl, memory := rfl, fed := by simp [Unstructured.new, Fed]
        unfed := fun _ => ⟨rfl, rfl⟩, enabled := (fun c hc => by cases hc), text := (fun c hc => by cases hc) }⟩
  | update h b ih =>
    obtain ⟨hs1, hd, hv⟩ := hs
    rw [run] at hr
    cases hr1 : run ch mem h with
    | error e => rw [hr1] at hr; cases hr
    | ok s0 =>
      rw [hr1] at hr
      simp only at hr
      obtain ⟨seen, hk, hi⟩ := ih hs1 hr1
      rcases update_spec (ch := ch) (mem := mem) (s := s0) hd hv with ⟨_, h1⟩ | ⟨_, hl, h1⟩ | ⟨_, _, e, _, h1⟩ |
          ⟨_, hne, name, col, rest, ls, _, hrest, hsub, hen, h1⟩
      · rw [h1] at hr; cases hr
      · rw [h1] at hr
        simp only [Except.ok.injEq] at hr
        subst hr
        have hn := lines_of_len hd hl
        refine ⟨seen ++ [], .update hk List.nil_subperm (Or.inl (by rw [hn])), ?_⟩
        rw [List.append_nil]
        exact
          { opts := hi.opts, total := hi.total, empty := hi.empty
            memory := by simp only [UnstructuredSpec.memory, hn, if_true, add_zero]; exact hi.memory
            fed := by simp only [Fed, hn, ne_eq, not_true_eq_false, or_false]; exact hi.fed
            unfed := hi.unfed, enabled := hi.enabled, text := hi.text }
      · rw [h1] at hr; cases hr
      · rw [h1] at hr
        simp only [Except.ok.injEq] at hr
        subst hr
        rw [hi.opts] at hen
        refine ⟨seen ++ ls, .update hk hsub hen, ?_⟩
        have hperm : ∀ {t : List Word}, t.Perm ((seen.filter fun l => ¬Blank ch l).map String.toList) →
            (t ++ rest.map String.toList).Perm (((seen ++ ls).filter fun l => ¬Blank ch l).map String.toList) := by
          intro t ht
          rw [List.filter_append, List.map_append]
          exact ht.append (hrest.map _)
        refine
          { opts := hi.opts
            total := by rw [List.length_append]; exact congrArg (· + _) hi.total
            empty := by rw [List.filter_append, List.length_append]; exact congrArg (· + _) hi.empty
            memory := by simp only [UnstructuredSpec.memory, if_neg hne]; exact congrArg (· + _) hi.memory
            fed := ⟨fun _ => Or.inr hne, fun _ => by simp⟩
            unfed := (fun h => by cases h)
            enabled := ?_, text := ?_ }
        · intro c hc o ho
          simp only [Option.some.injEq] at hc
          subst hc
          cases hp : s0.profile with
          | none =>
            have := (hi.unfed hp).2
            rw [options, this, List.mem_singleton] at ho
            subst ho
            simp [feed]
          | some c0 =>
            simp only [feed, Option.map_eq_none_iff]
            exact hi.enabled c0 hp o ho
        · intro c hc p hp
          simp only [Option.some.injEq] at hc
          subst hc
          cases hp0 : s0.profile with
          | none =>
            rw [hp0] at hp
            simp only [feed, Option.map_eq_some_iff] at hp
            obtain ⟨t, ht, rfl⟩ := hp
            obtain ⟨hseen, hopt⟩ := hi.unfed hp0
            refine ⟨.update (.new t) (rest.map String.toList), rfl, ?_, ?_, ?_⟩
            · exact hperm (t := []) (by rw [hseen]; exact List.Perm.refl _)
            · intro w
              simp only [WordsSpec.stops, options, hopt, List.mem_singleton, exists_eq_left, ht, Option.some.injEq]
              exact ⟨fun h => ⟨t, rfl, h⟩, fun ⟨_, e, h⟩ => e ▸ h⟩
            · simp only [WordsSpec.Sensitive, CaseSensitive, options, hopt, List.mem_singleton, forall_eq, ht,
                Option.some.injEq, forall_eq']
          | some c0 =>
            rw [hp0] at hp
            simp only [feed, Option.map_eq_some_iff] at hp
            obtain ⟨p0, hp1, rfl⟩ := hp
            obtain ⟨wh, rfl, w2, w3, w4⟩ := hi.text c0 hp0 p0 hp1
            exact ⟨.update wh (rest.map String.toList), rfl, hperm w2, w3, w4⟩
  | merge h1 h2 ih1 ih2 =>
    obtain ⟨hs1, hs2⟩ := hs
    rw [run] at hr
    cases hr1 : run ch mem h1 with
    | error e => rw [hr1] at hr; cases hr
    | ok a =>
      rw [hr1] at hr
      simp only at hr
      cases hr2 : run ch mem h2 with
      | error e => rw [hr2] at hr; cases hr
      | ok b =>
        rw [hr2] at hr
        simp only at hr
        obtain ⟨as, hka, hia⟩ := ih1 hs1 hr1
        obtain ⟨bs, hkb, hib⟩ := ih2 hs2 hr2
        refine ⟨as ++ bs, .merge hka hkb, ?_⟩
        unfold merge at hr
        cases ha : a.profile with
        | none => rw [ha] at hr; cases hb : b.profile <;> rw [hb] at hr <;> cases hr
        | some ca =>
          cases hb : b.profile with
          | none => rw [ha, hb] at hr; cases hr
          | some cb =>
            rw [ha, hb] at hr
            have fa := hia.fed.1 (by rw [ha]; simp)
            have fb := hib.fed.1 (by rw [hb]; simp)
            simp only [mergeCompiler] at hr
            by_cases hn : ca.name ≠ cb.name
            · rw [if_pos hn] at hr; cases hr
            rw [if_neg hn] at hr
            cases hta : ca.text with
            | none =>
              cases htb : cb.text with
              | none =>
                rw [hta, htb] at hr
                simp only [Except.ok.injEq] at hr
                subst hr
                refine
                  { opts := hia.opts
                    total := by rw [List.length_append]; exact congrArg₂ (· + ·) hia.total hib.total
                    empty := by
                      rw [List.filter_append, List.length_append]; exact congrArg₂ (· + ·) hia.empty hib.empty
                    memory := congrArg₂ (· + ·) hia.memory hib.memory
                    fed := ⟨fun _ => ⟨fa, fb⟩, fun _ => by simp⟩
                    unfed := (fun h => by cases h)
                    enabled := ?_, text := ?_ }
                · intro c hc o ho
                  simp only [Option.some.injEq] at hc
                  subst hc
                  rcases List.mem_append.1 ho with ho | ho
                  · rw [hia.enabled ca ha o ho, hta]
                  · rw [hib.enabled cb hb o ho, htb]
                · intro c hc p hp
                  simp only [Option.some.injEq] at hc
                  subst hc
                  cases hp
              | some q => rw [hta, htb] at hr; cases hr
            | some p =>
              cases htb : cb.text with
              | none => rw [hta, htb] at hr; cases hr
              | some q =>
                rw [hta, htb] at hr
                simp only [Except.ok.injEq] at hr
                subst hr
                refine
                  { opts := hia.opts
                    total := by rw [List.length_append]; exact congrArg₂ (· + ·) hia.total hib.total
                    empty := by
                      rw [List.filter_append, List.length_append]; exact congrArg₂ (· + ·) hia.empty hib.empty
                    memory := congrArg₂ (· + ·) hia.memory hib.memory
                    fed := ⟨fun _ => ⟨fa, fb⟩, fun _ => by simp⟩
                    unfed := (fun h => by cases h)
                    enabled := ?_, text := ?_ }
                · intro c hc o ho
                  simp only [Option.some.injEq] at hc
                  subst hc
                  rcases List.mem_append.1 ho with ho | ho
                  · rw [hia.enabled ca ha o ho, hta]; simp
                  · rw [hib.enabled cb hb o ho, htb]; simp
                · intro c hc r hp
                  simp only [Option.some.injEq] at hc
                  subst hc
                  simp only [Option.some.injEq] at hp
                  subst hp
                  obtain ⟨wa, rfl, a2, a3, a4⟩ := hia.text ca ha p hta
                  obtain ⟨wb, rfl, b2, b3, b4⟩ := hib.text cb hb q htb
                  refine ⟨.merge wa wb, rfl, ?_, ?_, ?_⟩
                  · rw [List.filter_append, List.map_append]
                    exact a2.append b2
                  · intro w
                    rw [WordsSpec.stops, List.mem_append, a3, b3]
                    simp only [options, List.mem_append, or_and_right, exists_or]
                  · rw [WordsSpec.Sensitive, a4, b4]
                    simp only [CaseSensitive, options, List.mem_append, or_imp, forall_and]

theorem looked_whole {h : History} {seen : List String} (hw : Whole h) (hl : Looked ch h seen) : seen.Perm (allLines h) := by
  induction hl with
  | new o => exact List.Perm.refl _
  | update hs sub enough ih =>
    refine (ih hw.1).append ?_
    refine sub.perm_of_length_le ?_
    rcases enough with h | h
    · exact h.ge
    · exact hw.2.trans h.1
  | merge ha hb iha ihb => exact (iha hw.1).append (ihb hw.2)

/-- After any history of updates and merges, the number of samples, the number of empty lines and the memory reported are
those of the lines looked at: of every batch a choice of its lines, each taken at most once, and either all of them or as
many as asked for. -/
theorem C80_counts (h : History) (hs : Sensible h) {s : State} (hr : run ch mem h = .ok s) {r : Report}
    (hp : report s = .ok r) :
    ∃ seen, Looked ch h seen ∧ r.samplesUsed = seen.length ∧
      r.emptyLineCount = (seen.filter fun l => Blank ch l).length ∧ r.memorySize = UnstructuredSpec.memory mem h := by
  obtain ⟨seen, hl, hi⟩ := run_inv h hs hr
  refine ⟨seen, hl, ?_⟩
  unfold report at hp
  split at hp
  · cases hp
  · simp only [Except.ok.injEq] at hp
    subst hp
    exact ⟨hi.total, hi.empty, hi.memory⟩

/-- If every batch is sampled in full, the reported numbers are those of all lines. -/
theorem C80_whole (h : History) (hs : Sensible h) (hw : Whole h) {s : State} (hr : run ch mem h = .ok s) {r : Report}
    (hp : report s = .ok r) :
    r.samplesUsed = (allLines h).length ∧ r.emptyLineCount = ((allLines h).filter fun l => Blank ch l).length := by
  obtain ⟨seen, hl, h1, h2, _⟩ := C80_counts h hs hr hp
  have := looked_whole hw hl
  exact ⟨by rw [h1, this.length_eq], by rw [h2, (this.filter _).length_eq]⟩

theorem blank_split {l : Word} (h : ∀ c ∈ l, ch.isSpace c = true) : Words.split ch.isSpace l = [] :=
  ((WordsProps.C40_split ch.isSpace l []).1 (.none h)).symm

/-- Blank lines have no words. -/
theorem flatMap_nonblank (ls : List String) :
    ((ls.filter fun l => ¬Blank ch l).map String.toList).flatMap (Words.split ch.isSpace) =
      ls.flatMap fun l => Words.split ch.isSpace l.toList := by
  induction ls with
  | nil => rfl
  | cons l ls ih =>
    rw [List.flatMap_cons, ← ih, List.filter_cons]
    by_cases hb : Blank ch l
    · rw [if_neg (by simpa using hb), blank_split hb, List.nil_append]
    · rw [if_pos (by simpa using hb), List.map_cons, List.flatMap_cons]

/-- The reported characters and words are those of the lines looked at, blank lines adding no character; a word that no
profile stops has its number of occurrences. -/
theorem C80_text (hc : WordsSpec.Sane ch) (h : History) (hs : Sensible h) {s : State} (hr : run ch mem h = .ok s) :
    ∃ seen, Looked ch h seen ∧ ∀ c, s.profile = some c → ∀ p, c.text = some p →
      (∀ x, PyDict.getD p.vocab x 0 = ((seen.filter fun l => ¬Blank ch l).map String.toList).flatten.count x) ∧
      (∀ w, w ≠ [] → ¬Stopped ch h w → PyDict.getD p.words w 0 = occurrences ch h seen w) ∧
      PyDict.get? p.words [] = none := by
  obtain ⟨seen, hl, hi⟩ := run_inv h hs hr
  refine ⟨seen, hl, fun c hp p ht => ?_⟩
  obtain ⟨wh, rfl, w2, w3, w4⟩ := hi.text c hp p ht
  refine ⟨fun x => ?_, fun w hw hst => ?_, (WordsProps.C40_count hc wh).2⟩
  · rw [(WordsProps.C40_vocab hc wh x).1]
    exact w2.flatten.count_eq x
  · rw [(WordsProps.C40_count hc wh).1 w hw fun hm => hst ?_]
    · unfold WordsSpec.occurrences occurrences
      rw [← flatMap_nonblank, (w2.flatMap_right _).countP_eq]
      refine List.countP_congr fun v _ => ?_
      by_cases hS : CaseSensitive h
      · rw [if_pos hS, if_pos (w4.2 hS)]
      · rw [if_neg hS, if_neg fun hS' => hS (w4.1 hS')]
    · exact (w3 _).1 hm

/-- The statistics of the text are reported exactly if enabled, and the report shows the tables of the profile. -/
theorem C80_report (hc : WordsSpec.Sane ch) (h : History) (hs : Sensible h) {s : State} (hr : run ch mem h = .ok s) :
    ((∃ r, report s = .ok r) ↔ Fed h) ∧ (¬Fed h → report s = .error .attributeError) ∧
    ∀ r, report s = .ok r → ∃ c, s.profile = some c ∧
      (∀ o ∈ options h, (o.text = none ↔ c.text = none)) ∧
      (c.text = none → r.vocab = none ∧ r.words = none ∧ r.tables = none) ∧
      ∀ p, c.text = some p → r.tables = some (Words.report p) ∧
        (∃ v, r.vocab = some v ∧ v.Nodup ∧ ∀ x, x ∈ v ↔ PyDict.get? p.vocab x ≠ none) ∧
        ∃ w, r.words = some w ∧ w.Nodup ∧ ∀ x, x ∈ w ↔ PyDict.get? p.words x ≠ none := by
  obtain ⟨seen, hl, hi⟩ := run_inv h hs hr
  have hf := hi.fed
  unfold report
  cases hp : s.profile with
  | none =>
    have hn : ¬Fed h := fun hF => (hf.2 hF) hp
    refine ⟨⟨fun ⟨_, e⟩ => (by cases e), fun hF => absurd hF hn⟩, fun _ => rfl, fun r e => (by cases e)⟩
  | some c =>
    have hF : Fed h := hf.1 (by rw [hp]; simp)
    refine ⟨⟨fun _ => hF, fun _ => ⟨_, rfl⟩⟩, fun hn => absurd hF hn, fun r e => ?_⟩
    simp only [Except.ok.injEq] at e
    subst e
    refine ⟨c, rfl, hi.enabled c hp, fun ht => ?_, fun p ht => ?_⟩
    · rw [ht]; exact ⟨rfl, rfl, rfl⟩
    · obtain ⟨wh, rfl, -⟩ := hi.text c hp p ht
      have hw := WordsProps.run_inv hc wh
      rw [ht]
      refine ⟨rfl, ⟨_, rfl, hw.wfVocab, fun x => ?_⟩, ⟨_, rfl, hw.wfWords, fun x => ?_⟩⟩
      · rw [ne_eq, PyDict.get?_eq_none_iff, not_not]
      · rw [ne_eq, PyDict.get?_eq_none_iff, not_not]

/-- An update fails for data of another kind, and for a data frame with rows that has not exactly one column; nothing else
fails. Empty data leave the profile as it was. -/
theorem C80_update_raises {s : State} {b : Batch} (hd : Distinct b.data)
    (hv : Shuffle.ValidDraws (lines b.data).length b.draws) :
    (∀ e, update ch mem s b = .error e ↔
      (b.data = .other ∧ e = .typeError) ∨
      ∃ ix cols, b.data = .frame ix cols ∧ ix ≠ [] ∧ ((2 ≤ cols.length ∧ e = .valueError) ∨ (cols = [] ∧ e = .indexError))) ∧
    (b.data ≠ .other → len b.data = 0 → update ch mem s b = .ok s) := by
  have hser : ∀ e, series b.data = .error e → b.data ≠ .other → len b.data ≠ 0 →
      ∃ ix cols, b.data = .frame ix cols ∧ ix ≠ [] ∧
        ((2 ≤ cols.length ∧ e = .valueError) ∨ (cols = [] ∧ e = .indexError)) := by
    intro e he ho hl
    cases hdt : b.data with
    | frame ix cols =>
      rw [hdt] at he hl
      refine ⟨ix, cols, rfl, fun h => hl (by rw [h]; rfl), ?_⟩
      match cols, he with
      | [], he => cases he; exact Or.inr ⟨rfl, rfl⟩
      | [c], he => cases he
      | c :: c' :: cs, he =>
        simp only [series, List.length_cons] at he
        rw [if_pos (by omega)] at he
        cases he
        exact Or.inl ⟨by simp, rfl⟩
    | other => exact absurd hdt ho
    | _ => rw [hdt] at he; cases he
  have hfr : ∀ ix cols, b.data = .frame ix cols → ix ≠ [] → (2 ≤ cols.length ∨ cols = []) →
      ∃ e, series b.data = .error e ∧ (2 ≤ cols.length → e = .valueError) ∧ (cols = [] → e = .indexError) := by
    intro ix cols hdt hix hc
    rw [hdt]
    match cols, hc with
    | [], _ => exact ⟨_, rfl, fun h => absurd h (by simp), fun _ => rfl⟩
    | [c], hc => simp at hc
    | c :: c' :: cs, _ =>
      refine ⟨.valueError, ?_, fun _ => rfl, fun h => by cases h⟩
      simp [series]
  refine ⟨fun e => ?_, ?_⟩
  · rcases update_spec (ch := ch) (mem := mem) (s := s) hd hv with ⟨ho, h1⟩ | ⟨ho, hl, h1⟩ | ⟨ho, hl, e', he, h1⟩ |
      ⟨ho, hne, name, col, rest, ls, hse, _, _, _, h1⟩
    · rw [h1]
      constructor
      · intro h; cases h; exact Or.inl ⟨ho, rfl⟩
      · rintro (⟨_, rfl⟩ | ⟨ix, cols, h2, _⟩)
        · rfl
        · rw [ho] at h2; cases h2
    · rw [h1]
      constructor
      · intro h; cases h
      · rintro (⟨h2, _⟩ | ⟨ix, cols, h2, h3, _⟩)
        · exact absurd h2 ho
        · rw [h2] at hl
          exact absurd (List.length_eq_zero_iff.1 hl) h3
    · rw [h1]
      constructor
      · intro h; cases h; exact Or.inr (hser _ he ho hl)
      · rintro (⟨h2, _⟩ | ⟨ix, cols, h2, h3, h4⟩)
        · exact absurd h2 ho
        · obtain ⟨e2, g1, g2, g3⟩ := hfr ix cols h2 h3 (h4.imp And.left And.left)
          rw [he] at g1
          cases g1
          rcases h4 with ⟨h4, rfl⟩ | ⟨h4, rfl⟩
          · rw [g2 h4]
          · rw [g3 h4]
    · rw [h1]
      constructor
      · intro h; cases h
      · rintro (⟨h2, _⟩ | ⟨ix, cols, h2, h3, h4⟩)
        · exact absurd h2 ho
        · obtain ⟨e2, g1, _⟩ := hfr ix cols h2 h3 (h4.imp And.left And.left)
          rw [hse] at g1
          cases g1
  · intro ho hl
    rw [update_eq ho, if_pos hl]

/-- Two profiles can be merged exactly if both were given lines, their data had the same name and both or neither describe
the text; otherwise a `TypeError` or a `ValueError` is raised. -/
theorem C80_merge_raises (a b : State) :
    ((a.profile = none ∨ b.profile = none) → merge ch a b = .error .typeError) ∧
    (∀ c d, a.profile = some c → b.profile = some d →
      ((∃ m, merge ch a b = .ok m) ↔ c.name = d.name ∧ (c.text = none ↔ d.text = none)) ∧
      (¬(c.name = d.name ∧ (c.text = none ↔ d.text = none)) → merge ch a b = .error .valueError)) := by
  refine ⟨fun h => ?_, fun c d hc hd => ?_⟩
  · unfold merge
    rcases h with h | h
    · rw [h]
      cases b.profile <;> rfl
    · rw [h]
      cases a.profile <;> rfl
  · unfold merge
    rw [hc, hd]
    simp only [mergeCompiler]
    by_cases hn : c.name = d.name
    · rw [if_neg (not_not.2 hn)]
      cases c.text <;> cases d.text <;> simp [hn]
    · rw [if_pos hn]
      simp [hn]

/-- File type and encoding: those given last, where data that come with no encoding leave it as it was; those common to the
two profiles of a merge, or else "multiple files". -/
theorem C80_file {s s' : State} {b : Batch} (hu : update ch mem s b = .ok s') (hl : len b.data ≠ 0) :
    (∀ e t, b.reader = some (some e, t) → s'.encoding = some e ∧ s'.fileType = some t) ∧
    (∀ t, b.reader = some (none, t) → s'.encoding = s.encoding ∧ s'.fileType = some t) ∧
    (b.reader = none → s'.encoding = s.encoding ∧ s'.fileType = some (className b.data)) := by
  have ho : b.data ≠ .other := fun h => by rw [h] at hl; exact hl rfl
  rw [update_eq ho, if_neg hl] at hu
  cases hs : series b.data with
  | error e => rw [hs] at hu; cases hu
  | ok nc =>
    obtain ⟨name, col⟩ := nc
    rw [hs] at hu
    simp only at hu
    cases hc : clean ch col (SampleSize.chosen b.sampleSize s.opts.perUpdate s.opts.ratio 5000 (len b.data))
        (if b.minTrue = 0 then s.opts.minTrue else b.minTrue) b.draws with
    | error e => rw [hc] at hu; cases hu
    | ok r =>
      obtain ⟨r1, r2, r3⟩ := r
      rw [hc] at hu
      simp only [Except.ok.injEq] at hu
      subst hu
      refine ⟨fun e t h => ?_, fun t h => ?_, fun h => ?_⟩ <;> simp [h]

/-- File type and encoding of a merge. -/
theorem C80_file_merge {a b m : State} (hm : merge ch a b = .ok m) :
    (a.fileType = b.fileType → m.fileType = a.fileType) ∧ (a.fileType ≠ b.fileType → m.fileType = some "multiple files") ∧
    (a.encoding = b.encoding → m.encoding = a.encoding) ∧ (a.encoding ≠ b.encoding → m.encoding = some "multiple files") := by
  unfold merge at hm
  cases hc : mergeCompiler ch a.profile b.profile with
  | error e => rw [hc] at hm; cases hm
  | ok c =>
    rw [hc] at hm
    simp only [Except.ok.injEq] at hm
    subst hm
    refine ⟨fun h => ?_, fun h => ?_, fun h => ?_, fun h => ?_⟩ <;> simp [h]

end Verif.Props.Unstructured
