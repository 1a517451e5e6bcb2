import Verif.Props.UnstructuredCases
import Verif.Props.UnstructuredDiff

/-!
# C80, C81: names of texts, and differences of what is reported
-/

namespace Verif.UnstructuredSpec

open Verif.Unstructured

/-- The name data comes with: that of a series or of the only column of a frame. -/
def nameOf : Data → Option String
  | .series n _ => n
  | .frame _ [(n, _)] => some n
  | _ => none

open scoped Classical in
/-- The name of a profile: that of the first data with a line. -/
noncomputable def title : History → Option String
  | .new _ => none
  | .update h b => if Fed h ∨ lines b.data = [] then title h else nameOf b.data
  | .merge h _ => title h

end Verif.UnstructuredSpec

namespace Verif.Props.Unstructured

open Verif Verif.Unstructured Verif.UnstructuredSpec
open Verif.Words (Chars Word)

variable {ch : Chars} {mem : List String → ℚ}

theorem series_name {d : Data} {name : Option String} {col : List Nulls.Cell} (h : series d = .ok (name, col)) :
    name = nameOf d := by
  cases d with
  | text s => simp only [series, Except.ok.injEq, Prod.mk.injEq] at h; exact h.1.symm
  | list ls => simp only [series, Except.ok.injEq, Prod.mk.injEq] at h; exact h.1.symm
  | series n cs => simp only [series, Except.ok.injEq, Prod.mk.injEq] at h; exact h.1.symm
  | frame ix cols =>
    match cols, h with
    | [], h => simp [series] at h
    | [c], h =>
      simp only [series, List.length_singleton, gt_iff_lt, lt_self_iff_false, if_false, Except.ok.injEq,
        Prod.mk.injEq] at h
      exact h.1.symm
    | _ :: _ :: _, h => simp [series] at h
  | other => cases h

/-- A profile keeps the name of the first data with a line, whatever the data that follows is called. -/
theorem C80_name (h : History) (hs : Sensible h) {s : State} (hr : run ch mem h = .ok s) {c : Compiler}
    (hc : s.profile = some c) : c.name = title h := by
  induction h generalizing s c with
  | new o =>
    simp only [run, Except.ok.injEq] at hr
    subst hr
    cases hc
  | update h b ih =>
    obtain ⟨hs1, hd, hv⟩ := hs
    rw [run] at hr
    cases hr1 : run ch mem h with
    | error e => rw [hr1] at hr; cases hr
    | ok s0 =>
      rw [hr1] at hr
      simp only at hr
      obtain ⟨_, _, hi⟩ := run_inv h hs1 hr1
      rcases update_spec (ch := ch) (mem := mem) (s := s0) hd hv with ⟨_, h1⟩ | ⟨_, hl, h1⟩ | ⟨_, _, e, _, h1⟩ |
          ⟨_, hne, name, col, rest, ls, hn, _, _, _, h1⟩
      · rw [h1] at hr; cases hr
      · rw [h1] at hr
        simp only [Except.ok.injEq] at hr
        subst hr
        rw [title, if_pos (Or.inr (lines_of_len hd hl))]
        exact ih hs1 hr1 hc
      · rw [h1] at hr; cases hr
      · rw [h1] at hr
        simp only [Except.ok.injEq] at hr
        subst hr
        simp only [Option.some.injEq] at hc
        subst hc
        cases hp : s0.profile with
        | none =>
          have hf : ¬Fed h := fun hF => (hi.fed.2 hF) hp
          rw [title, if_neg (by tauto), feed]
          exact series_name hn
        | some c0 =>
          have hf : Fed h := hi.fed.1 (by rw [hp]; simp)
          rw [title, if_pos (Or.inl hf), feed]
          exact ih (c := c0) hs1 hr1 hp
  | merge h1 h2 ih1 ih2 =>
    rw [run] at hr
    cases hr1 : run ch mem h1 with
    | error e => rw [hr1] at hr; cases hr
    | ok a =>
      cases hr2 : run ch mem h2 with
      | error e => rw [hr1, hr2] at hr; cases hr
      | ok b =>
        rw [hr1, hr2] at hr
        simp only at hr
        rw [title]
        unfold merge at hr
        cases hp : a.profile with
        | none => rw [hp] at hr; cases hq : b.profile <;> rw [hq] at hr <;> cases hr
        | some p =>
          rw [← ih1 hs.1 hr1 hp]
          cases hq : b.profile with
          | none => rw [hp, hq] at hr; cases hr
          | some q =>
            rw [hp, hq] at hr
            simp only [mergeCompiler] at hr
            by_cases hnm : p.name = q.name
            · rw [if_neg (not_not.2 hnm)] at hr
              cases ht : p.text <;> cases hu : q.text <;> rw [ht, hu] at hr
              all_goals
                first
                | (simp only [Except.ok.injEq] at hr
                   subst hr
                   simp only [Option.some.injEq] at hc
                   subst hc
                   rfl)
                | cases hr
            · rw [if_pos hnm] at hr
              cases hr

/-- Two profiles that were given lines can be merged exactly if their names are the same and both or neither profile the
text. -/
theorem C80_merge_names {h1 h2 : History} (s1 : Sensible h1) (s2 : Sensible h2) {a b : State}
    (r1 : run ch mem h1 = .ok a) (r2 : run ch mem h2 = .ok b) (f1 : Fed h1) (f2 : Fed h2) :
    (∃ m, merge ch a b = .ok m) ↔
      title h1 = title h2 ∧ ∀ o ∈ options h1, ∀ o' ∈ options h2, (o.text = none ↔ o'.text = none) := by
  obtain ⟨_, _, i1⟩ := run_inv h1 s1 r1
  obtain ⟨_, _, i2⟩ := run_inv h2 s2 r2
  obtain ⟨c, hc⟩ := Option.ne_none_iff_exists'.1 (i1.fed.2 f1)
  obtain ⟨d, hd⟩ := Option.ne_none_iff_exists'.1 (i2.fed.2 f2)
  rw [((C80_merge_raises (ch := ch) a b).2 c d hc hd).1, C80_name h1 s1 r1 hc, C80_name h2 s2 r2 hd]
  have ne : ∀ h : History, ∃ o, o ∈ options h := by
    intro h
    induction h with
    | new o => exact ⟨o, List.mem_singleton.2 rfl⟩
    | update h b ih => exact ih
    | merge h1 h2 ih1 _ => obtain ⟨o, ho⟩ := ih1; exact ⟨o, List.mem_append_left _ ho⟩
  refine and_congr_right fun _ => ⟨fun ht o ho o' ho' => ?_, fun ht => ?_⟩
  · rw [i1.enabled c hc o ho, i2.enabled d hd o' ho', ht]
  · obtain ⟨o, ho⟩ := ne h1
    obtain ⟨o', ho'⟩ := ne h2
    rw [← i1.enabled c hc o ho, ← i2.enabled d hd o' ho']
    exact ht o ho o' ho'

/-- Two named series: the second name is forgotten. -/
def named : History :=
  .update (.update (.new opts) (batch (.series (some "a") [(0, "x")]))) (batch (.series (some "b") [(0, "y")]))

example : ∃ s c, run WordsProps.ascii memLines named = .ok s ∧ s.profile = some c ∧ c.name = some "a" :=
  ⟨_, _, rfl, rfl, rfl⟩

example : Sensible named ∧ Fed named ∧ title named = some "a" := by
  have f : Fed (.update (.new opts) (batch (.series (some "a") [(0, "x")]))) := Or.inr (by decide)
  refine ⟨⟨⟨trivial, by (show List.Nodup _; decide), validDraws_id _⟩, by (show List.Nodup _; decide), validDraws_id _⟩,
    Or.inl f, ?_⟩
  unfold named
  rw [title, if_pos (Or.inl f), title, if_neg]
  · rfl
  · rintro (h | h)
    · exact h
    · exact absurd h (by decide)

end Verif.Props.Unstructured

namespace Verif.Props.UnstructuredDiff

open Verif Verif.Unstructured Verif.UnstructuredSpec
open Verif.Words (Chars Word)

variable {ch : Chars}

/-- The general differences of two profiles are those of their reports. -/
theorem C81_reports {a b : State} {p q : Report} (ha : report a = .ok p) (hb : report b = .ok q) :
    ∃ d, diff ch a.side b.side = .ok d ∧
      ProfileDiff.ReportsText p.fileType q.fileType d.fileType ∧ ProfileDiff.ReportsText p.encoding q.encoding d.encoding ∧
      ProfileDiff.ReportsNum (some (.fin p.samplesUsed)) (some (.fin q.samplesUsed)) d.samplesUsed ∧
      ProfileDiff.ReportsNum (some (.fin p.emptyLineCount)) (some (.fin q.emptyLineCount)) d.emptyLines ∧
      ProfileDiff.ReportsNum (some (.fin p.memorySize)) (some (.fin q.memorySize)) d.memory ∧
      ((p.tables = none ∨ q.tables = none) → d.statistics = none) ∧
      (p.tables ≠ none → q.tables ≠ none → d.statistics ≠ none) := by
  unfold report at ha hb
  cases hp : a.profile with
  | none => rw [hp] at ha; cases ha
  | some c =>
    cases hq : b.profile with
    | none => rw [hq] at hb; cases hb
    | some c' =>
      rw [hp] at ha
      rw [hq] at hb
      simp only [Except.ok.injEq] at ha hb
      subst ha
      subst hb
      obtain ⟨d, h1, h2, h3, h4, h5, h6, _, _, h7, h8⟩ := (C81_report (ch := ch) a.side b.side).2.2 ⟨c.text, none⟩
        ⟨c'.text, none⟩ (by simp [State.side, hp]) (by simp [State.side, hq])
      refine ⟨d, h1, h2, h3, h4, h5, h6, fun h => ?_, fun g1 g2 => ?_⟩
      · refine h8 ?_
        simpa using h
      · cases ht : c.text with
        | none => simp [ht] at g1
        | some t =>
          cases hu : c'.text with
          | none => simp [hu] at g2
          | some u => rw [h7 t u ht hu]; simp

end Verif.Props.UnstructuredDiff
