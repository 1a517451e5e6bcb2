import Verif.Lemmas.CsvRecords
import Verif.Props.Chunks

/-!
# C100: the records of delimited data are its rows

A dataset of delimited data gives records instead of a table if it is asked to. The records are the lines of the table with its header: read as
delimited text they give back every cell, if no cell holds a line break. A line break splits a record (`C100_break_fails`), and line breaks
other than line feeds cannot be told from the ends of rows (`C100_separator_fails`).
-/

namespace Verif.Props.CsvRecords

open Verif Verif.CsvRecords Verif.Spec.CsvRecords

variable {also : List Char → Bool} {delimiter quote : Option String} {names : List (List Char)} {rows : List (List (Option (List Char)))}
  {k : ℕ} {d q : Char}

theorem character_chosen {x : Option String} {dflt c : Char} (h : Chosen x dflt c) : character x dflt = .ok c := by
  rcases h with ⟨h | h, rfl⟩ | h <;> subst h <;> simp [character]

theorem join_intercalate (sep : Char) : ∀ ls : List (List Char), join sep ls = List.intercalate [sep] ls
  | [] => rfl
  | [l] => by simp [join, List.intercalate]
  | l :: m :: ls => by
    rw [join, join_intercalate sep (m :: ls)]
    · simp [List.intercalate, List.intersperse]
    · simp

theorem table_eq (names : List (List Char)) (rows : List (List (Option (List Char)))) :
    (names :: rows.map fun r => r.map fun c => c.getD []) = table names rows := by
  unfold table
  congr 1
  refine List.map_congr_left fun r _ => List.map_congr_left fun c _ => ?_
  cases c <;> rfl

theorem written_lines (D : Dialect) : written D names rows = ((table names rows).map (row D)).flatMap (· ++ ['\n']) := by
  unfold written
  rw [table_eq, List.flatMap_map]

theorem lines_read (D : Dialect) (hr : Rectangular names rows) :
    List.Forall₂ (Line D.delim D.quote) ((table names rows).map (row D)) (table names rows) := by
  have h : ∀ r ∈ table names rows, r ≠ [] := by
    intro r h
    unfold table at h
    rcases List.mem_cons.1 h with rfl | h
    · exact hr.1
    · obtain ⟨x, hx, rfl⟩ := List.mem_map.1 h
      have := hr.2 x hx
      have h0 := List.length_pos_iff.2 hr.1
      rw [Ne, List.map_eq_nil_iff]
      rintro rfl
      simp at this
      omega
  revert h
  generalize table names rows = t
  intro h
  induction t with
  | nil => exact .nil
  | cons r t ih =>
    exact .cons (row_line D _ r (h r List.mem_cons_self)) (ih fun r hr => h r (List.mem_cons_of_mem _ hr))

theorem lines_plain (D : Dialect) (hd : ¬ LineBreak D.delim) (hq : ¬ LineBreak D.quote) (hc : Chars (fun c => ¬ LineBreak c) names rows) :
    ∀ l ∈ (table names rows).map (row D), ∀ c ∈ l, ¬ LineBreak c := by
  intro l hl c hcl
  obtain ⟨r, hr, rfl⟩ := List.mem_map.1 hl
  rcases mem_row hcl with h | h | ⟨f, hf, h⟩
  · exact h ▸ hd
  · exact h ▸ hq
  · exact hc r hr f hf c h

theorem records_eq (hd : Chosen delimiter ',' d) (hq : Chosen quote '"' q) :
    records also delimiter quote k names rows = joined (splitLines false (written ⟨d, q, also⟩ names rows)) k := by
  unfold records
  rw [character_chosen hd, character_chosen hq]

/-- Without line breaks in the cells, the records are groups of lines, and the lines read as the names of the columns and the rows. -/
theorem C100_rows (hd : Chosen delimiter ',' d) (hq : Chosen quote '"' q) (hdb : ¬ LineBreak d) (hqb : ¬ LineBreak q)
    (hr : Rectangular names rows) (hc : Chars (fun c => ¬ LineBreak c) names rows) (hk : 0 < k) :
    ∃ lines groups, records also delimiter quote k names rows = .ok (groups.map (List.intercalate ['\n'])) ∧
      List.Forall₂ (Line d q) lines (table names rows) ∧ Chunks.CutsInto lines (min (rows.length + 1) k) groups := by
  have hs := splitLines_lines (lines_plain ⟨d, q, also⟩ hdb hqb hc)
  rw [← written_lines] at hs
  obtain ⟨groups, h1, h2⟩ := Chunks.C25_records ((table names rows).map (row ⟨d, q, also⟩)) k hk (by simp [table])
  refine ⟨_, groups, ?_, lines_read ⟨d, q, also⟩ hr, by simpa [table] using h2⟩
  rw [records_eq hd hq, joined, hs, h1]
  simp only [Except.map]
  congr 1
  exact List.map_congr_left fun g _ => join_intercalate '\n' g

/-- With one line per record, the default, each record is one row. -/
theorem C100_one (hd : Chosen delimiter ',' d) (hq : Chosen quote '"' q) (hdb : ¬ LineBreak d) (hqb : ¬ LineBreak q)
    (hr : Rectangular names rows) (hc : Chars (fun c => ¬ LineBreak c) names rows) :
    ∃ recs, records also delimiter quote 1 names rows = .ok recs ∧ List.Forall₂ (Line d q) recs (table names rows) := by
  obtain ⟨lines, groups, h1, h2, h3⟩ := C100_rows (also := also) hd hq hdb hqb hr hc (k := 1) (by omega)
  refine ⟨_, h1, ?_⟩
  have key : ∀ g : List (List (List Char)), (∀ p ∈ g, p ≠ []) → (∀ p ∈ g, p.length ≤ 1) → g.map (List.intercalate ['\n']) = g.flatten := by
    intro g hn hb
    induction g with
    | nil => rfl
    | cons p g ih =>
      have h0 := hn p List.mem_cons_self
      have h1 := hb p List.mem_cons_self
      match p with
      | [] => exact absurd rfl h0
      | [x] =>
        rw [List.map_cons, ih (fun p hp => hn p (List.mem_cons_of_mem _ hp)) fun p hp => hb p (List.mem_cons_of_mem _ hp)]
        simp [List.intercalate]
      | _ :: _ :: _ => simp at h1
  rw [key groups h3.nonempty fun p hp => le_trans (h3.bounded p hp) (Nat.min_le_right _ _), h3.concat]
  exact h2

/-- A line can be read in one way only. -/
theorem C100_unique (hdq : d ≠ q) {w : List Char} {a b : List (List Char)} (ha : Line d q w a) (hb : Line d q w b) : a = b := by
  rw [← decode_line hdq ha, decode_line hdq hb]

theorem written_breaks (D : Dialect) (hd : ¬ LineBreak D.delim) (hq : ¬ LineBreak D.quote)
    (hc : Chars (fun c => LineBreak c → c = '\n') names rows) : ∀ c ∈ written D names rows, LineBreak c → c = '\n' := by
  intro c hcm hcb
  rw [written_lines, List.mem_flatMap] at hcm
  obtain ⟨l, hl, hcl⟩ := hcm
  obtain ⟨r, hrm, rfl⟩ := List.mem_map.1 hl
  rcases List.mem_append.1 hcl with h | h
  · rcases mem_row h with h | h | ⟨f, hf, h⟩
    · subst h; exact absurd hcb hd
    · subst h; exact absurd hcb hq
    · exact hc r hrm f hf c h hcb
  · simpa using h

/-- Cells may hold line feeds, but no other line breaks: the records, one below the other, are the lines of the table. -/
theorem C100_text (hd : Chosen delimiter ',' d) (hq : Chosen quote '"' q) (hdb : ¬ LineBreak d) (hqb : ¬ LineBreak q)
    (hr : Rectangular names rows) (hc : Chars (fun c => LineBreak c → c = '\n') names rows) (hk : 0 < k) :
    ∃ recs lines, records also delimiter quote k names rows = .ok recs ∧ List.Forall₂ (Line d q) lines (table names rows) ∧
      recs.flatMap (· ++ ['\n']) = lines.flatMap (· ++ ['\n']) := by
  obtain ⟨he, hne⟩ := written_ended ⟨d, q, also⟩ names rows
  obtain ⟨h1, _⟩ := splitLines_ended he (written_breaks ⟨d, q, also⟩ hdb hqb hc)
  have hne' : splitLines false (written ⟨d, q, also⟩ names rows) ≠ [] := by
    intro h; rw [h] at h1; exact hne h1.symm
  obtain ⟨groups, h2, h3⟩ := Chunks.C25_records _ k hk hne'
  refine ⟨groups.map (join '\n'), _, by rw [records_eq hd hq, joined, h2]; rfl, lines_read ⟨d, q, also⟩ hr, ?_⟩
  rw [← written_lines]
  refine Eq.trans ?_ h1
  rw [← h3.concat, List.flatMap_map]
  have key : ∀ g : List (List (List Char)), (∀ p ∈ g, p ≠ []) →
      g.flatMap (fun p => join '\n' p ++ ['\n']) = g.flatten.flatMap (· ++ ['\n']) := by
    intro g hg
    induction g with
    | nil => rfl
    | cons p g ih =>
      rw [List.flatMap_cons, join_end '\n' (hg p List.mem_cons_self), ih fun p hp => hg p (List.mem_cons_of_mem _ hp), List.flatten_cons,
        List.flatMap_append]
  exact key groups h3.nonempty

/-- With one line per record there is a record for the header, for each row, and for each line feed in a cell. -/
theorem C100_count (hd : Chosen delimiter ',' d) (hq : Chosen quote '"' q) (hdb : ¬ LineBreak d) (hqb : ¬ LineBreak q)
    (hc : Chars (fun c => LineBreak c → c = '\n') names rows) :
    ∃ recs, records also delimiter quote 1 names rows = .ok recs ∧ recs.length = rows.length + 1 + feeds names rows := by
  obtain ⟨he, hne⟩ := written_ended ⟨d, q, also⟩ names rows
  obtain ⟨h1, h0⟩ := splitLines_ended he (written_breaks ⟨d, q, also⟩ hdb hqb hc)
  have hne' : splitLines false (written ⟨d, q, also⟩ names rows) ≠ [] := by
    intro h; rw [h] at h1; exact hne h1.symm
  obtain ⟨groups, h2, h3⟩ := Chunks.C25_records _ 1 (by omega) hne'
  refine ⟨groups.map (join '\n'), by rw [records_eq hd hq, joined, h2]; rfl, ?_⟩
  have hnl : LineBreak '\n' := by decide +kernel
  have key : ∀ g : List (List (List Char)), (∀ p ∈ g, p ≠ []) → (∀ p ∈ g, p.length ≤ 1) → g.length = g.flatten.length := by
    intro g hn hb
    induction g with
    | nil => rfl
    | cons p g ih =>
      have h0 := List.length_pos_iff.2 (hn p List.mem_cons_self)
      have h1 := hb p List.mem_cons_self
      rw [List.length_cons, List.flatten_cons, List.length_append,
        ih (fun p hp => hn p (List.mem_cons_of_mem _ hp)) fun p hp => hb p (List.mem_cons_of_mem _ hp)]
      omega
  rw [List.length_map, key groups h3.nonempty fun p hp => le_trans (h3.bounded p hp) (Nat.min_le_right _ _), h3.concat, h0, written_lines,
    count_rows ⟨d, q, also⟩ (fun h => hdb (by rw [show d = '\n' from h]; exact hnl)) fun h => hqb (by rw [show q = '\n' from h]; exact hnl)]
  simp only [table, List.length_cons, List.length_map, feeds]

/-- Tables with the same records are the same table: no cell is lost. -/
theorem C100_same {also' : List Char → Bool} {names' : List (List Char)} {rows' : List (List (Option (List Char)))}
    (hd : Chosen delimiter ',' d) (hq : Chosen quote '"' q) (hdb : ¬ LineBreak d) (hqb : ¬ LineBreak q) (hdq : d ≠ q)
    (hr : Rectangular names rows) (hc : Chars (fun c => ¬ LineBreak c) names rows) (hr' : Rectangular names' rows')
    (hc' : Chars (fun c => ¬ LineBreak c) names' rows') (hk : 0 < k)
    (h : records also delimiter quote k names rows = records also' delimiter quote k names' rows') :
    table names rows = table names' rows' := by
  have hs := splitLines_lines (lines_plain ⟨d, q, also⟩ hdb hqb hc)
  have hs' := splitLines_lines (lines_plain ⟨d, q, also'⟩ hdb hqb hc')
  have key : ∀ {a b : List (List Char)} {l m : List (List (List Char))}, List.Forall₂ (Line d q) a l → List.Forall₂ (Line d q) b m →
      a = b → l = m := by
    intro a b l m h1 h2 hab
    subst hab
    induction h1 generalizing m with
    | nil => cases h2; rfl
    | cons hx _ ih =>
      cases h2 with
      | cons hy h2 => rw [C100_unique hdq hx hy, ih h2]
  refine key (lines_read ⟨d, q, also⟩ hr) (lines_read ⟨d, q, also'⟩ hr') ?_
  have text : ∀ (also : List Char → Bool) (names : List (List Char)) (rows : List (List (Option (List Char)))),
      Chars (fun c => ¬ LineBreak c) names rows → ∃ recs, records also delimiter quote k names rows = .ok recs ∧
        recs.flatMap (· ++ ['\n']) = ((table names rows).map (row ⟨d, q, also⟩)).flatMap (· ++ ['\n']) := by
    intro also names rows hc
    have hs := splitLines_lines (lines_plain ⟨d, q, also⟩ hdb hqb hc)
    obtain ⟨groups, h2, h3⟩ := Chunks.C25_records ((table names rows).map (row ⟨d, q, also⟩)) k hk (by simp [table])
    refine ⟨groups.map (join '\n'), by rw [records_eq hd hq, joined, written_lines, hs, h2]; rfl, ?_⟩
    rw [← h3.concat, List.flatMap_map]
    have key : ∀ g : List (List (List Char)), (∀ p ∈ g, p ≠ []) →
        g.flatMap (fun p => join '\n' p ++ ['\n']) = g.flatten.flatMap (· ++ ['\n']) := by
      intro g hg
      induction g with
      | nil => rfl
      | cons p g ih =>
        rw [List.flatMap_cons, join_end '\n' (hg p List.mem_cons_self), ih fun p hp => hg p (List.mem_cons_of_mem _ hp), List.flatten_cons,
          List.flatMap_append]
    exact key groups h3.nonempty
  obtain ⟨r1, h1, e1⟩ := text also names rows hc
  obtain ⟨r2, h2, e2⟩ := text also' names' rows' hc'
  rw [h1, h2] at h
  cases h
  rw [← hs, ← hs', ← e1, ← e2]

/-- Delimiters and quote characters of several characters are refused, and nothing else is. -/
theorem C100_refused (hk : 0 < k) : (∃ recs, records also delimiter quote k names rows = .ok recs) ↔
    (delimiter.getD "").length ≤ 1 ∧ (quote.getD "").length ≤ 1 := by
  have hch : ∀ (x : Option String) (c : Char), ((x.getD "").length ≤ 1 ∧ ∃ y, character x c = .ok y) ∨
      (1 < (x.getD "").length ∧ character x c = .error .typeError) := by
    intro x c
    unfold character
    rw [← String.length_toList]
    cases (x.getD "").toList with
    | nil => left; exact ⟨by simp, c, rfl⟩
    | cons a t =>
      cases t with
      | nil => left; exact ⟨by simp, a, rfl⟩
      | cons b t => right; exact ⟨by simp, rfl⟩
  have hj : ∀ D : Dialect, ∃ recs, joined (splitLines false (written D names rows)) k = .ok recs := by
    intro D
    obtain ⟨he, hne⟩ := written_ended D names rows
    have hne' : splitLines false (written D names rows) ≠ [] := by
      cases hw : written D names rows with
      | nil => exact absurd hw hne
      | cons c t =>
        simp only [splitLines, Bool.false_and, Bool.false_eq_true, if_false]
        split
        · simp
        · split <;> simp
    obtain ⟨groups, h2, h3⟩ := Chunks.C25_records _ k hk hne'
    exact ⟨_, by rw [joined, h2]; rfl⟩
  rcases hch delimiter ',' with ⟨h1, d, h2⟩ | ⟨h1, h2⟩ <;> rcases hch quote '"' with ⟨h3, q, h4⟩ | ⟨h3, h4⟩
  · simp only [records, h2, h4, h1, h3, and_self, iff_true]; exact hj _
  · simp only [records, h2, h4]
    constructor
    · rintro ⟨_, h⟩; cases h
    · rintro ⟨_, h⟩; omega
  · simp only [records, h2, h4]
    constructor
    · rintro ⟨_, h⟩; cases h
    · rintro ⟨h, _⟩; omega
  · simp only [records, h2, h4]
    constructor
    · rintro ⟨_, h⟩; cases h
    · rintro ⟨h, _⟩; omega

/-- No lines per record is accepted as an option, but the records cannot be made. -/
theorem C100_zero_fails (hd : Chosen delimiter ',' d) (hq : Chosen quote '"' q) :
    records also delimiter quote 0 names rows = .error .zeroDivision := by
  rw [records_eq hd hq]; simp [joined, Chunks.recordGroups, Except.map]

/-- A line feed in a cell makes two records of a row. -/
theorem C100_break_fails (hd : Chosen delimiter ',' d) (hq : Chosen quote '"' q) (hdb : ¬ LineBreak d) (hqb : ¬ LineBreak q)
    (hc : Chars (fun c => LineBreak c → c = '\n') names rows) (hf : 0 < feeds names rows) :
    ∃ recs, records also delimiter quote 1 names rows = .ok recs ∧ recs.length ≠ (table names rows).length := by
  obtain ⟨recs, h1, h2⟩ := C100_count (also := also) hd hq hdb hqb hc
  refine ⟨recs, h1, ?_⟩
  simp only [table, List.length_cons, List.length_map]
  omega

/-! ### Examples -/

/-- Two columns, cells with delimiter, quote character and nothing. -/
def cells : List (List (Option (List Char))) := [[some "1,5".toList, none], [some "a".toList, some "say \"so\"".toList]]

example : Rectangular ["x".toList, "y".toList] cells ∧ Chars (fun c => ¬ LineBreak c) ["x".toList, "y".toList] cells ∧
    Chosen none ',' ',' ∧ Chosen (some "\"") '"' '"' := by
  refine ⟨⟨by simp, by simp [cells]⟩, ?_, .inl ⟨.inl rfl, rfl⟩, .inr rfl⟩
  unfold Chars
  decide +kernel

example : records (fun _ => false) none (some "\"") 1 ["x".toList, "y".toList] cells =
    .ok ["x,y".toList, "\"1,5\",".toList, "a,\"say \"\"so\"\"\"".toList] := by decide +kernel

example : Line ',' '"' "\"1,5\",".toList ["1,5".toList, []] :=
  .more (w := "\"1,5\"".toList) (l := []) (.quoted (w := "1,5".toList)
    (.char (by decide) (.char (by decide) (.char (by decide) .nil)))) (.last (.bare (by simp)))

example : 0 < feeds ["x".toList] [[some "a\nb".toList]] := by decide +kernel

example : records (fun _ => false) none none 1 ["x".toList] [[some "a\nb".toList]] = .ok ["x".toList, "\"a".toList, "b\"".toList] := by
  decide +kernel

/-- A cell with a separator of another kind cannot be told from two rows. -/
theorem C100_separator_fails : ∃ (rows rows' : List (List (Option (List Char)))), Rectangular ["x".toList] rows ∧ Rectangular ["x".toList] rows' ∧
    table ["x".toList] rows ≠ table ["x".toList] rows' ∧
    records (fun _ => false) none none 1 ["x".toList] rows = records (fun _ => false) none none 1 ["x".toList] rows' :=
  ⟨[[some ['a', Char.ofNat 11, 'b']]], [[some ['a']], [some ['b']]], ⟨by decide, by decide⟩, ⟨by decide, by decide⟩, by decide +kernel,
    by decide +kernel⟩

/-- A missing cell cannot be told from an empty one. -/
theorem C100_missing_fails : ∃ (rows rows' : List (List (Option (List Char)))), Rectangular ["x".toList] rows ∧ Rectangular ["x".toList] rows' ∧
    rows ≠ rows' ∧ records (fun _ => false) none none 1 ["x".toList] rows = records (fun _ => false) none none 1 ["x".toList] rows' :=
  ⟨[[none]], [[some []]], ⟨by decide, by decide⟩, ⟨by decide, by decide⟩, by decide, by decide +kernel⟩

end Verif.Props.CsvRecords
