import Verif.Lemmas.CsvMatch
import Verif.Model.Sniff

/-!
# C66-C68: delimited text
-/

namespace Verif.Props.Csv

open Verif Verif.Csv
open Verif.Csv.Spec

/-- For the examples: cells are empty, integers or text. -/
def env : Env where
  cellType c := if c = [] then .none else if c.all Char.isDigit then .int else .str
  strip c := (c.dropWhile (· = ' ')).reverse.dropWhile (· = ' ') |>.reverse
  rstrip c := (c.reverse.dropWhile (· = ' ')).reverse
  isAlpha c := c.isAlpha
  sniff _ _ := none
  draw _ _ := 0

/-! ### C66 -/

/-- C66, cells: a delimiter separates cells where the expression for pairs of quotes matches all of the rest of the line. -/
theorem C66_cut (d q : Char) (row : List Char) (i : ℕ) :
    Cut d q row i ↔ row[i]? = some d ∧ Paired q (row.drop (i + 1)) := by
  unfold Cut
  rw [paired_iff, Nat.even_iff]

example : Cut ',' '"' "a,\"b,c\"".toList 1 ∧ ¬ Cut ',' '"' "a,\"b,c\"".toList 4 := by decide

/-- C66, cells: a line is cut exactly there, and the cells put together are the line. -/
theorem C66_cells (d q : Char) (row : List Char) :
    splitRow d q row = cells d q row ∧ [d].intercalate (splitRow d q row) = row ∧
      (splitRow d q row).length = separators d q row + 1 :=
  ⟨splitRow_cells d q row, splitRow_join d q row, splitRow_length d q row⟩

example : splitRow ',' '"' "a,\"b,c\",,d".toList = ["a".toList, "\"b,c\"".toList, [], "d".toList] := by decide

/-- C66, quotes: if the quotes of a line come in pairs, it is cut at the delimiters outside of quotes, and every cell has its quotes in
pairs. -/
theorem C66_quoted_partial (d q : Char) (row : List Char) (hdq : d ≠ q) (hp : Paired q row) :
    (∀ i, Cut d q row i ↔ Outside d q row i) ∧ ∀ c ∈ splitRow d q row, Paired q c := by
  rw [paired_iff] at hp
  constructor
  · intro i
    unfold Cut Outside
    refine and_congr_right fun hi => ?_
    obtain ⟨hlt, he⟩ := List.getElem?_eq_some_iff.1 hi
    have h1 : row.count q = (row.take i).count q + (row.drop i).count q := by
      rw [← List.count_append, List.take_append_drop]
    rw [List.drop_eq_getElem_cons hlt, he, List.count_cons_of_ne hdq] at h1
    rw [Nat.even_iff, Nat.even_iff]
    omega
  · intro c hc
    obtain ⟨x, xs, hs, hxs, hx⟩ := splitRow_parity hdq row
    rw [hs] at hc
    rw [paired_iff]
    rcases List.mem_cons.1 hc with rfl | hc
    · rw [hx, hp]
    · exact hxs c hc

example : Paired '"' "a,\"b,c\"".toList := (paired_iff _ _).2 (by decide)

/-- C66 fails for a single quote character: delimiters before it, outside of quotes, do not count, and those behind it do. -/
theorem C66_quoted_fails :
    (Outside ',' '"' "1,5\" disk,2".toList 1 ∧ ¬ Cut ',' '"' "1,5\" disk,2".toList 1) ∧
    (¬ Outside ',' '"' "1,5\" disk,2".toList 9 ∧ Cut ',' '"' "1,5\" disk,2".toList 9) := by decide

/-- C66: in a text of at most 25 lines the delimiter found is usable for all lines looked at and has the most columns of all proposed
ones, commas and tabulators counting five times; if none is found, no proposed one is usable. -/
theorem C66_guess (env : Env) (text : List Char) (hlen : (splitLines text).length ≤ 25) :
    (∀ d, (guess env text).1 = some d →
      PossiblyProposed text d ∧ Usable env d (guess env text).2 (looked (splitLines text)) ∧
      ∀ e, SurelyProposed text e → Usable env e (guess env text).2 (looked (splitLines text)) →
        weight e (guess env text).2 (looked (splitLines text)) ≤ weight d (guess env text).2 (looked (splitLines text))) ∧
    ((guess env text).1 = none → ∀ e, SurelyProposed text e → ¬ Usable env e (guess env text).2 (looked (splitLines text))) := by
  obtain ⟨h1, h2⟩ := guess_spec env text
  simp only [sampleRows_short hlen] at h1 h2
  constructor
  · intro d hd
    obtain ⟨a, b, -, c⟩ := h1 d hd
    exact ⟨possibly_proposed a, b, fun e he hu => c e (surely_proposed he) hu⟩
  · intro hn e he
    exact h2 hn e (surely_proposed he)

example : (guess env "name;age\nbob;3\namy;4\n".toList) = (some ';', '"') ∧
    (guess env "name,age;x\nbob,3;x\namy,4;x\n".toList).1 = some ',' ∧ (guess env "one\ntwo\n".toList).1 = none := by decide +kernel

/-- C66, ties: a comma is taken unless something has strictly more, and no other character is taken against an equally good comma or
tabulator. -/
theorem C66_tie (env : Env) (text : List Char) (hlen : (splitLines text).length ≤ 25) (d : Char) (hd : (guess env text).1 = some d) :
    (d ≠ ',' → Usable env ',' (guess env text).2 (looked (splitLines text)) →
      weight ',' (guess env text).2 (looked (splitLines text)) < weight d (guess env text).2 (looked (splitLines text))) ∧
    (d ≠ ',' → d ≠ '\t' → Usable env '\t' (guess env text).2 (looked (splitLines text)) →
      weight '\t' (guess env text).2 (looked (splitLines text)) < weight d (guess env text).2 (looked (splitLines text))) := by
  obtain ⟨h1, -⟩ := guess_spec env text
  simp only [sampleRows_short hlen] at h1
  obtain ⟨a, -, h, -⟩ := h1 d hd
  obtain ⟨A, B, hAB, -⟩ := List.eq_append_cons_of_mem a
  have hA := h A B hAB
  unfold preferred at hAB
  rw [List.cons_append, List.cons_append, List.nil_append] at hAB
  constructor
  · intro hc hu
    cases A with
    | nil => rw [List.nil_append, List.cons.injEq] at hAB; exact absurd hAB.1.symm hc
    | cons x A =>
      rw [List.cons_append, List.cons.injEq] at hAB
      exact hA ',' (by rw [← hAB.1]; simp) hu
  · intro hc ht hu
    cases A with
    | nil => rw [List.nil_append, List.cons.injEq] at hAB; exact absurd hAB.1.symm hc
    | cons x A =>
      rw [List.cons_append, List.cons.injEq] at hAB
      cases A with
      | nil => rw [List.nil_append, List.cons.injEq] at hAB; exact absurd hAB.2.1.symm ht
      | cons y A =>
        rw [List.cons_append, List.cons.injEq] at hAB
        exact hA '\t' (by rw [← hAB.2.1]; simp) hu

example : (guess env "a,b\tc\na,b\tc\n".toList).1 = some ',' ∧ (guess env "a\tb;c\na\tb;c\n".toList).1 = some '\t' := by
  decide +kernel

/-- C66, long texts: the delimiter found suits the first 24 lines and cuts one of the first 25. -/
theorem C66_long_partial (env : Env) (text : List Char) (hlen : 25 < (splitLines text).length) (d : Char)
    (hd : (guess env text).1 = some d) :
    PossiblyProposed text d ∧
    (((splitLines text).take 24).Pairwise fun a b => (cells d (guess env text).2 a).length ≤ (cells d (guess env text).2 b).length) ∧
    (∃ r ∈ (splitLines text).take 25, 2 ≤ (cells d (guess env text).2 r).length) ∧
    ∀ r ∈ (splitLines text).take 24, ¬ Against env d (cells d (guess env text).2 r) := by
  obtain ⟨h1, -⟩ := guess_spec env text
  obtain ⟨a, b, -⟩ := h1 d hd
  generalize (guess env text).2 = q at b
  generalize hR : splitLines text = R at b hlen
  have hpre := sampleRows_prefix (pick := env.draw d) hlen
  have hmem : ∀ r, r ∈ sampleRows (env.draw d) R → r ∈ R.take 25 := fun r => sampleRows_mem
  generalize sampleRows (env.draw d) R = S at b hpre hmem
  have hsub : R.take 24 <+: looked S := by
    have h24 : R.take 24 = S.take 24 := by
      obtain ⟨t, ht⟩ := hpre
      rw [← ht, List.take_append_of_le_length (by rw [List.length_take]; omega), List.take_take]
      rfl
    have hl : 25 ≤ S.length := by
      have := hpre.length_le
      rw [List.length_take] at this
      omega
    rw [h24]
    unfold looked
    split_ifs
    · rw [List.dropLast_eq_take]
      have : (S.take (S.length - 1)).take 24 = S.take 24 := by rw [List.take_take]; congr 1; omega
      rw [← this]
      exact List.take_prefix _ _
    · exact List.take_prefix _ _
  have hlook : ∀ r ∈ looked S, r ∈ S := by
    intro r hr
    unfold looked at hr
    split_ifs at hr
    · exact (List.dropLast_sublist S).subset hr
    · exact hr
  refine ⟨possibly_proposed a, b.rising.sublist hsub.sublist, ?_, fun r hr => b.unopposed r (hsub.subset hr)⟩
  obtain ⟨r, hr, h⟩ := b.splits
  exact ⟨r, hmem r (hlook r hr), h⟩

/-- Forty lines for the examples. -/
def forty : List Char := "title\n".toList ++ ((List.replicate 40 "ab,c\n".toList).flatten)

example : 25 < (splitLines forty).length ∧ (guess { env with draw := fun _ _ => 3 } forty).1 = some ',' := by decide +kernel

/-- C66 fails for long texts: the same text has a delimiter or none, depending on the random lines. -/
theorem C66_random_fails :
    (guess { env with draw := fun _ _ => 3 } forty).1 = some ',' ∧ (guess { env with draw := fun _ _ => 0 } forty).1 = none := by
  decide +kernel

theorem unsafeRow_draw (env : Env) (draw : Char → ℕ → ℕ) (d : Char) (n : ℕ) (prev : Option CellType) (cs : List (List Char)) :
    unsafeRow { env with draw := draw } d n prev cs = unsafeRow env d n prev cs := by
  induction cs generalizing prev with
  | nil => rfl
  | cons c cs ih => simp only [unsafeRow, ih]

theorem scanRows_draw (env : Env) (draw : Char → ℕ → ℕ) (d q : Char) (s : Scan) (rows : List (List Char)) :
    scanRows { env with draw := draw } d q s rows = scanRows env d q s rows := by
  induction rows generalizing s with
  | nil => rfl
  | cons r rows ih => simp only [scanRows, scanRow, unsafeRow_draw, ih]

/-- C66, texts of up to 34 lines: nothing is drawn. -/
theorem C66_not_drawn (env : Env) (draw : Char → ℕ → ℕ) (text : List Char) (h : (text.splitOn '\n').length ≤ 34) :
    guess { env with draw := draw } text = guess env text := by
  have hs : ∀ pick pick', sampleRows pick (splitLines text) = sampleRows pick' (splitLines text) := by
    intro pick pick'
    unfold sampleRows
    have h' : (splitLines text).length ≤ 34 := h
    by_cases hl : 25 < (splitLines text).length
    · rw [if_pos hl, if_pos hl, show ((splitLines text).length - 25) / 10 = 0 by omega]
      rfl
    · rw [if_neg hl, if_neg hl]
  have he : validated { env with draw := draw } text = validated env text := by
    unfold validated
    apply List.filterMap_congr
    intro d _
    show Option.map _ (evaluate { env with draw := draw } _ _ _) = _
    have : evaluate { env with draw := draw } (guessQuote { env with draw := draw } text) (splitLines text) d =
        evaluate env (guessQuote env text) (splitLines text) d := by
      unfold evaluate
      rw [hs _ (env.draw d), scanRows_draw]
      rfl
    rw [this]
  unfold guess
  rw [he]
  rfl

example : (("title\n".toList ++ (List.replicate 30 "ab,c\n".toList).flatten).splitOn '\n').length = 32 := by decide +kernel

/-- C66 fails for long texts: no line behind the 25th is ever looked at. -/
theorem C66_rest_fails (pick : ℕ → ℕ) (first rest rest' : List (List Char)) (h : first.length = 25) (hl : rest.length = rest'.length) :
    sampleRows pick (first ++ rest) = sampleRows pick (first ++ rest') := by
  unfold sampleRows
  rw [List.length_append, List.length_append, hl]
  split_ifs with h1
  · rw [List.take_append_of_le_length (by omega), List.take_append_of_le_length (by omega)]
  · have h0 : rest' = [] := List.length_eq_zero_iff.1 (by omega)
    have h2 : rest = [] := List.length_eq_zero_iff.1 (by omega)
    rw [h0, h2]

example : sampleRows (fun _ => 7) (List.replicate 25 "a,b".toList ++ List.replicate 12 "free text".toList) =
    sampleRows (fun _ => 7) (List.replicate 25 "a,b".toList ++ List.replicate 12 "a,b".toList) :=
  C66_rest_fails _ _ _ _ rfl rfl

/-! ### C67 -/

/-- The types of the cells of a text. -/
def typesOf (env : Env) (d q : Char) (text : List Char) : List (List CellType) :=
  (text.splitOn '\n').map fun r => (cells d q r).map fun c => env.cellType (env.strip c)

/-- The cells of a text. -/
def tableOf (d q : Char) (text : List Char) : List (List (List Char)) := (text.splitOn '\n').map (cells d q)

theorem types_eq (env : Env) (d q : Char) (text : List Char) : (splitLines text).map (rowTypes env d q) = typesOf env d q text := by
  unfold splitLines typesOf
  refine List.map_congr_left fun r _ => ?_
  unfold rowTypes
  rw [splitRow_cells]

theorem table_eq (d q : Char) (text : List Char) : (splitLines text).map (splitRow d q) = tableOf d q text := by
  unfold splitLines tableOf
  refine List.map_congr_left fun r _ => ?_
  rw [splitRow_cells]

theorem types_ne (env : Env) (d q : Char) (text : List Char) : ∀ r ∈ typesOf env d q text, r ≠ [] := by
  rw [← types_eq]
  intro r hr
  obtain ⟨row, -, rfl⟩ := List.mem_map.1 hr
  exact rowTypes_ne_nil _ _ _ _

theorem allPlain_iff (types : List (List CellType)) :
    (types.all fun r => r.all isPlain) = true ↔ ∀ r ∈ types, ∀ t ∈ r, Plain t := by
  simp only [List.all_eq_true, isPlain_iff]

/-- C67, tables with other values than text: the header is the last candidate row, provided that some row differs in types from the row
above. -/
theorem C67_types (env : Env) (text : List Char) (delimiter quote : Option Char) (ht : text ≠ [])
    (hx : ∃ r ∈ typesOf env (delimiter.getD ',') (quote.getD '"') text, ∃ t ∈ r, ¬ Plain t) (h : ℕ) :
    guessHeader env text delimiter quote = some h ↔ TypeHeader (typesOf env (delimiter.getD ',') (quote.getD '"') text) h := by
  unfold guessHeader
  rw [if_neg ht]
  dsimp only
  rw [types_eq, table_eq, if_neg, byTypes_iff _ (types_ne _ _ _ _)]
  rw [allPlain_iff]
  intro hall
  obtain ⟨r, hr, t, ht, hp⟩ := hx
  exact hp (hall r hr t ht)

example : guessHeader env "name,age\nbob,3\namy,4".toList (some ',') none = some 0 ∧
    guessHeader env "report\n\nname,age\nbob,3\namy,4".toList (some ',') none = some 2 ∧
    guessHeader env "bob,3\namy,4".toList (some ',') none = none := by decide +kernel

/-- C67, tables of text: the header is the row where most columns begin, if numbers of words vary, and else found by types. -/
theorem C67_text (env : Env) (text : List Char) (delimiter quote : Option Char) (ht : text ≠ [])
    (hx : ∀ r ∈ typesOf env (delimiter.getD ',') (quote.getD '"') text, ∀ t ∈ r, Plain t) (h : ℕ) :
    guessHeader env text delimiter quote = some h ↔
      WordHeader env (tableOf (delimiter.getD ',') (quote.getD '"') text) h ∨
      ((∀ k, ¬ WordHeader env (tableOf (delimiter.getD ',') (quote.getD '"') text) k) ∧
        TypeHeader (typesOf env (delimiter.getD ',') (quote.getD '"') text) h) := by
  unfold guessHeader
  rw [if_neg ht]
  dsimp only
  rw [types_eq, table_eq, if_pos ((allPlain_iff _).2 hx), byWords_iff, byTypes_iff _ (types_ne _ _ _ _)]

example : guessHeader env "name,text\nbob,it was very good\namy,no".toList (some ',') none = some 0 := by decide +kernel

/-- C67: the header is a line of the text. -/
theorem C67_range (env : Env) (text : List Char) (delimiter quote : Option Char) (h : ℕ)
    (hh : guessHeader env text delimiter quote = some h) : h < (text.splitOn '\n').length := by
  have ht : text ≠ [] := by
    rintro rfl
    simp [guessHeader] at hh
  by_cases hx : ∀ r ∈ typesOf env (delimiter.getD ',') (quote.getD '"') text, ∀ t ∈ r, Plain t
  · rcases (C67_text env text delimiter quote ht hx h).1 hh with hw | ⟨-, hw⟩
    · obtain ⟨hv, -, J, -, hJ, hl⟩ := hw
      obtain ⟨_, r, hr, _⟩ := hv
      have := hl r hr
      obtain ⟨j, hj⟩ := List.exists_mem_of_length_pos (show 0 < J.length by omega)
      obtain ⟨⟨r', c, hr', -⟩, -⟩ := hJ j hj
      obtain ⟨hlt, -⟩ := List.getElem?_eq_some_iff.1 hr'
      simpa [tableOf] using hlt
    · have := hw.1
      simpa [typesOf] using this
  · push Not at hx
    obtain ⟨r, hr, t, ht', hp⟩ := hx
    have := ((C67_types env text delimiter quote ht ⟨r, hr, t, ht', hp⟩ h).1 hh).1
    simpa [typesOf] using this

theorem changes_zero (types : List (List CellType)) : changes types 0 = 0 := by
  cases types with
  | nil => rfl
  | cons r rs =>
    unfold changes reference
    simp

/-- C67, a table under its column names: a first row of text over a second one whose cells differ in type by a tenth or more. -/
theorem C67_first (types : List (List CellType)) (r0 r1 : List CellType) (rest : List (List CellType)) (ht : types = r0 :: r1 :: rest)
    (h0 : r0 ≠ []) (htext : ∀ t ∈ r0, t = .str ∨ t = .upstr) (h1 : r1.length = r0.length) (hd : ∃ t ∈ r1, t ≠ .none)
    (hdiff : r0.length ≤ 10 * ((List.range r1.length).filter fun j => decide (r0[j]? ≠ r1[j]?)).length) : TypeHeader types 0 := by
  have hpos : 0 < r0.length := List.length_pos_iff.2 h0
  have ham0 : amount r0 = r0.length := by
    unfold amount
    rw [List.countP_eq_length]
    intro t h
    rcases htext t h with rfl | rfl <;> decide
  have ham1 : 0 < amount r1 := by
    unfold amount
    rw [List.countP_pos_iff]
    obtain ⟨t, h, hn⟩ := hd
    exact ⟨t, h, by simpa using hn⟩
  have ham1' : amount r1 ≤ r0.length := by
    rw [← h1]
    exact List.countP_le_length
  have href : reference types 1 = r0 := by
    subst ht
    unfold reference
    have : 0 < amount r0 := by omega
    simp [this]
  have hc1 : changes types 1 = ((List.range r1.length).filter fun j => decide (r0[j]? ≠ r1[j]?)).length := by
    have hg : types.getD 1 [] = r1 := by rw [ht]; rfl
    unfold changes
    dsimp only
    rw [hg, href, if_pos ⟨ham1, ham1'⟩]
  have hc1pos : 0 < changes types 1 := by rw [hc1]; omega
  have hg0 : types.getD 0 [] = r0 := by rw [ht]; rfl
  have hg1 : types.getD 1 [] = r1 := by rw [ht]; rfl
  have hl : 2 ≤ types.length := by rw [ht]; simp
  refine ⟨by omega, ⟨?_, ?_, ?_, by omega, by omega⟩, ?_, 1, by omega, hc1pos⟩
  · rw [hg0, List.countP_eq_length.2]
    · omega
    · intro t h
      rcases htext t h with rfl | rfl <;> decide
  · rw [hg0, ham0]; omega
  · rw [changes_zero, hg0]; omega
  · intro k hk hkl hc
    by_cases hk1 : k = 1
    · subst hk1
      have := hc.steady
      rw [hc1, hg1] at this
      omega
    · have := hc.unchanged 1 (by omega)
      omega

example : TypeHeader [[.str, .str], [.int, .str], [.int, .str]] 0 :=
  C67_first _ [.str, .str] [.int, .str] [[.int, .str]] rfl (by simp) (by simp) rfl ⟨.int, by simp, by simp⟩ (by decide)

/-- C67, rows behind the first change do not matter. -/
theorem C67_local (types types' : List (List CellType)) (k : ℕ) (hk : k < types.length) (hk' : k < types'.length)
    (heq : types.take (k + 1) = types'.take (k + 1)) (hc : 0 < changes types k) (h : ℕ) :
    TypeHeader types h ↔ TypeHeader types' h := by
  have key : ∀ (A B : List (List CellType)), k < A.length → k < B.length → A.take (k + 1) = B.take (k + 1) → 0 < changes A k →
      TypeHeader A h → TypeHeader B h := by
    intro A B hA hB hAB hc
    have hget : ∀ i ≤ k, A.getD i [] = B.getD i [] := by
      intro i hi
      have : (A.take (k + 1))[i]? = (B.take (k + 1))[i]? := by rw [hAB]
      rw [List.getElem?_take_of_lt (by omega), List.getElem?_take_of_lt (by omega)] at this
      rw [List.getD_eq_getElem?_getD, List.getD_eq_getElem?_getD, this]
    have htake : ∀ i ≤ k, A.take i = B.take i := by
      intro i hi
      have : (A.take (k + 1)).take i = (B.take (k + 1)).take i := by rw [hAB]
      rwa [List.take_take, List.take_take, Nat.min_eq_left (by omega)] at this
    have hhead : A.headD [] = B.headD [] := by
      have := hget 0 (by omega)
      cases A with
      | nil => simp at hA
      | cons a A =>
        cases B with
        | nil => simp at hB
        | cons b B => simpa using this
    have hch : ∀ i ≤ k, changes A i = changes B i := by
      intro i hi
      unfold changes reference
      rw [hget i hi, htake i hi, hhead]
    have hcand : ∀ i ≤ k, Candidate A i → Candidate B i := by
      intro i hi c
      obtain ⟨c1, c2, c3, c4, c5⟩ := c
      rw [hget i hi] at c1 c2 c3
      rw [hch i hi] at c3
      refine ⟨c1, c2, c3, ?_, ?_⟩
      · intro p hp
        have := c4 p hp
        rwa [hget p (by omega), hget i hi] at this
      · intro p hp
        rw [← hch p (by omega)]
        exact c5 p hp
    have hcand' : ∀ i ≤ k, Candidate B i → Candidate A i := by
      intro i hi c
      obtain ⟨c1, c2, c3, c4, c5⟩ := c
      rw [← hget i hi] at c1 c2 c3
      rw [← hch i hi] at c3
      refine ⟨c1, c2, c3, ?_, ?_⟩
      · intro p hp
        have := c4 p hp
        rwa [← hget p (by omega), ← hget i hi] at this
      · intro p hp
        rw [hch p (by omega)]
        exact c5 p hp
    rintro ⟨h1, h2, h3, h4⟩
    have hle : h ≤ k := by
      by_contra hgt
      have := h2.unchanged k (by omega)
      omega
    refine ⟨by omega, hcand h hle h2, ?_, k, hB, by rw [← hch k le_rfl]; exact hc⟩
    intro i hi hil hci
    by_cases hik : i ≤ k
    · exact h3 i hi (by omega) (hcand' i hik hci)
    · have := hci.unchanged k (by omega)
      rw [← hch k le_rfl] at this
      omega
  constructor
  · exact key types types' hk hk' heq hc
  · have hc' : 0 < changes types' k := by
      have e1 : types.getD k [] = types'.getD k [] := by
        have : (types.take (k + 1))[k]? = (types'.take (k + 1))[k]? := by rw [heq]
        rw [List.getElem?_take_of_lt (by omega), List.getElem?_take_of_lt (by omega)] at this
        rw [List.getD_eq_getElem?_getD, List.getD_eq_getElem?_getD, this]
      have e2 : types.take k = types'.take k := by
        have : (types.take (k + 1)).take k = (types'.take (k + 1)).take k := by rw [heq]
        rwa [List.take_take, List.take_take, Nat.min_eq_left (by omega)] at this
      have e3 : types.headD [] = types'.headD [] := by
        have : (types.take (k + 1)).headD [] = (types'.take (k + 1)).headD [] := by rw [heq]
        cases types with
        | nil => simp at hk
        | cons a A =>
          cases types' with
          | nil => simp at hk'
          | cons b B => simpa using this
      unfold changes reference at hc ⊢
      rwa [e1, e2, e3] at hc
    exact key types' types hk' hk heq.symm hc'

example : 0 < changes [[CellType.str, .str], [.int, .str], [.int, .int]] 1 := by decide

/-- C67 fails: column names over a table of text are not found, as nothing changes. -/
theorem C67_names_fails : guessHeader env "name,city\nbob,paris\namy,rome".toList (some ',') none = none := by decide +kernel

/-- C67 fails: without column names, the first row of a table of text is taken for them if the numbers of words vary. -/
theorem C67_data_fails : guessHeader env "bob,it was very good\namy,no".toList (some ',') none = some 0 := by decide +kernel

/-- C67 fails: a line of dashes under the column names is taken for them. -/
theorem C67_gap_fails : guessHeader env "name,age\n-,-\nbob,3\namy,4".toList (some ',') none = some 1 := by decide +kernel

/-! ### C68 -/

/-- The lines behind the header. -/
def body (text : List Char) (h : Option ℕ) : List (List Char) := (text.splitOn '\n').drop (h.getD 0)

theorem behind_eq (text : List Char) (h : Option ℕ) : behind h (splitLines text) = body text h := by
  cases h <;> rfl

theorem counted_unique {lines a b : List (List Char)} (ha : Counted lines a) (hb : Counted lines b) : a = b := by
  have key : ∀ x y : List (List Char), Counted lines x → Counted lines y → x.length ≤ y.length → x = y := by
    rintro x y ⟨hx, hx2, -⟩ ⟨hy, -, hy3⟩ hle
    have hp : x <+: y := List.prefix_of_prefix_length_le hx hy hle
    by_contra hne
    have hlt : x.length < y.length := by
      rcases Nat.lt_or_ge x.length y.length with h | h
      · exact h
      · exact absurd (hp.eq_of_length (by omega)) hne
    rcases hx2 with rfl | ⟨h1000, l, hl, hl2⟩
    · have := hy.length_le
      omega
    · have hi : y[x.length - 1]? = some l := by
        obtain ⟨t, rfl⟩ := hp
        rw [List.getLast?_eq_getElem?] at hl
        rw [List.getElem?_append_left (by omega), hl]
      have := hy3 (x.length - 1) (by omega) (by omega) l hi
      omega
  rcases Nat.le_total a.length b.length with h | h
  · exact key a b ha hb h
  · exact (key b a hb ha h).symm

/-- C68: a text is recognised exactly if it is nothing else, at least four of the lines counted have content, and the number of separators
that most of these have, at least one unless there is no delimiter, is shared by all but 1, 2, 4, ... of them for 1, 2, 3, ... digits
of the number of lines. -/
theorem C68_match (env : Env) (other : Bool) (delimiter quote : Option Char) (header : Header) (text : List Char)
    (d q : Option Char) (h : Option ℕ) (seen : List (List Char)) (k : ℕ) (hs : Counted (body text h) seen)
    (hk : IsDigits seen.length k) :
    isMatch env other delimiter quote header text = some (d, q, h) ↔
      other = false ∧
      ((∃ c, delimiter = some c ∧ d = some c ∧ q = quote) ∨
        (delimiter = none ∧ d = (guess env text).1 ∧ q = some (guess env text).2)) ∧
      (header = .auto ∧ h = guessHeader env text d q ∨ header = .none ∧ h = none ∨ ∃ n, header = .row n ∧ h = some n) ∧
      4 ≤ (active seen).length ∧
      ∃ n, IsMode ((active seen).map (lineSeparators env d q)) n ∧ (0 < n ∨ d = none) ∧
        (active seen).length ≤ ((active seen).map (lineSeparators env d q)).count n + 2 ^ (k - 1) := by
  obtain ⟨seen', hs', hdec⟩ := decideCsv_iff env d q (body text h)
  have hseen : seen' = seen := counted_unique hs' hs
  subst hseen
  have hdig : 4 ≤ (active seen').length → k = (Nat.toDigits 10 seen'.length).length := by
    intro h4
    have : (active seen').length ≤ seen'.length := List.length_filter_le _ _
    exact isDigits_unique (by omega) hk
  have hdec' : decideCsv d.isSome (tally env d q {} (body text h)) = true ↔
      4 ≤ (active seen').length ∧ ∃ n, IsMode ((active seen').map (lineSeparators env d q)) n ∧ (0 < n ∨ d = none) ∧
        (active seen').length ≤ ((active seen').map (lineSeparators env d q)).count n + 2 ^ (k - 1) := by
    rw [hdec]
    refine and_congr_right fun h4 => ?_
    rw [hdig h4]
  unfold isMatch
  by_cases ho : other = true
  · rw [if_pos ho]
    simp [ho]
  · rw [if_neg ho]
    dsimp only
    rw [← hdec']
    have ho' : other = false := by simpa using ho
    simp only [ho', true_and]
    constructor
    · intro hm
      split_ifs at hm with hc
      simp only [Option.some.injEq, Prod.mk.injEq] at hm
      obtain ⟨e1, e2, e3⟩ := hm
      rw [e1, e2] at hc e3
      rw [e3, behind_eq] at hc
      refine ⟨?_, ?_, hc⟩
      · cases delimiter with
        | none => exact Or.inr ⟨rfl, e1.symm, e2.symm⟩
        | some c => exact Or.inl ⟨c, rfl, e1.symm, e2.symm⟩
      · cases header with
        | auto => exact Or.inl ⟨rfl, e3.symm⟩
        | none => exact Or.inr (Or.inl ⟨rfl, e3.symm⟩)
        | row n => exact Or.inr (Or.inr ⟨n, rfl, e3.symm⟩)
    · rintro ⟨hd, hh, hc⟩
      rcases hd with ⟨c, rfl, rfl, rfl⟩ | ⟨rfl, rfl, rfl⟩ <;> rcases hh with ⟨rfl, rfl⟩ | ⟨rfl, rfl⟩ | ⟨n, rfl, rfl⟩ <;> dsimp only <;>
        rw [behind_eq, if_pos hc]

/-- C68: of at most a thousand lines all are counted. -/
theorem C68_short (lines seen : List (List Char)) (h : lines.length ≤ 1000) : Counted lines seen ↔ seen = lines := by
  constructor
  · rintro ⟨hp, h2 | ⟨h2, -⟩, -⟩
    · exact h2
    · exact hp.eq_of_length (by have := hp.length_le; omega)
  · rintro rfl
    exact ⟨List.prefix_rfl, Or.inl rfl, fun i hi hlt => by omega⟩

example : (body "name,age\nbob,3\namy,4\njim,5\ntom,6".toList (some 0)).length ≤ 1000 := by decide

example : isMatch env false none none .auto "name,age\nbob,3\namy,4\njim,5\ntom,6".toList = some (some ',', some '"', some 0) ∧
    isMatch env false none none .auto "name,age\nbob,3\namy,4\n".toList = none ∧
    isMatch env true none none .auto "name,age\nbob,3\namy,4\njim,5\ntom,6".toList = none ∧
    isMatch env false none none .auto "some, words\nare\nhere, and, there\nor, not\n, , ,\n ,x".toList = none := by decide +kernel

/-- C68: a table whose lines with content all have the same positive number of separators is recognised. -/
theorem C68_clean (env : Env) (c : Char) (quote : Option Char) (h : Option ℕ) (text : List Char) (n : ℕ) (hn : 0 < n)
    (hl : (body text h).length ≤ 1000) (h4 : 4 ≤ (active (body text h)).length)
    (hall : ∀ l ∈ active (body text h), separators c (quote.getD '"') l = n) :
    isMatch env false (some c) quote (match h with | none => .none | some m => .row m) text = some (some c, quote, h) := by
  have hpos : 0 < (body text h).length := by
    have : (active (body text h)).length ≤ (body text h).length := List.length_filter_le _ _
    omega
  rw [C68_match env false (some c) quote _ text (some c) quote h (body text h) _ ((C68_short _ _ hl).2 rfl)
    (digits_spec _ hpos).1]
  refine ⟨rfl, Or.inl ⟨c, rfl, rfl, rfl⟩, ?_, h4, n, ?_, Or.inl hn, ?_⟩
  · cases h with
    | none => exact Or.inr (Or.inl ⟨rfl, rfl⟩)
    | some m => exact Or.inr (Or.inr ⟨m, rfl, rfl⟩)
  all_goals
    have hmap : (active (body text h)).map (lineSeparators env (some c) quote) = List.replicate (active (body text h)).length n := by
      rw [List.eq_replicate_iff]
      refine ⟨by simp, ?_⟩
      intro m hm
      obtain ⟨l, hl, rfl⟩ := List.mem_map.1 hm
      exact hall l hl
    rw [hmap]
  · refine ⟨?_, ?_, ?_⟩
    · rw [List.mem_replicate]; exact ⟨by omega, rfl⟩
    · intro m
      rw [List.count_replicate_self, List.count_replicate]
      split_ifs <;> omega
    · intro m hm _
      rw [(List.mem_replicate.1 hm).2]
  · rw [List.count_replicate_self]
    exact Nat.le_add_right _ _

example : ∀ l ∈ active (body "name,age\nbob,3\namy,4\njim,5\ntom,6".toList (some 0)), separators ',' '"' l = 1 := by decide +kernel

/-- C68 fails: the tolerance grows with the empty lines: four lines without anything in common are recognised among a hundred. -/
theorem C68_empty_fails :
    (isMatch env false (some ',') none .none (List.replicate 96 '\n' ++ "c,d\nab\ne,f,g\n,,,".toList)).isSome = true := by
  decide +kernel

/-- C68 fails: a quote character given without a delimiter is replaced. -/
theorem C68_quote_fails : isMatch env false none (some '\'') (.row 0) "name,age\nbob,3\namy,4\njim,5\ntom,6".toList =
    some (some ',', some '"', some 0) := by decide +kernel

/-- C68 fails: of the thousand lines to be examined ten are read. -/
theorem C68_thousand_fails :
    (Sniff.load 10 65536 1024 ((List.replicate 12 "ab,c\n".toList).flatten ++ (List.replicate 20 "more\n".toList).flatten)).toOption =
      some (some ((List.replicate 9 "ab,c\n".toList).flatten ++ "ab,c".toList)) := by decide +kernel

end Verif.Props.Csv
