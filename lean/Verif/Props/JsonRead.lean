import Verif.Lemmas.JsonRead

/-!
# C74: JSON files
-/

namespace Verif.Props.JsonRead

open Verif Verif.Json Verif.JsonRead Verif.Spec.JsonRead

variable {A : Type}

/-- A file is a document, or half of its lines and of its end, at most a thousand, count as JSON. -/
def Half (loads : Line → Option (J A)) (ls : List Line) : Prop :=
  if ls.length < 1000 then ls.length + 1 ≤ 2 * counted loads ls else 1000 ≤ 2 * counted loads ls

/-- C74: which files are recognised. -/
theorem C74_recognised (loads : Line → Option (J A)) (ls : List Line) :
    isMatch loads (ls.map some) = true ↔ (∃ j, loads ls.flatten = some j) ∨ Half loads ls := by
  unfold isMatch
  rw [mapM_id_some]
  show (match loads ls.flatten with
    | some _ => true
    | none => _) = true ↔ _
  cases hl : loads ls.flatten with
  | some j => simp
  | none =>
    dsimp only
    rw [scan_spec]
    dsimp only
    unfold Half counted
    rw [decide_eq_true_eq]
    by_cases h : ls.length < 1000
    · rw [if_pos h, if_pos h]
      constructor
      · intro h'; right; omega
      · rintro (⟨j, hj⟩ | h')
        · cases hj
        · omega
    · rw [if_neg h, if_neg h]
      constructor
      · intro h'; right; omega
      · rintro (⟨j, hj⟩ | h')
        · cases hj
        · omega

/-- The documents of the examples: `{"a":1}`, `{"a":2}`, a text with a line separator, and `5`. -/
def docs : List (List Char) :=
  ["{\"a\":1}".toList, "{\"a\":2}".toList, "{\"a\":\"x".toList ++ Char.ofNat 0x2028 :: "y\"}".toList, "5".toList]

/-- A parser for the examples: spaces and line ends around a document do not matter. -/
def loads (l : Line) : Option (J (List Char)) :=
  let body := l.filter fun c => c ≠ '\n' ∧ c ≠ ' '
  if body = docs[3]! then some (.val body) else if body ∈ docs then some (.obj [("a".toList, .val body)]) else none

/-- A file of the examples. -/
def file (n : ℕ) (bad : ℕ) : List Line := List.replicate n ("{\"a\":1}\n".toList) ++ List.replicate bad "oops\n".toList

example : isMatch loads ((file 2 1).map some) = true ∧ isMatch loads ((file 1 1).map some) = false := by decide +kernel

/-- C74: files with an undecodable line among the first thousand are not recognised. -/
theorem C74_undecodable (loads : Line → Option (J A)) (file : List (Option Line)) (h : none ∈ file.take 1000) :
    isMatch loads file = false := by
  unfold isMatch
  rw [mapM_id_none (List.mem_of_mem_take h)]
  show (match scan loads 1000 0 0 file with
    | none => false
    | some (total, valid) => decide (total ≤ 2 * valid)) = false
  rw [scan_none loads 1000 0 0 file h]

example : isMatch loads [some "{\"a\":1}\n".toList, some "{\"a\":1}\n".toList, none] = false := by decide +kernel

/-- C74: sixty of a hundred are enough. -/
theorem C74_sixty (loads : Line → Option (J A)) (ls : List Line) (hne : ls ≠ []) (h : 6 * min ls.length 1000 ≤ 10 * counted loads ls) :
    isMatch loads (ls.map some) = true := by
  rw [C74_recognised]
  right
  have h1 := List.length_pos_of_ne_nil hne
  unfold Half
  by_cases hl : ls.length < 1000
  · rw [if_pos hl]; omega
  · rw [if_neg hl]; omega

example : 6 * min (file 3 2).length 1000 ≤ 10 * counted loads (file 3 2) := by decide +kernel

/-- C74 fails as documented: six of eleven are enough as well. -/
theorem C74_sixty_fails : isMatch loads ((file 6 5).map some) = true ∧ 10 * counted loads (file 6 5) < 6 * (file 6 5).length := by
  decide +kernel

/-- C74: the lines of a file are read in order, those that are no documents left out, and those in which a text that cannot be encoded
is outside of all dictionaries. -/
theorem C74_lines (bad : A → Bool) (loads read : Line → Option (J A)) (hr : Reads bad loads read) (text : List Char)
    (brk : Char → Bool) (hw : loads text = none) :
    loadFile bad loads ((fileLines brk text).map some) =
      if documents read (fileLines brk text) = [] ∧ text ≠ [] then .error .valueError
      else .ok (.lines (documents read (fileLines brk text))) := by
  unfold loadFile
  rw [lineLoads_eq hr]
  rw [mapM_id_some]
  show (match loads (fileLines brk text).flatten with
    | some j => Except.ok (Loaded.doc j)
    | none => _) = _
  rw [fileLines_flatten, hw]
  dsimp only
  rw [readJson_spec, upToBlank_self (fileLines_ne_nil brk text)]
  have hne : fileLines brk text ≠ [] ↔ text ≠ [] := by
    constructor
    · intro h h'; rw [h'] at h; exact h rfl
    · intro h h'
      have := fileLines_flatten brk text
      rw [h'] at this
      exact h this.symm
  simp only [hne]
  split_ifs <;> rfl

example : loads "{\"a\":1}\n\nno\n{\"a\":2}".toList = none ∧
    (documents loads (fileLines (· == '\n') "{\"a\":1}\n\nno\n{\"a\":2}".toList)).length = 2 := by decide +kernel

/-- C74: a whole document is read as such. -/
theorem C74_document (bad : A → Bool) (loads : Line → Option (J A)) (text : List Char) (brk : Char → Bool) (j : J A) (hw : loads text = some j) :
    loadFile bad loads ((fileLines brk text).map some) = .ok (.doc j) ∧ loadText bad brk loads text = .ok (.doc j) ∧
    isMatch loads ((fileLines brk text).map some) = true := by
  refine ⟨?_, ?_, ?_⟩
  · unfold loadFile
    rw [mapM_id_some]
    show (match loads (fileLines brk text).flatten with
      | some j => Except.ok (Loaded.doc j)
      | none => _) = _
    rw [fileLines_flatten, hw]
  · unfold loadText
    rw [hw]
  · rw [C74_recognised, fileLines_flatten]
    exact .inl ⟨j, hw⟩

/-- C74, files without texts that cannot be encoded outside of all dictionaries: what is recognised can be read. -/
theorem C74_readable_partial (bad : A → Bool) (loads : Line → Option (J A)) (text : List Char) (brk : Char → Bool)
    (henc : ∀ l ∈ fileLines brk text, ∀ j, loads l = some j → ¬ Bare bad j)
    (h : isMatch loads ((fileLines brk text).map some) = true) :
    ∃ x, loadFile bad loads ((fileLines brk text).map some) = .ok x := by
  cases hw : loads text with
  | some j => exact ⟨_, (C74_document bad loads text brk j hw).1⟩
  | none =>
    rw [C74_lines bad loads _ (lineLoads_reads bad loads) text brk hw, if_neg]
    · exact ⟨_, rfl⟩
    rintro ⟨h1, -⟩
    rw [C74_recognised, fileLines_flatten, hw] at h
    rcases h with ⟨j, hj⟩ | h
    · cases hj
    · have : counted loads (fileLines brk text) = 0 := by
        unfold counted
        rw [List.length_eq_zero_iff, List.filter_eq_nil_iff]
        intro l hl hc
        rw [decide_eq_true_eq] at hc
        unfold documents at h1
        rw [List.filterMap_eq_nil_iff] at h1
        obtain ⟨j, hj⟩ := Option.isSome_iff_exists.1 hc.2
        have h2 := (lineLoads_reads bad loads l j).2 ⟨hj, henc l (List.mem_of_mem_take hl) j hj⟩
        rw [h1 l (List.mem_of_mem_take hl)] at h2
        cases h2
      unfold Half at h
      rw [this] at h
      split_ifs at h <;> omega

example : isMatch loads ((fileLines (· == '\n') "{\"a\":1}\nno\n{\"a\":2}".toList).map some) = true := by decide +kernel

/-- C74 fails for files of lists with a text that cannot be encoded: they are recognised and cannot be read. -/
theorem C74_surrogate_fails (bad : A → Bool) (loads : Line → Option (J A)) (l : Line) (hne : l ≠ []) (h : Counts loads l) (j : J A)
    (hj : loads l = some j) (hb : Bare bad j) (n : ℕ) (hn : 0 < n) (hw : loads (List.replicate n l).flatten = none) :
    isMatch loads ((List.replicate n l).map some) = true ∧
    loadFile bad loads ((List.replicate n l).map some) = .error .valueError := by
  constructor
  · rw [C74_recognised]
    right
    have hc : counted loads (List.replicate n l) = min 1000 n := by
      unfold counted
      rw [List.take_replicate, List.filter_eq_self.2, List.length_replicate]
      intro x hx
      rw [List.eq_of_mem_replicate hx]
      simpa using h
    unfold Half
    rw [hc, List.length_replicate]
    split_ifs <;> omega
  · unfold loadFile
    rw [mapM_id_some]
    show (match loads (List.replicate n l).flatten with
      | some j => Except.ok (Loaded.doc j)
      | none => _) = _
    rw [hw]
    dsimp only
    have hnone : lineLoads bad loads l = none := by
      cases hl : lineLoads bad loads l with
      | none => rfl
      | some i =>
        obtain ⟨h1, h2⟩ := (lineLoads_reads bad loads l i).1 hl
        rw [hj] at h1
        cases h1
        exact absurd hb h2
    rw [readJson_spec, upToBlank_self fun x hx => by rw [List.eq_of_mem_replicate hx]; exact hne, if_pos]
    · rfl
    · constructor
      · unfold documents
        rw [List.filterMap_eq_nil_iff]
        intro x hx
        rw [List.eq_of_mem_replicate hx]
        exact hnone
      · intro e
        have := congrArg List.length e
        simp at this
        omega

/-- A parser that knows lines `[?]`, where `?` stands for half of a surrogate pair. -/
example : (fun l : Line => if l = "[?]".toList then some (J.list [.val 0]) else none) |> fun loads : Line → Option (J ℕ) =>
    Counts loads "[?]".toList ∧ loads (List.replicate 2 "[?]".toList).flatten = none := by
  refine ⟨⟨by decide, rfl⟩, rfl⟩

example : Bare (fun a : ℕ => a == 0) (.list [.val 1, .list [.val 0]]) ∧
    ¬ Bare (fun a : ℕ => a == 0) (.list [.val 1, .obj [("a".toList, .val 0)]]) := by
  refine ⟨.item (x := .list [.val 0]) (by simp) (.item (x := .val 0) (by simp) (.val rfl)), fun h => ?_⟩
  cases h with
  | item hx hb =>
    simp only [List.mem_cons, List.not_mem_nil, or_false] at hx
    rcases hx with rfl | rfl
    · cases hb with | val h => cases h
    · cases hb

/-- C74 fails for files with an undecodable line after the first thousand: they are recognised and cannot be read. -/
theorem C74_late_fails (bad : A → Bool) (loads : Line → Option (J A)) (l : Line) (hne : l ≠ []) (h : Counts loads l) (n : ℕ) (hn : 1000 ≤ n) :
    isMatch loads (List.replicate n (some l) ++ [none]) = true ∧
    loadFile bad loads (List.replicate n (some l) ++ [none]) = .error .valueError := by
  have hm : (List.replicate n (some l) ++ [none]).mapM id = none := mapM_id_none (by simp)
  constructor
  · unfold isMatch
    rw [hm]
    show (match scan loads 1000 0 0 (List.replicate n (some l) ++ [none]) with
      | none => false
      | some (total, valid) => decide (total ≤ 2 * valid)) = true
    rw [scan_take _ _ _ _ _ (by simp; omega), List.take_append_of_le_length (by simpa using hn), List.take_replicate,
      Nat.min_eq_left hn, ← List.map_replicate, scan_spec]
    have hf : ((List.replicate 1000 l).take 1000).filter (fun l => decide (Counts loads l)) = List.replicate 1000 l := by
      rw [List.take_replicate, Nat.min_self, List.filter_eq_self]
      intro x hx
      rw [List.eq_of_mem_replicate hx]
      simpa using h
    rw [hf, List.length_replicate]
    rfl
  · unfold loadFile
    rw [hm]
    show (readJson (lineLoads bad loads) (List.replicate n (some l) ++ [none])).map Loaded.lines = _
    have : ∀ (n k : ℕ) (acc : List (J A)), readLoop (lineLoads bad loads) k acc (List.replicate n (some l) ++ [none]) = .error .valueError := by
      intro n
      induction n with
      | zero => intro k acc; rfl
      | succ n ih =>
        intro k acc
        rw [List.replicate_succ, List.cons_append]
        cases l with
        | nil => exact absurd rfl hne
        | cons c cs =>
          rw [readLoop]
          · cases lineLoads bad loads (c :: cs) with
            | none => exact ih _ _
            | some j => exact ih _ _
          · simp
    unfold readJson
    rw [this]
    rfl

example : Counts loads "{\"a\":1}".toList := by decide +kernel

/-- C74: a text in memory is read up to its first empty line. -/
theorem C74_text (bad : A → Bool) (brk : Char → Bool) (loads read : Line → Option (J A)) (hr : Reads bad loads read) (text : List Char)
    (hw : loads text = none) :
    loadText bad brk loads text =
      if documents read (upToBlank (splitLines brk text)) = [] ∧ upToBlank (splitLines brk text) ≠ [] then .error .valueError
      else .ok (.lines (documents read (upToBlank (splitLines brk text)))) := by
  unfold loadText
  rw [hw, lineLoads_eq hr]
  dsimp only
  rw [readJson_spec]
  split_ifs <;> rfl

/-- C74, a text in memory without empty lines and other line ends: it is read like a file. -/
theorem C74_same_partial (bad : A → Bool) (loads : Line → Option (J A)) (text : List Char) (hend : ∀ l, loads (l ++ ['\n']) = loads l)
    (hblank : ∀ l ∈ fileLines (· == '\n') text, l ≠ ['\n']) (hsep : ∀ c ∈ text, c ∈ pythonBreaks → c = '\n') :
    loadText bad (fun c => decide (c ∈ pythonBreaks)) loads text = loadFile bad loads ((fileLines (· == '\n') text).map some) := by
  have hbrk : ∀ t : List Char, (∀ c ∈ t, c ∈ pythonBreaks → c = '\n') →
      fileLines (fun c => decide (c ∈ pythonBreaks)) t = fileLines (· == '\n') t := by
    intro t
    induction t with
    | nil => intro _; rfl
    | cons c cs ih =>
      intro h
      have hc : decide (c ∈ pythonBreaks) = (c == '\n') := by
        by_cases h' : c = '\n'
        · subst h'; decide +kernel
        · rw [decide_eq_false (fun hm => h' (h c List.mem_cons_self hm))]
          simpa using h'
      rw [fileLines, fileLines, ih fun c hc => h c (List.mem_cons_of_mem _ hc), hc]
  cases hw : loads text with
  | some j => rw [(C74_document bad loads text _ j hw).2.1, (C74_document bad loads text _ j hw).1]
  | none =>
    rw [C74_text _ _ _ _ (lineLoads_reads bad loads) _ hw, C74_lines _ _ _ (lineLoads_reads bad loads) _ _ hw]
    -- bodies of the lines
    have hshape : ∀ l ∈ fileLines (· == '\n') text, ∃ b, b ≠ [] ∧ l.filter (fun c => !decide (c ∈ pythonBreaks)) = b ∧ loads l = loads b := by
      intro l hl
      have hsub : ∀ c ∈ l, c ∈ text := by
        intro c hc
        rw [← fileLines_flatten (· == '\n') text]
        exact List.mem_flatten.2 ⟨l, hl, hc⟩
      have hkeep : ∀ b : List Char, (∀ c ∈ b, (c == '\n') = false) → (∀ c ∈ b, c ∈ text) →
          b.filter (fun c => !decide (c ∈ pythonBreaks)) = b := by
        intro b hb hbt
        rw [List.filter_eq_self]
        intro c hc
        have h1 := hb c hc
        have h2 := hsep c (hbt c hc)
        by_cases hm : c ∈ pythonBreaks
        · rw [h2 hm] at h1; simp at h1
        · simpa using hm
      rcases fileLines_shape (· == '\n') text l hl with h1 | ⟨b, e, h1, h2, h3⟩
      · exact ⟨l, fileLines_ne_nil _ _ l hl, hkeep l h1 hsub, rfl⟩
      · have he : e = '\n' := by simpa using h2
        subst he
        subst h1
        refine ⟨b, ?_, ?_, hend b⟩
        · intro hb
          rw [hb] at hl
          exact hblank _ hl rfl
        · rw [List.filter_append, hkeep b h3 fun c hc => hsub c (List.mem_append_left _ hc)]
          simp [pythonBreaks]
    have hls : ∀ l ∈ splitLines (fun c => decide (c ∈ pythonBreaks)) text, l ≠ [] := by
      intro l hl
      unfold splitLines at hl
      rw [hbrk text hsep] at hl
      obtain ⟨l', hl', rfl⟩ := List.mem_map.1 hl
      obtain ⟨b, h1, h2, -⟩ := hshape l' hl'
      rw [h2]
      exact h1
    rw [upToBlank_self hls]
    have hdocs : documents (lineLoads bad loads) (splitLines (fun c => decide (c ∈ pythonBreaks)) text) =
        documents (lineLoads bad loads) (fileLines (· == '\n') text) := by
      unfold documents splitLines
      rw [hbrk text hsep, List.filterMap_map]
      apply List.filterMap_congr
      intro l hl
      obtain ⟨b, -, h2, h3⟩ := hshape l hl
      show lineLoads bad loads (l.filter _) = _
      unfold lineLoads
      rw [h2, h3]
    have hne : splitLines (fun c => decide (c ∈ pythonBreaks)) text ≠ [] ↔ text ≠ [] := by
      unfold splitLines
      rw [Ne, List.map_eq_nil_iff]
      constructor
      · intro h h'; rw [h'] at h; exact h rfl
      · intro h h'
        have := fileLines_flatten (fun c => decide (c ∈ pythonBreaks)) text
        rw [h'] at this
        exact h this.symm
    rw [hdocs]
    simp only [hne]

example : (∀ l ∈ fileLines (· == '\n') "{\"a\":1}\nno\n{\"a\":2}".toList, l ≠ ['\n']) ∧
    ∀ c ∈ "{\"a\":1}\nno\n{\"a\":2}".toList, c ∈ pythonBreaks → c = '\n' := by decide +kernel

/-- How many documents were read. -/
def size : Except Err (Loaded A) → Option ℕ
  | .ok (.doc _) => some 1
  | .ok (.lines js) => some js.length
  | .error _ => none

/-- C74 fails for a text in memory with an empty line: what follows is left out. -/
theorem C74_blank_fails :
    size (loadText (fun _ => false) (fun c => decide (c ∈ pythonBreaks)) loads "{\"a\":1}\n\n{\"a\":2}\n".toList) = some 1 ∧
    size (loadFile (fun _ => false) loads ((fileLines (· == '\n') "{\"a\":1}\n\n{\"a\":2}\n".toList).map some)) = some 2 ∧
    size (loadText (fun _ => false) (fun c => decide (c ∈ pythonBreaks)) loads "\n{\"a\":1}\n{\"a\":2}\n".toList) = some 0 := by decide +kernel

/-- C74 fails for a text in memory with a line separator in a value: the document is left out. -/
theorem C74_separator_fails :
    size (loadText (fun _ => false) (fun c => decide (c ∈ pythonBreaks)) loads (docs[2]! ++ '\n' :: docs[0]!)) = some 1 ∧
    size (loadFile (fun _ => false) loads ((fileLines (· == '\n') (docs[2]! ++ '\n' :: docs[0]!)).map some)) = some 2 := by decide +kernel

/-- C74: items of different types are refused, whatever was read. -/
theorem C74_mixed (same : J A → J A → Bool) (j : J A) (js : List (J A)) (h : ∃ x ∈ j :: js, same j x = false) :
    frame same (.lines (j :: js)) = .error .valueError ∧ frame same (.doc (.list (j :: js))) = .error .valueError := by
  obtain ⟨x, hx, hf⟩ := h
  have hall : ¬ (j :: js).all (same j) = true := by
    rw [List.all_eq_true]
    intro h
    rw [h x hx] at hf
    cases hf
  constructor
  · show toFrame same true (_ :: _) = _
    rw [toFrame, if_neg hall]
  · show toFrame same false (_ :: _) = _
    rw [toFrame, if_neg hall]

/-- C74 fails for documents on lines: in a list their inner dictionaries become columns, on lines they do not. -/
theorem C74_frame_fails (same : J A → J A → Bool) (fields : List (Key × J A)) (js : List (J A))
    (h : (J.obj fields :: js).all (same (.obj fields)) = true) :
    frame same (.doc (.list (.obj fields :: js))) = .ok (.normalized (.obj fields :: js)) ∧
    frame same (.lines (.obj fields :: js)) = .ok (.plain (.obj fields :: js)) := by
  constructor
  · show toFrame same false (_ :: _) = _
    rw [toFrame, if_pos h]; rfl
  · show toFrame same true (_ :: _) = _
    rw [toFrame, if_pos h]; rfl

example : ([J.obj [], J.obj [("a".toList, .val 1)]] : List (J ℕ)).all (fun y => y.isObj) = true := rfl

/-- C74: a single document makes a table of one row, as in a list of one. -/
theorem C74_single (same : J A → J A → Bool) (fields : List (Key × J A)) (h : same (.obj fields) (.obj fields) = true) :
    frame same (.doc (.obj fields)) = .ok (.normalized [.obj fields]) ∧
    frame same (.doc (.obj fields)) = frame same (.doc (.list [.obj fields])) := by
  have hall : ([J.obj fields] : List (J A)).all (same (.obj fields)) = true := by simp [h]
  refine ⟨?_, rfl⟩
  show toFrame same false [_] = _
  rw [toFrame, if_pos hall]; rfl

example : (fun x y : J ℕ => x.isObj == y.isObj) (.obj []) (.obj []) = true := rfl

/-- C74 fails for a file with a single number: it is recognised and read, and gives no data. -/
theorem C74_scalar_fails (bad : A → Bool) (same : J A → J A → Bool) (loads : Line → Option (J A)) (text : List Char) (a : A) (hw : loads text = some (.val a)) :
    isMatch loads ((fileLines (· == '\n') text).map some) = true ∧
    ∃ x, loadFile bad loads ((fileLines (· == '\n') text).map some) = .ok x ∧ frame same x = .error .typeError :=
  ⟨(C74_document bad loads text _ _ hw).2.2, _, (C74_document bad loads text _ _ hw).1, rfl⟩

example : loads "5\n".toList = some (.val "5".toList) := by rfl

/-- C74: a text in memory given as the data of a Parquet file has one row for each document of the lines before the first empty one;
documents of different types are refused. -/
theorem C74_parquet_text (bad : A → Bool) (same : J A → J A → Bool) (brk : Char → Bool) (loads read : Line → Option (J A))
    (hr : Reads bad loads read) (text : List Char) (j : J A) (js : List (J A))
    (hd : documents read (upToBlank (splitLines brk text)) = j :: js) :
    parquetText bad same brk loads text =
      if ∃ x ∈ j :: js, same j x = false then .error .valueError else .ok (.plain (j :: js)) := by
  unfold parquetText
  rw [lineLoads_eq hr, readJson_spec, hd, if_neg (by simp)]
  dsimp only
  rw [toFrame]
  by_cases h : ∃ x ∈ j :: js, same j x = false
  · rw [if_pos h, if_neg]
    rw [List.all_eq_true]
    obtain ⟨x, hx, hf⟩ := h
    intro h'
    rw [h' x hx] at hf
    cases hf
  · rw [if_neg h, if_pos]
    · simp
    · rw [List.all_eq_true]
      intro x hx
      cases hs : same j x with
      | true => rfl
      | false => exact absurd ⟨x, hx, hs⟩ h

example : (documents loads (upToBlank (splitLines (· == '\n') "{\"a\":1}\nno\n{\"a\":2}\n\n5".toList))).length = 2 := by decide +kernel

/-- C74: without any document the text is refused, unless it has no line or begins with an empty one: then the table is empty. -/
theorem C74_parquet_none (bad : A → Bool) (same : J A → J A → Bool) (brk : Char → Bool) (loads read : Line → Option (J A))
    (hr : Reads bad loads read) (text : List Char) (hd : documents read (upToBlank (splitLines brk text)) = []) :
    parquetText bad same brk loads text =
      if upToBlank (splitLines brk text) = [] then .ok .empty else .error .valueError := by
  unfold parquetText
  rw [lineLoads_eq hr, readJson_spec, hd]
  by_cases h : upToBlank (splitLines brk text) = []
  · rw [if_neg (by simp [h]), if_pos h]; rfl
  · rw [if_pos ⟨rfl, h⟩, if_neg h]

example : documents loads (upToBlank (splitLines (· == '\n') "no\n".toList)) = [] ∧
    upToBlank (splitLines (· == '\n') "no\n".toList) ≠ [] ∧
    upToBlank (splitLines (· == '\n') "\n{\"a\":1}".toList) = [] := ⟨rfl, by decide +kernel, by decide +kernel⟩

/-- C74 fails for a list of documents on one line given as the data of a Parquet file: it makes one row, where the reader of JSON makes
one of each item. -/
theorem C74_parquet_list_fails (bad : A → Bool) (same : J A → J A → Bool) (brk : Char → Bool) (loads : Line → Option (J A))
    (text : List Char) (xs : List (J A)) (hl : loads text = some (.list xs)) (hb : ¬ Bare bad (.list xs)) (hne : text ≠ [])
    (hbrk : ∀ c ∈ text, brk c = false) (hs : same (.list xs) (.list xs) = true) :
    parquetText bad same brk loads text = .ok (.plain [.list xs]) ∧
    (loadText bad brk loads text).bind (frame same) = toFrame same false xs := by
  have hf : ∀ t : List Char, t ≠ [] → (∀ c ∈ t, brk c = false) → fileLines brk t = [t] := by
    intro t
    induction t with
    | nil => intro h; exact absurd rfl h
    | cons c cs ih =>
      intro _ h
      rw [fileLines, h c List.mem_cons_self]
      cases cs with
      | nil => rfl
      | cons d ds =>
        rw [ih (by simp) fun x hx => h x (List.mem_cons_of_mem _ hx)]
        rfl
  have hsl : splitLines brk text = [text] := by
    unfold splitLines
    rw [hf text hne hbrk, List.map_singleton, List.filter_eq_self.2]
    intro c hc
    rw [hbrk c hc]; rfl
  have hu : upToBlank [text] = [text] := upToBlank_self (by simpa using hne)
  constructor
  · have hd : documents (lineLoads bad loads) (upToBlank (splitLines brk text)) = [.list xs] := by
      rw [hsl, hu]
      unfold documents
      rw [List.filterMap_cons_some ((lineLoads_reads bad loads text _).2 ⟨hl, hb⟩), List.filterMap_nil]
    rw [C74_parquet_text bad same brk loads _ (lineLoads_reads bad loads) text _ _ hd, if_neg]
    rintro ⟨x, hx, h⟩
    rw [List.mem_singleton.1 hx, hs] at h
    cases h
  · rw [(C74_document bad loads text brk _ hl).2.1]
    rfl

example : ¬ Bare (fun _ : ℕ => false) (.list [.obj [], .obj []]) := by
  intro h
  cases h with
  | item hx hb =>
    simp only [List.mem_cons, List.not_mem_nil, or_false] at hx
    rcases hx with rfl | rfl <;> cases hb

/-- C74: the conversion of texts changes nothing and fails exactly for texts that cannot be encoded and, on its own, for such keys and
values of a dictionary. -/
theorem C74_unicode (bad : A → Bool) (badKey : Key → Bool) (j : J A) :
    (Bare bad j → unicodeToStr bad badKey true j = .error .valueError) ∧
    (¬ Bare bad j → unicodeToStr bad badKey true j = .ok j) ∧
    (∀ fields, j = .obj fields →
      ((∃ kv ∈ fields, badKey kv.1 = true ∨ Bare bad kv.2) → unicodeToStr bad badKey false j = .error .valueError) ∧
      ((∀ kv ∈ fields, badKey kv.1 = false ∧ ¬ Bare bad kv.2) → unicodeToStr bad badKey false j = .ok j)) := by
  refine ⟨(unicodeToStr_spec bad badKey j).1, (unicodeToStr_spec bad badKey j).2, ?_⟩
  rintro fields rfl
  rw [unicodeToStr]
  have key : ∀ fs : List (Key × J A),
      ((∃ kv ∈ fs, badKey kv.1 = true ∨ Bare bad kv.2) → unicodeFields bad badKey fs = .error .valueError) ∧
      ((∀ kv ∈ fs, badKey kv.1 = false ∧ ¬ Bare bad kv.2) → unicodeFields bad badKey fs = .ok fs) := by
    intro fs
    induction fs with
    | nil => exact ⟨fun ⟨_, h, _⟩ => (by cases h), fun _ => rfl⟩
    | cons kv fs ih =>
      obtain ⟨k, x⟩ := kv
      rw [unicodeFields]
      constructor
      · rintro ⟨kv, hkv, h⟩
        by_cases hk : badKey k = true
        · rw [if_pos hk]
        · rw [if_neg hk]
          by_cases hx : Bare bad x
          · rw [(unicodeToStr_spec bad badKey x).1 hx]
          · rw [(unicodeToStr_spec bad badKey x).2 hx]
            dsimp only
            rcases List.mem_cons.1 hkv with rfl | hkv
            · rcases h with h | h
              · exact absurd h hk
              · exact absurd h hx
            · rw [ih.1 ⟨kv, hkv, h⟩]; rfl
      · intro h
        have h0 := h (k, x) List.mem_cons_self
        rw [if_neg (by rw [h0.1]; simp), (unicodeToStr_spec bad badKey x).2 h0.2]
        dsimp only
        rw [ih.2 fun kv hkv => h kv (List.mem_cons_of_mem _ hkv)]
        rfl
  constructor
  · intro h; rw [if_neg (by simp), (key fields).1 h]; rfl
  · intro h; rw [if_neg (by simp), (key fields).2 h]; rfl

end Verif.Props.JsonRead
