import Verif.Lemmas.Embedding

/-!
# C113: files of embeddings give every word its own vector

For all texts of files, all words and all vectors.
-/

namespace Verif.Props.Embedding

open Verif Verif.Embedding Verif.Spec.Embedding

variable {sp : Char → Bool}

/-- Every text has lines, and every line consists of words, in exactly one way. -/
theorem C113_parse (sp : Char → Bool) (text : Text) :
    (∃! ls, Lines text ls) ∧ ∃! ws, Consists sp text ws :=
  ⟨⟨linesFrom [] text, by simpa using lines_exist text [] (by simp), fun _ h => (lines_of h).symm⟩,
    ⟨fieldsFrom sp [] text, fields_iff.mp rfl, fun _ h => (fields_of h).symm⟩⟩

/-- Reading: every word that begins a line has the vector of the last such line, once. -/
theorem C113_read {file : Text} (hr : '\r' ∉ file) {ls : List Text} (hl : Lines file ls) {rows : List (Text × List Text)}
    (h : List.Forall₂ (fun l r => Consists sp l (r.1 :: r.2)) ls rows) :
    ∃ t, build sp file = .ok t ∧ (t.map Prod.fst).Nodup ∧ ∀ w v, (w, v) ∈ t ↔ vectorOf rows w = some v := by
  refine ⟨_, ?_, table_spec rows⟩
  unfold build
  rw [universal_self hr, lines_of hl, foldlM_rows h]

/-- A file with a line without words is refused. -/
theorem C113_blank {file : Text} (hr : '\r' ∉ file) {ls : List Text} (hl : Lines file ls) (h : ∃ l ∈ ls, Blank sp l) :
    build sp file = .error .indexError := by
  unfold build
  rw [universal_self hr, lines_of hl]
  obtain ⟨l, hm, hb⟩ := h
  have key : ∀ (ls : List Text) (t : Table), l ∈ ls → ls.foldlM (addLine sp) t = .error .indexError := by
    intro ls
    induction ls with
    | nil => intro t hm; simp at hm
    | cons m ms ih =>
      intro t hm
      rw [List.foldlM_cons]
      cases hf : fieldsFrom sp [] m with
      | nil =>
        have : addLine sp t m = .error .indexError := by unfold addLine; rw [hf]
        rw [this]
        rfl
      | cons w v =>
        have : addLine sp t m = .ok (put w v t) := by unfold addLine; rw [hf]
        rw [this]
        rcases List.mem_cons.mp hm with rfl | hm
        · rw [fields_of (.blank hb)] at hf
          cases hf
        · exact ih _ hm
  exact key ls [] hm

/-- The ends of lines of other systems make no difference. -/
theorem C113_newlines (ls : List Text) (h : ∀ l ∈ ls, '\r' ∉ l ∧ '\n' ∉ l) (e : Text) (he : e = ['\r', '\n'] ∨ e = ['\r']) :
    build sp (ls.map (· ++ e)).flatten = build sp (ls.map (· ++ ['\n'])).flatten := by
  have key : ∀ ls : List Text, (∀ l ∈ ls, '\r' ∉ l ∧ '\n' ∉ l) →
      universal (ls.map (· ++ e)).flatten = (ls.map (· ++ ['\n'])).flatten := by
    intro ls
    induction ls with
    | nil => intro _; rfl
    | cons l ls ih =>
      intro h
      have ih := ih (fun x hx => h x (by simp [hx]))
      have hl := h l (by simp)
      simp only [List.map_cons, List.flatten_cons, List.append_assoc]
      rw [universal_skip hl.1]
      congr 1
      rcases he with rfl | rfl
      · simp only [List.cons_append, List.nil_append]
        rw [universal, ih]
      · simp only [List.cons_append, List.nil_append]
        have : universal ('\r' :: (ls.map (· ++ ['\r'])).flatten) = '\n' :: universal (ls.map (· ++ ['\r'])).flatten := by
          cases ls with
          | nil => simp [universal]
          | cons m ms =>
            have hm := h m (by simp)
            cases m with
            | nil => simp [universal]
            | cons c m =>
              have hc : c ≠ '\n' := by rintro rfl; exact hm.2 (by simp)
              simp only [List.map_cons, List.flatten_cons, List.cons_append]
              rw [universal]
              intro cs hcs
              simp at hcs
              exact absurd hcs.1 hc
        rw [this, ih]
  have clean : universal (ls.map (· ++ ['\n'])).flatten = (ls.map (· ++ ['\n'])).flatten := by
    apply universal_self
    intro hx
    simp only [List.mem_flatten, List.mem_map] at hx
    obtain ⟨_, ⟨l, hl, rfl⟩, hc⟩ := hx
    simp at hc
    exact (h l hl).1 hc
  unfold build
  rw [key ls h, clean]

/-- A table that is written is read back as it was, if its words and numbers are without white space. -/
theorem C113_round (hu : Usual sp) {t : List (Text × List Text)} (hn : (t.map Prod.fst).Nodup)
    (h : ∀ r ∈ t, Word sp r.1 ∧ ∀ x ∈ r.2, Word sp x) : build sp (write t) = .ok t := by
  have hl : Lines (write t) (t.map lineOf) := by
    refine ⟨(write_eq t).symm, ?_, ?_, ?_⟩
    · intro l hl
      obtain ⟨r, _, rfl⟩ := List.mem_map.mp hl
      simp [lineOf]
    · intro l hl
      obtain ⟨r, hr, rfl⟩ := List.mem_map.mp hl
      exact clean_line (h r hr).1 (h r hr).2 '\n' hu.2.1 (by decide)
    · intro l hl
      obtain ⟨r, _, rfl⟩ := List.mem_map.mp (List.dropLast_subset _ hl)
      have : lineOf r = (r.1 ++ ' ' :: join r.2) ++ ['\n'] := by simp [lineOf]
      rw [this, List.getLast?_concat]
  have hr : '\r' ∉ write t := by
    rw [write_eq]
    intro hx
    simp only [List.mem_flatten, List.mem_map] at hx
    obtain ⟨_, ⟨r, hr, rfl⟩, hc⟩ := hx
    have e : lineOf r = (lineOf r).dropLast ++ ['\n'] := by
      have : lineOf r = (r.1 ++ ' ' :: join r.2) ++ ['\n'] := by simp [lineOf]
      rw [this, List.dropLast_concat]
    rw [e] at hc
    rcases List.mem_append.mp hc with hc | hc
    · exact clean_line (h r hr).1 (h r hr).2 '\r' hu.2.2 (by decide) hc
    · simp at hc
  have hf : List.Forall₂ (fun l r => Consists sp l (r.1 :: r.2)) (t.map lineOf) t := by
    rw [List.forall₂_map_left_iff]
    exact List.forall₂_same.mpr fun r hr => consists_line hu (h r hr).1 (h r hr).2
  unfold build
  rw [universal_self hr, lines_of hl, foldlM_rows hf, table_distinct hn]

/-- Every word that was read is without white space, whatever the file. -/
theorem C113_words {file : Text} {t : List (Text × List Text)} (h : build sp file = .ok t) :
    (t.map Prod.fst).Nodup ∧ ∀ r ∈ t, Word sp r.1 ∧ ∀ x ∈ r.2, Word sp x := by
  have word : ∀ (l : Text) (ws : List Text), Consists sp l ws → ∀ w ∈ ws, Word sp w := by
    intro l ws hc
    induction hc with
    | blank _ => simp
    | last _ hw => intro x hx; simp at hx; rw [hx]; exact hw
    | word _ hw _ _ ih =>
      intro x hx
      rcases List.mem_cons.mp hx with rfl | hx
      · exact hw
      · exact ih x hx
  have key : ∀ (ls : List Text) (a b : Table), ls.foldlM (addLine sp) a = .ok b → (a.map Prod.fst).Nodup →
      (∀ r ∈ a, Word sp r.1 ∧ ∀ x ∈ r.2, Word sp x) → (b.map Prod.fst).Nodup ∧ ∀ r ∈ b, Word sp r.1 ∧ ∀ x ∈ r.2, Word sp x := by
    intro ls
    induction ls with
    | nil =>
      intro a b h hn ha
      cases h
      exact ⟨hn, ha⟩
    | cons l ls ih =>
      intro a b h hn ha
      rw [List.foldlM_cons] at h
      cases hf : fieldsFrom sp [] l with
      | nil =>
        have : addLine sp a l = .error .indexError := by unfold addLine; rw [hf]
        rw [this] at h
        cases h
      | cons w v =>
        have e : addLine sp a l = .ok (put w v a) := by unfold addLine; rw [hf]
        rw [e] at h
        have hw := word l _ (fields_iff.mp hf)
        refine ih _ b h ?_ ?_
        · rw [keys_put]
          split
          · exact hn
          · rename_i hm
            rw [List.nodup_append]
            exact ⟨hn, by simp, fun x hx y hy => by simp at hy; subst hy; rintro rfl; exact hm hx⟩
        · rintro ⟨x, y⟩ hr
          rcases (mem_put hn x y).mp hr with ⟨rfl, rfl⟩ | ⟨_, hr⟩
          · exact ⟨hw _ (by simp), fun z hz => hw z (by simp [hz])⟩
          · exact ha _ hr
  exact key _ _ _ h (by simp) (by simp)

/-- The new file gives every word of the source, and no other, the vector that the analysis gave it, whatever the source. -/
theorem C113_created (hu : Usual sp) (pca : List (List Text) → Except Err (List (List Text))) {source : Text}
    {t : List (Text × List Text)} (ht : build sp source = .ok t) (h0 : t ≠ []) {rows : List (List Text)}
    (hp : pca (t.map Prod.snd) = .ok rows) (hlen : rows.length = t.length) (hw : ∀ v ∈ rows, ∀ x ∈ v, Word sp x) :
    ∃ file, create sp pca source = .ok file ∧ build sp file = .ok ((t.map Prod.fst).zip rows) := by
  obtain ⟨hn, ha⟩ := C113_words ht
  refine ⟨write ((t.map Prod.fst).zip rows), ?_, C113_round hu ?_ ?_⟩
  · unfold create
    have : t.isEmpty = false := by cases t <;> simp_all
    rw [ht]
    simp only [bind, Except.bind, this, hp, Bool.false_eq_true, if_false]
  · rw [List.map_fst_zip (by simp [hlen])]
    exact hn
  · rintro ⟨w, v⟩ hr
    obtain ⟨h1, h2⟩ := List.of_mem_zip hr
    obtain ⟨r, hr', rfl⟩ := List.mem_map.mp h1
    exact ⟨(ha r hr').1, hw v h2⟩

/-- Without lines, with a line without words, or if the analysis raises, no file is made. -/
theorem C113_refused (pca : List (List Text) → Except Err (List (List Text))) (source : Text) :
    (source = [] → create sp pca source = .error .valueError) ∧
    (∀ e, build sp source = .error e → create sp pca source = .error e) ∧
    (∀ t e, build sp source = .ok t → t ≠ [] → pca (t.map Prod.snd) = .error e → create sp pca source = .error e) := by
  refine ⟨by rintro rfl; rfl, fun e h => by simp [create, h, bind, Except.bind], ?_⟩
  intro t e ht h0 hp
  have : t.isEmpty = false := by cases t <;> simp_all
  simp [create, ht, this, hp, bind, Except.bind]

/-- Blanks, line feeds and carriage returns. -/
def white (c : Char) : Bool := c == ' ' || c == '\n' || c == '\r'

/-- A table with a blank as a word is not read back: its number becomes the word. -/
theorem C113_blank_word : build white (write [([' '], ["7".toList])]) = .ok [("7".toList, [])] := by decide +kernel

example : Usual white := ⟨rfl, rfl, rfl⟩

example : build white "a 1 2\nb 3  4 \na 5 6".toList = .ok [("a".toList, ["5".toList, "6".toList]), ("b".toList, ["3".toList, "4".toList])] ∧
    build white "a 1\n\nb 2\n".toList = .error .indexError ∧
    create white (fun m => .ok (m.map (List.take 1))) "a 1 2\r\nb 3 4".toList = .ok "a 1\nb 3\n".toList := by decide +kernel

example : Lines "a 1\nb".toList ["a 1\n".toList, "b".toList] := by unfold Lines; decide +kernel

example : vectorOf [("a".toList, ["1".toList]), ("b".toList, []), ("a".toList, ["2".toList])] "a".toList = some ["2".toList] := by
  decide +kernel

end Verif.Props.Embedding
