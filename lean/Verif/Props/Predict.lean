import Verif.Lemmas.Predict

/-!
# What a labeler says belongs to the texts and cells it was given (C92)
-/

namespace Verif.Props.Predict

open Verif Verif.Predict Verif.Spec.Predict Verif.Spec.Postprocess Verif.CharProcess

variable {V : Type}

/-! ### Data -/

/-- A table is taken row by row, whether it comes as a frame, from a reader or as a list of rows. -/
theorem C92_table {w : ℕ} {rows : List (List (Obj V))} (h : ∀ row ∈ rows, row.length = w) :
    ∃ data, RowMajor w rows data ∧ forPredict (.data (.frame w rows)) = .ok data ∧ forPredict (.reader (.frame w rows)) = .ok data ∧
      ((∀ row ∈ rows, ∀ x ∈ row, x.parts = none) → forPredict (.data (.list (rows.map .seq))) = .ok data) := by
  refine ⟨rows.flatten, rowMajor_flatten h, rfl, rfl, fun hx => ?_⟩
  unfold forPredict arrayOf
  dsimp only
  cases hr : rows with
  | nil => rfl
  | cons a t =>
    rw [← hr]
    have hne : rows ≠ [] := by rw [hr]; exact List.cons_ne_nil _ _
    show Except.map _ (Except.ok (nested (30 + 1) _ _)) = _
    unfold nested
    rw [common_rows hne h, opened_rows]
    dsimp only
    have : common rows.flatten = none := by
      cases hf : rows.flatten with
      | nil => rfl
      | cons y ys =>
        apply common_scalar
        have hy : y ∈ rows.flatten := by rw [hf]; simp
        obtain ⟨row, h1, h2⟩ := List.mem_flatten.1 hy
        exact hx row h1 y h2
    rw [nested_stop this]
    rfl

/-- A column is taken as it is, as a list, a series or an array. -/
theorem C92_column (xs : List (Obj V)) :
    forPredict (.data (.series xs)) = .ok xs ∧ forPredict (.data (.array [xs.length] xs)) = .ok xs ∧
      ((∀ x ∈ xs, x.parts = none) → forPredict (.data (.list xs)) = .ok xs) := by
  refine ⟨rfl, rfl, fun h => ?_⟩
  unfold forPredict arrayOf
  dsimp only
  have : common xs = none := by
    cases xs with
    | nil => rfl
    | cons x xs => exact common_scalar (h x (by simp)) xs
  rw [nested_stop this]
  rfl

/-- Data is refused exactly if it is neither a list nor a series, a frame or an array. -/
theorem C92_refused (s : Source V) : ((∃ data, forPredict s = .ok data) ∧ s ≠ .data .nothing ∧ s ≠ .reader .nothing) ∨
    (s = .data .nothing ∨ s = .reader .nothing) ∧ forPredict s = .error .typeError := by
  rcases s with d | d <;> cases d <;> first
    | exact Or.inl ⟨⟨_, rfl⟩, nofun, nofun⟩
    | exact Or.inr ⟨Or.inr rfl, rfl⟩
    | exact Or.inr ⟨Or.inl rfl, rfl⟩

/-- Training keeps the shape, prediction has one dimension of the same values; any other purpose is refused. -/
theorem C92_purpose (s : Source V) (a : Arr V) (h : arrayOf s = .ok a) :
    validFormat "fit" s = .ok a ∧ (∃ b, validFormat "predict" s = .ok b ∧ b.values = a.values ∧ b.shape = [a.values.length] ∧
      forPredict s = .ok b.values) ∧ ∀ m, m ≠ "fit" → m ≠ "predict" → validFormat m s = .error .valueError := by
  refine ⟨?_, ⟨⟨[a.values.length], a.values⟩, ?_, rfl, rfl, ?_⟩, fun m h1 h2 => ?_⟩
  · unfold validFormat
    rw [if_pos (by simp), h]
    rfl
  · unfold validFormat
    rw [if_pos (by simp), h]
    rfl
  · unfold forPredict
    rw [h]
    rfl
  · unfold validFormat
    rw [if_neg (by simp [h1, h2])]

/-- Rows of different lengths are not taken cell by cell: every row is one text, the printed list. -/
theorem C92_ragged_fails {rows : List (List (Obj V))} {a b : List (Obj V)} (ha : a ∈ rows) (hb : b ∈ rows) (hab : a.length ≠ b.length) :
    forPredict (.data (.list (rows.map .seq))) = .ok (rows.map .seq) := by
  unfold forPredict arrayOf
  dsimp only
  rw [nested_stop (common_ragged ha hb hab)]
  rfl

/-- A row with two cells and one with one: two texts instead of three. -/
example : ∃ data, forPredict (V := ℕ) (.data (.list [.seq [.text ['a'], .text ['b']], .seq [.text ['c']]])) = .ok data ∧
    data.length = 2 := ⟨_, rfl, rfl⟩

example : ∃ data, forPredict (V := ℕ) (.data (.list [.seq [.text ['a'], .other 7], .seq [.text ['c'], .text ['d']]])) = .ok data ∧
    data = [.text ['a'], .other 7, .text ['c'], .text ['d']] := ⟨_, rfl, rfl⟩

/-! ### Texts -/

/-- The processors fit together, and there is a batch size. -/
structure Fits (L : Labeler V) (size : ℕ) : Prop where
  sep : L.params.sep.length < L.params.maxLen
  same : L.sepLen = L.params.sep.length
  pos : 0 < size

/-- A network that looks at each character by itself: every text gets the labels of its characters. -/
theorem C92_labels {L : Labeler V} {size : ℕ} (hf : Fits L size) {f : Char → ℕ} (hn : Charwise f L.net) (hw : L.word = none)
    (hner : L.ner = false) {src : Source V} {data : List (Obj V)} (hd : forPredict src = .ok data) :
    predictTexts L size src = .ok (.labels (data.map fun x => (L.str x).map f)) := by
  unfold predictTexts
  rw [hd]
  dsimp only
  rw [labelWith_charwise hf.sep hf.same hf.pos hn]
  dsimp only
  unfold wordsIf
  rw [hw]
  dsimp only
  unfold nerIf
  rw [hner]
  rfl

/-- And every text the entities that are the maximal runs of these labels other than the default and the padding label. -/
theorem C92_entities {L : Labeler V} {size : ℕ} (hf : Fits L size) {f : Char → ℕ} (hn : Charwise f L.net) (hw : L.word = none)
    (hner : L.ner = true) {d p : ℕ} (hd : PyDict.get? L.mapping L.dflt = some d) (hp : PyDict.get? L.mapping L.pad = some p)
    (hmap : ∀ c, f c ≠ p → f c ≠ d → ∃ k, (k, f c) ∈ L.mapping) {src : Source V} {data : List (Obj V)}
    (hs : forPredict src = .ok data) :
    ∃ out, predictTexts L size src = .ok (.entities out) ∧
      List.Forall₂ (fun x ents => ∃ runs, IsRuns (fun l => decide (l = p ∨ l = d)) ((L.str x).map f) runs ∧
        List.Forall₂ (fun r e => e.1 = r.1 ∧ e.2.1 = r.2.1 ∧ (e.2.2, r.2.2) ∈ L.mapping) runs ents) data out := by
  obtain ⟨out, ho⟩ := Postprocess.C57_ok L.mapping d p (data.map fun x => (L.str x).map f) (by
    intro sample h1 l h2 h3 h4
    obtain ⟨x, _, rfl⟩ := List.mem_map.1 h1
    obtain ⟨c, _, rfl⟩ := List.mem_map.1 h2
    exact hmap c h3 h4)
  refine ⟨out, ?_, ?_⟩
  · unfold predictTexts
    rw [hs]
    dsimp only
    rw [labelWith_charwise hf.sep hf.same hf.pos hn]
    dsimp only
    unfold wordsIf
    rw [hw]
    dsimp only
    unfold nerIf
    rw [hner, if_pos rfl, hd, hp, ho]
    rfl
  · exact List.forall₂_map_left_iff.1 (Postprocess.C57_entities L.mapping d p _ out ho)

/-- Whatever the network: every text gets as many labels as it has characters, or entities inside it, from left to right. -/
theorem C92_inside {L : Labeler V} {size : ℕ} (hf : Fits L size) (hn : Rows L.net) {src : Source V} {data : List (Obj V)}
    (hs : forPredict src = .ok data) (htext : L.word ≠ none → ∀ x ∈ data, x = .text (L.str x)) {said : Said}
    (h : predictTexts L size src = .ok said) :
    (∀ l, said = .labels l → l.map List.length = data.map fun x => (L.str x).length) ∧
      ∀ e, said = .entities e → List.Forall₂ (fun x ents => Inside (L.str x).length ents) data e := by
  obtain ⟨preds, h1, h2⟩ := labelWith_any hf.sep hf.same hf.pos hn data
  unfold predictTexts at h
  rw [hs] at h
  dsimp only at h
  rw [h1] at h
  dsimp only at h
  cases hw : wordsIf L data preds with
  | error e => rw [hw] at h; exact nomatch h
  | ok preds' =>
    rw [hw] at h
    dsimp only at h
    have hlen : preds'.map List.length = data.map fun x => (L.str x).length := by
      unfold wordsIf at hw
      cases hword : L.word with
      | none => rw [hword] at hw; injection hw with hw; rw [← hw, h2]
      | some sp =>
        rw [hword] at hw
        obtain ⟨separators, minPct⟩ := sp
        dsimp only at hw
        cases hg : PyDict.get? L.mapping L.dflt with
        | none => rw [hg] at hw; exact nomatch hw
        | some bg =>
          rw [hg] at hw
          dsimp only at hw
          have htext := htext (by rw [hword]; exact Option.some_ne_none _)
          unfold words at hw
          have hl : preds.length = data.length := by simpa using congrArg List.length h2
          have := Postprocess.mapM_forall₂ hw
          apply List.ext_getElem (by simp [← this.length_eq, hl])
          intro i k1 k2
          simp only [List.length_map] at k1 k2
          have hi := (List.forall₂_iff_get.1 this).2 i (by simp [hl, k2]) k1
          simp only [List.get_eq_getElem, List.getElem_zip] at hi
          have ht := htext data[i] (List.getElem_mem _)
          have hpl : preds[i].length = (L.str data[i]).length := by
            have := congrArg (fun l => l[i]?) h2
            simpa [hl, k2] using this
          rw [List.getElem_map, List.getElem_map]
          rw [ht] at hi
          unfold sepsOf at hi
          dsimp only at hi
          injection hi with hi
          rw [← hi, Postprocess.C58_length _ _ _ _ (by rw [List.length_map, hpl]), hpl]
    unfold nerIf at h
    cases hner : L.ner with
    | false =>
      rw [hner] at h
      injection h with h
      subst h
      refine ⟨fun l hl => ?_, fun e he => nomatch he⟩
      injection hl with hl
      rw [← hl]
      exact hlen
    | true =>
      rw [hner, if_pos rfl] at h
      cases hd : PyDict.get? L.mapping L.dflt with
      | none => rw [hd] at h; exact nomatch h
      | some d =>
        cases hp : PyDict.get? L.mapping L.pad with
        | none => rw [hd, hp] at h; exact nomatch h
        | some p =>
          rw [hd, hp] at h
          cases hto : Postprocess.toNer L.mapping (some d) (some p) preds' with
          | error e => rw [hto] at h; exact nomatch h
          | ok out =>
            rw [hto] at h
            injection h with h
            subst h
            have hc := Postprocess.C57_entities L.mapping d p preds' out hto
            have hl : preds'.length = data.length := by simpa using congrArg List.length hlen
            refine ⟨fun l hl => (nomatch hl), fun e he => ?_⟩
            injection he with he
            subst he
            rw [List.forall₂_iff_get]
            refine ⟨by rw [← hl]; exact hc.length_eq, fun i k1 k2 => ?_⟩
            obtain ⟨runs, r1, r2⟩ := (List.forall₂_iff_get.1 hc).2 i (by omega) k2
            have := inside_runs r1 r2
            have hpl : (preds'.get ⟨i, by omega⟩).length = (L.str (data.get ⟨i, k1⟩)).length := by
              have := congrArg (fun l => l[i]?) hlen
              simpa [hl, k1] using this
            rw [← hpl]
            exact this

/-- What is said does not depend on the size of batches, if the network looks at each character by itself. -/
theorem C92_batch {L : Labeler V} {size size' : ℕ} (hf : Fits L size) (hf' : Fits L size') {f : Char → ℕ} (hn : Charwise f L.net)
    (src : Source V) : predictTexts L size src = predictTexts L size' src := by
  unfold predictTexts
  cases hs : forPredict src with
  | error e => rfl
  | ok data =>
    dsimp only
    rw [labelWith_charwise hf.sep hf.same hf.pos hn, labelWith_charwise hf'.sep hf'.same hf'.pos hn]

/-- At the level of words, a word is what separators enclose: every word before a separator is said to be what most of its characters
are, if these are enough, and the background otherwise; so for a network that predicts each character by itself. -/
theorem C92_words {L : Labeler V} {size : ℕ} (hf : Fits L size) {f : Char → ℕ} (hn : Charwise f L.net) {seps : List Char} {pct : ℚ}
    (hw : L.word = some (seps, pct)) (hner : L.ner = false) {bg : ℕ} (hd : PyDict.get? L.mapping L.dflt = some bg)
    (texts : List (List Char)) (hstr : ∀ t, L.str (.text t) = t) :
    ∃ out, predictTexts L size (.data (.series (texts.map .text))) = .ok (.labels out) ∧
      List.Forall₂ (fun t l => l.length = t.length ∧
        (∀ a b, a ≤ b → (∀ i, a ≤ i → i < b → ∃ c, t[i]? = some c ∧ c ∉ seps) → (a = 0 ∨ ∃ c, t[a - 1]? = some c ∧ c ∈ seps) →
          (∃ c, t[b]? = some c ∧ c ∈ seps) →
          ∃ w, IsWordLabel pct bg (((t.map f).take b).drop a) w ∧ ∀ i, a ≤ i → i < b → l[i]? = some w) ∧
        ((∀ c ∈ t, c ∉ seps) → l = t.map f)) texts out := by
  refine ⟨texts.map fun t => Postprocess.wordLevel pct bg (t.map fun c => decide (c ∈ seps)) (t.map f), ?_, ?_⟩
  · unfold predictTexts
    have hs : forPredict (.data (.series (texts.map .text))) = .ok (texts.map (.text : List Char → Obj V)) := rfl
    rw [hs]
    dsimp only
    rw [labelWith_charwise hf.sep hf.same hf.pos hn]
    dsimp only
    unfold wordsIf
    rw [hw, hd]
    dsimp only
    have hwords : words seps pct bg (texts.map (.text : List Char → Obj V)) ((texts.map (.text : List Char → Obj V)).map fun x => (L.str x).map f) =
        .ok (texts.map fun t => Postprocess.wordLevel pct bg (t.map fun c => decide (c ∈ seps)) (t.map f)) := by
      unfold words
      clear hs
      induction texts with
      | nil => rfl
      | cons t ts ih =>
        simp only [List.map_cons, List.zip_cons_cons, List.mapM_cons]
        rw [ih, hstr]
        rfl
    rw [hwords]
    simp [nerIf, hner]
  · rw [List.forall₂_map_right_iff, List.forall₂_same]
    intro t _
    have hl : (t.map fun c => decide (c ∈ seps)).length = (t.map f).length := by simp
    refine ⟨by rw [Postprocess.C58_length _ _ _ _ hl]; simp, fun a b hab hin hstart hend => ?_, fun hnone => ?_⟩
    · refine Postprocess.C58_words_partial pct bg _ _ hl a b ⟨hab, fun i h1 h2 => ?_, ?_⟩ ?_
      · obtain ⟨c, hc, hm⟩ := hin i h1 h2
        simp [hc, hm]
      · rcases hstart with h | ⟨c, hc, hm⟩
        · exact .inl h
        · exact .inr (by simp [hc, hm])
      · obtain ⟨c, hc, hm⟩ := hend
        simp [hc, hm]
    · refine Postprocess.C58_single _ _ _ _ hl fun i hi => ?_
      have hi : i < t.length := by simpa using hi
      simp [List.getElem?_eq_getElem hi, hnone _ (List.getElem_mem hi)]

/-- What is said of texts together is what is said of them alone: for such a network, also with words and entities. -/
theorem C92_alone {L : Labeler V} {size : ℕ} (hf : Fits L size) {f : Char → ℕ} (hn : Charwise f L.net) {data : List (Obj V)} {said : Said}
    (h : predictTexts L size (.data (.series data)) = .ok said) (i : ℕ) (hi : i < data.length) :
    ∃ one, predictTexts L size (.data (.series [data[i]])) = .ok one ∧
      match said, one with
      | .labels l, .labels o => ∃ x, l[i]? = some x ∧ o = [x]
      | .entities e, .entities o => ∃ x, e[i]? = some x ∧ o = [x]
      | _, _ => False := by
  have start : ∀ xs : List (Obj V), predictTexts L size (.data (.series xs)) =
      match wordsIf L xs (xs.map fun x => (L.str x).map f) with
      | .error e => .error e
      | .ok preds => nerIf L preds := by
    intro xs
    unfold predictTexts
    rw [(C92_column xs).1]
    dsimp only
    rw [labelWith_charwise hf.sep hf.same hf.pos hn]
    dsimp only
    cases wordsIf L xs (xs.map fun x => (L.str x).map f) <;> rfl
  rw [start] at h ⊢
  cases hw : wordsIf L data (data.map fun x => (L.str x).map f) with
  | error e => rw [hw] at h; exact nomatch h
  | ok preds =>
    rw [hw] at h
    dsimp only at h
    -- the words of the text alone
    have h1 : ∃ x, preds[i]? = some x ∧ wordsIf L [data[i]] ([data[i]].map fun x => (L.str x).map f) = .ok [x] := by
      unfold wordsIf at hw ⊢
      cases hword : L.word with
      | none =>
        rw [hword] at hw
        injection hw with hw
        subst hw
        exact ⟨_, by rw [List.getElem?_map, List.getElem?_eq_getElem hi]; rfl, rfl⟩
      | some sp =>
        rw [hword] at hw
        obtain ⟨separators, minPct⟩ := sp
        dsimp only at hw ⊢
        cases hg : PyDict.get? L.mapping L.dflt with
        | none => rw [hg] at hw; exact nomatch hw
        | some bg =>
          rw [hg] at hw
          dsimp only at hw ⊢
          unfold words at hw ⊢
          have hfa := Postprocess.mapM_forall₂ hw
          have hlen := hfa.length_eq
          simp only [List.length_zip, List.length_map, Nat.min_self] at hlen
          have hx := (List.forall₂_iff_get.1 hfa).2 i (by simpa using hi) (by omega)
          refine ⟨_, List.getElem?_eq_getElem (by omega), ?_⟩
          simp only [List.get_eq_getElem, List.getElem_zip, List.getElem_map] at hx
          rw [List.map_cons, List.map_nil, List.zip_cons_cons, List.zip_nil_left, List.mapM_cons]
          dsimp only
          rw [hx]
          rfl
    obtain ⟨x, hx, hone⟩ := h1
    rw [hone]
    dsimp only
    unfold nerIf at h ⊢
    cases hner : L.ner with
    | false =>
      rw [hner] at h
      injection h with h
      subst h
      exact ⟨_, rfl, x, hx, rfl⟩
    | true =>
      rw [hner, if_pos rfl] at h
      rw [if_pos rfl]
      cases hd : PyDict.get? L.mapping L.dflt with
      | none => rw [hd] at h; exact nomatch h
      | some d =>
        cases hp : PyDict.get? L.mapping L.pad with
        | none => rw [hd, hp] at h; exact nomatch h
        | some p =>
          rw [hd, hp] at h
          cases hto : Postprocess.toNer L.mapping (some d) (some p) preds with
          | error e => rw [hto] at h; exact nomatch h
          | ok out =>
            rw [hto] at h
            injection h with h
            subst h
            unfold Postprocess.toNer at hto ⊢
            dsimp only at hto ⊢
            have hfa := Postprocess.mapM_forall₂ hto
            obtain ⟨hlt, rfl⟩ := List.getElem?_eq_some_iff.1 hx
            have ho := (List.forall₂_iff_get.1 hfa).2 i hlt (by rw [← hfa.length_eq]; exact hlt)
            simp only [List.get_eq_getElem] at ho
            rw [List.mapM_cons, ho]
            exact ⟨_, rfl, _, List.getElem?_eq_getElem _, rfl⟩

/-! ### Cells -/

/-- Every cell gets the label of its own characters: with numbers of labels. -/
theorem C92_cells_partial {L : Labeler V} {size : ℕ} (hf : Fits L size) {f : Char → ℕ} (hn : Charwise f L.net)
    (hc : ∀ i l, l ≠ [] → L.choice i l ∈ l) (hp : L.isPredLabels = false) {d p : ℕ} (hd : PyDict.get? L.mapping L.dflt = some d)
    (hpad : PyDict.get? L.mapping L.pad = some p) {src : Source V} {data : List (Obj V)} (hs : forPredict src = .ok data)
    (hclean : ∀ x ∈ data, Clean (L.str x)) :
    ∃ out, predictCells L size false src = .ok (.numbers out, none) ∧
      List.Forall₂ (fun x l => IsCellLabel d p ((L.str x).map f) l) data out := by
  have hlen : (data.map fun x => (L.str x).length) = (data.map fun x => (L.str x).map f).map List.length := by
    rw [List.map_map]; exact List.map_congr_left fun x _ => by simp
  refine ⟨cellLabels L d p (data.map fun x => (L.str x).length) (data.map fun x => (L.str x).map f), ?_, ?_⟩
  · unfold predictCells
    rw [hs]
    dsimp only
    rw [labelWith_clean hclean, labelWith_charwise hf.sep hf.same hf.pos hn]
    dsimp only
    unfold judged
    rw [hd, hpad]
    dsimp only
    unfold confsIf
    rw [if_neg (by decide)]
    dsimp only
    unfold namesIf
    rw [hp]
    rfl
  · rw [hlen]
    exact List.forall₂_map_left_iff.1 (cellLabels_spec hc d p (data.map fun x => (L.str x).map f))

/-- And the name of that label, if every cell has a label other than padding, and a name for it; with the shares of the labels of its
characters as confidences. -/
theorem C92_names_partial {L : Labeler V} {size : ℕ} (hf : Fits L size) {f : Char → ℕ} (hn : Charwise f L.net)
    (hc : ∀ i l, l ≠ [] → L.choice i l ∈ l) (hp : L.isPredLabels = true) {d p : ℕ} (hd : PyDict.get? L.mapping L.dflt = some d)
    (hpad : PyDict.get? L.mapping L.pad = some p) {src : Source V} {data : List (Obj V)} (hs : forPredict src = .ok data)
    (hne : data ≠ []) (hclean : ∀ x ∈ data, Clean (L.str x)) (hlab : ∀ x ∈ data, ∃ c ∈ L.str x, f c ≠ p)
    (hmap : ∀ c, ∃ k, (k, f c) ∈ L.mapping) :
    ∃ names confs, predictCells L size true src = .ok (.names names, some confs) ∧
      List.Forall₂ (fun x n => ∃ w k, n = Postprocess.Name.name k ∧ (k, w) ∈ L.mapping ∧ IsCellLabel d p ((L.str x).map f) (some w))
        data names ∧
      List.Forall₂ (fun x row => row.length = LabelMap.numLabels L.mapping ∧ ∀ l, l < LabelMap.numLabels L.mapping →
        row[l]? = some (if l = p then 0 else ((((L.str x).map f).count l : ℕ) : ℚ) /
          ((((L.str x).map f).filter (· ≠ p)).length : ℚ))) data confs := by
  have hlen : (data.map fun x => (L.str x).length) = (data.map fun x => (L.str x).map f).map List.length := by
    rw [List.map_map]; exact List.map_congr_left fun x _ => by simp
  have hnum : ∀ c, f c < LabelMap.numLabels L.mapping := by
    intro c
    obtain ⟨k, hk⟩ := hmap c
    unfold LabelMap.numLabels
    have key : ∀ (l : List ℕ) (a x : ℕ), x ∈ l ∨ x ≤ a → x ≤ l.foldl max a := by
      intro l
      induction l with
      | nil => intro a x h; rcases h with h | h; · exact absurd h (by simp)
               · exact h
      | cons y l ih =>
        intro a x h
        refine ih (max a y) x ?_
        rcases h with h | h
        · rcases List.mem_cons.1 h with rfl | h
          · exact Or.inr (Nat.le_max_right _ _)
          · exact Or.inl h
        · exact Or.inr (Nat.le_trans h (Nat.le_max_left _ _))
    exact Nat.lt_succ_of_le (key _ 0 _ (Or.inl (List.mem_map.2 ⟨(k, f c), hk, rfl⟩)))
  -- the confidences
  have hconf : ∃ confs, cellConfs (LabelMap.numLabels L.mapping) p (data.map fun x => (L.str x).length)
      (data.map fun x => (L.str x).map f) = .ok confs := by
    unfold cellConfs
    have key : ∀ {A B : Type} (g : A → Except Err B) (l : List A), (∀ x ∈ l, ∃ y, g x = .ok y) → ∃ ys, l.mapM g = .ok ys := by
      intro A B g l hl
      induction l with
      | nil => exact ⟨[], rfl⟩
      | cons x l ih =>
        obtain ⟨y, hy⟩ := hl x (by simp)
        obtain ⟨ys, hys⟩ := ih fun x hx => hl x (by simp [hx])
        exact ⟨y :: ys, by rw [List.mapM_cons, hy, hys]; rfl⟩
    refine key _ _ fun x hx => Postprocess.C59_confidence_ok _ _ _ _ fun l hl => ?_
    obtain ⟨y, _, hy⟩ := List.mem_map.1 (List.of_mem_zip hx).1
    rw [← hy] at hl
    obtain ⟨c, _, rfl⟩ := List.mem_map.1 hl
    exact hnum c
  obtain ⟨confs, hconf⟩ := hconf
  -- the names
  have hcl := cellLabels_spec hc d p (data.map fun x => (L.str x).map f)
  rw [← hlen] at hcl
  replace hcl := List.forall₂_map_left_iff.1 hcl
  have hnames : ∃ names, Postprocess.vectorize ((cellLabels L d p (data.map fun x => (L.str x).length)
      (data.map fun x => (L.str x).map f)).map fun l => l.bind (Postprocess.reverse L.mapping)) = .ok names ∧
      List.Forall₂ (fun x n => ∃ w k, n = Postprocess.Name.name k ∧ (k, w) ∈ L.mapping ∧ IsCellLabel d p ((L.str x).map f) (some w))
        data names := by
    have step : ∀ x l, x ∈ data → IsCellLabel d p ((L.str x).map f) l →
        ∃ w k, l = some w ∧ Postprocess.reverse L.mapping w = some k ∧ (k, w) ∈ L.mapping := by
      intro x l hx hl
      cases l with
      | none =>
        obtain ⟨c, h1, h2⟩ := hlab x hx
        exact absurd (hl (f c) (List.mem_map_of_mem h1)) h2
      | some w =>
        obtain ⟨c, _, rfl⟩ := List.mem_map.1 hl.2.1
        cases hr : Postprocess.reverse L.mapping (f c) with
        | none =>
          obtain ⟨k, hk⟩ := hmap c
          exact absurd hk (Postprocess.reverse_none.mp hr k)
        | some k => exact ⟨f c, k, rfl, hr, Postprocess.reverse_some hr⟩
    generalize cellLabels L d p _ _ = labels at hcl
    clear hconf hlen hs hclean
    cases hcl with
    | nil => exact absurd rfl hne
    | @cons x l xs ls h1 h2 =>
      obtain ⟨w, k, rfl, hk, hk2⟩ := step x l (by simp) h1
      unfold Postprocess.vectorize
      rw [List.map_cons, Option.bind_some, hk]
      refine ⟨_, rfl, ?_⟩
      rw [List.map_cons]
      refine .cons ⟨w, k, rfl, hk2, h1⟩ ?_
      rw [List.map_map, List.forall₂_map_right_iff]
      have hstep : ∀ y ∈ xs, ∀ l, IsCellLabel d p ((L.str y).map f) l →
          ∃ w k, l = some w ∧ Postprocess.reverse L.mapping w = some k ∧ (k, w) ∈ L.mapping :=
        fun y hy l hl => step y l (by simp [hy]) hl
      clear step hlab hne h1
      induction h2 with
      | nil => exact .nil
      | @cons y l' ys ls' g1 _ ih =>
        refine .cons ?_ (ih fun z hz => hstep z (by simp [hz]))
        obtain ⟨w', k', rfl, hk', hk2'⟩ := hstep y (by simp) l' g1
        exact ⟨w', k', by simp [hk'], hk2', g1⟩
  obtain ⟨names, hnames, hspec⟩ := hnames
  refine ⟨names, confs, ?_, hspec, ?_⟩
  · unfold predictCells
    rw [hs]
    dsimp only
    rw [labelWith_clean hclean, labelWith_charwise hf.sep hf.same hf.pos hn]
    dsimp only
    unfold judged
    rw [hd, hpad]
    dsimp only
    unfold confsIf
    rw [if_pos rfl, hconf]
    dsimp only [Except.map]
    unfold namesIf
    rw [hp, if_pos rfl, hnames]
    rfl
  · unfold cellConfs at hconf
    have hfa := Postprocess.mapM_forall₂ hconf
    rw [List.forall₂_iff_get]
    have hl := hfa.length_eq
    simp only [List.length_zip, List.length_map, Nat.min_self] at hl
    refine ⟨hl, fun i k1 k2 => ?_⟩
    have := (List.forall₂_iff_get.1 hfa).2 i (by simpa using k1) k2
    simp only [List.get_eq_getElem, List.getElem_zip, List.getElem_map] at this
    have := Postprocess.C59_confidence _ _ _ _ _ this
    rw [List.take_of_length_le (by simp)] at this
    exact this

/-- A cell of a table is given its own name: the one at the place of the cell, row by row. -/
theorem C92_cell_partial {L : Labeler V} {size : ℕ} (hf : Fits L size) {f : Char → ℕ} (hn : Charwise f L.net)
    (hc : ∀ i l, l ≠ [] → L.choice i l ∈ l) (hp : L.isPredLabels = true) {d p : ℕ} (hd : PyDict.get? L.mapping L.dflt = some d)
    (hpad : PyDict.get? L.mapping L.pad = some p) {w : ℕ} {rows : List (List (Obj V))} (hw : ∀ row ∈ rows, row.length = w)
    (hne : rows ≠ []) (hpos : 0 < w) (hclean : ∀ row ∈ rows, ∀ x ∈ row, Clean (L.str x))
    (hlab : ∀ row ∈ rows, ∀ x ∈ row, ∃ c ∈ L.str x, f c ≠ p) (hmap : ∀ c, ∃ k, (k, f c) ∈ L.mapping) :
    ∃ names confs, predictCells L size true (.data (.frame w rows)) = .ok (.names names, some confs) ∧
      names.length = rows.length * w ∧ ∀ r row, rows[r]? = some row → ∀ c x, row[c]? = some x →
        ∃ u k, names[r * w + c]? = some (Postprocess.Name.name k) ∧ (k, u) ∈ L.mapping ∧ IsCellLabel d p ((L.str x).map f) (some u) := by
  obtain ⟨data, hrm, hdata, _, _⟩ := C92_table hw
  have hflat : data = rows.flatten := by
    have : forPredict (.data (.frame w rows)) = .ok rows.flatten := rfl
    rw [this] at hdata
    injection hdata with h
    exact h.symm
  have hin : ∀ x ∈ data, ∃ row ∈ rows, x ∈ row := fun x hx => List.mem_flatten.1 (hflat ▸ hx)
  have hdne : data ≠ [] := by
    intro h0
    have := hrm.1
    rw [h0, List.length_nil] at this
    exact absurd this.symm (Nat.mul_ne_zero (fun h => hne (List.length_eq_zero_iff.1 h)) (by omega))
  obtain ⟨names, confs, h1, h2, _⟩ := C92_names_partial hf hn hc hp hd hpad hdata hdne
    (fun x hx => let ⟨row, a, b⟩ := hin x hx; hclean row a x b) (fun x hx => let ⟨row, a, b⟩ := hin x hx; hlab row a x b) hmap
  have hlen := h2.length_eq
  refine ⟨names, confs, h1, by rw [← hlen, hrm.1], fun r row hr c x hx => ?_⟩
  have hcw : c < w := by
    rw [← hw row (List.mem_of_getElem? hr)]
    exact (List.getElem?_eq_some_iff.1 hx).1
  have hat := hrm.2 r row hr c hcw
  rw [hx] at hat
  obtain ⟨hlt, hval⟩ := List.getElem?_eq_some_iff.1 hat
  obtain ⟨u, k, e1, e2, e3⟩ := (List.forall₂_iff_get.1 h2).2 (r * w + c) hlt (by omega)
  refine ⟨u, k, ?_, e2, ?_⟩
  · rw [List.getElem?_eq_getElem (by omega)]
    exact congrArg some e1
  · simp only [List.get_eq_getElem, hval] at e3
    exact e3

/-- What is said of cells does not depend on the size of batches either. -/
theorem C92_cells_batch_partial {L : Labeler V} {size size' : ℕ} (hf : Fits L size) (hf' : Fits L size') {f : Char → ℕ}
    (hn : Charwise f L.net) (conf : Bool) {src : Source V} {data : List (Obj V)} (hs : forPredict src = .ok data)
    (hclean : ∀ x ∈ data, Clean (L.str x)) : predictCells L size conf src = predictCells L size' conf src := by
  unfold predictCells
  rw [hs]
  dsimp only
  rw [labelWith_clean hclean, labelWith_clean hclean, labelWith_charwise hf.sep hf.same hf.pos hn,
    labelWith_charwise hf'.sep hf'.same hf'.pos hn]

/-! ### A labeler, and what does not hold -/

/-- Numbers print as themselves, letters are names, digits dates, the mark between cells is padding. -/
def letters (c : Char) : ℕ := if c = Char.ofNat 1 then 0 else if c.isAlpha then 2 else if c.isDigit then 3 else 1

/-- Samples of at most twenty characters, joined by five marks. -/
def labeler0 : Labeler ℕ where
  str := fun
    | .text s => s
    | .other n => (toString n).toList
    | .seq _ => "list".toList
  params := ⟨20, List.replicate 5 (Char.ofNat 1), 1, false, fun c => c == ' '⟩
  sepLen := 5
  zero := []
  net := fun b => b.map fun x => x.map letters
  mapping := [("PAD", 0), ("UNKNOWN", 1), ("NAME", 2), ("DATE", 3)]
  dflt := "UNKNOWN"
  pad := "PAD"
  word := none
  ner := true
  isPredLabels := true
  choice := fun _ l => l.headD 0

/-- The hypotheses are met. -/
example : Fits labeler0 3 ∧ Charwise letters labeler0.net ∧ PyDict.get? labeler0.mapping labeler0.dflt = some 1 ∧
    PyDict.get? labeler0.mapping labeler0.pad = some 0 ∧ (∀ i l, l ≠ [] → labeler0.choice i l ∈ l) ∧
    ∀ c, ∃ k, (k, letters c) ∈ labeler0.mapping := by
  refine ⟨⟨by decide, rfl, by decide⟩, fun b => ⟨by simp [labeler0], fun i h1 h2 => by simp [labeler0]⟩, rfl, rfl, ?_, ?_⟩
  · intro i l hl
    cases l with
    | nil => exact absurd rfl hl
    | cons a t => simp [labeler0]
  · intro c
    unfold letters
    split_ifs
    · exact ⟨"PAD", by decide⟩
    · exact ⟨"NAME", by decide⟩
    · exact ⟨"DATE", by decide⟩
    · exact ⟨"UNKNOWN", by decide⟩

example : (predictTexts labeler0 3 (.data (.list [.text "al 12".toList, .other 2024, .text "".toList]))).toOption =
    some (.entities [[(0, 2, "NAME"), (3, 5, "DATE")], [(0, 4, "DATE")], []]) := by decide +kernel

example : (predictCells labeler0 2 true (.data (.frame 2 [[.text "ann".toList, .other 7], [.text "bo1".toList, .text "--".toList]]))).toOption =
    some (.names [.name "NAME", .name "DATE", .name "NAME", .name "UNKNOWN"],
      some [[0, 0, 1, 0], [0, 0, 0, 1], [0, 0, 2/3, 1/3], [0, 1, 0, 0]]) := by decide +kernel

/-- A zero at the end of a cell is dropped before the labels are predicted, but counted when they are matched: the cells after it get
labels of other characters. -/
theorem C92_zero_fails : ∃ data : List (Obj ℕ), (predictCells labeler0 2 false (.data (.list data))).toOption =
      some (.names [.name "NAME", .noneText, .noneText], none) ∧ data = [.text ['a', Char.ofNat 0], .text ['7'], .text ['b']] :=
  ⟨[.text ['a', Char.ofNat 0], .text ['7'], .text ['b']], by decide +kernel, rfl⟩

/-- Without the zero. -/
example : (predictCells labeler0 2 false (.data (.list [.text ['a'], .text ['7'], .text ['b']]))).toOption =
      some (.names [.name "NAME", .name "DATE", .name "NAME"], none) := by decide +kernel

/-- Numbers are labelled, but not by words: that raises. -/
theorem C92_numbers_fails (L : Labeler V) {size : ℕ} (hf : Fits L size) {f : Char → ℕ} (hn : Charwise f L.net) {d : ℕ}
    (hd : PyDict.get? L.mapping L.dflt = some d) (hw : L.word ≠ none) (v : V) :
    predictTexts L size (.data (.series [.other v])) = .error .typeError ∧
      ∃ said, predictTexts { L with word := none, ner := false } size (.data (.series [.other v])) = .ok said := by
  refine ⟨?_, _, C92_labels (L := { L with word := none, ner := false }) (size := size) ⟨hf.sep, hf.same, hf.pos⟩ hn rfl rfl
    (C92_column [.other v]).1⟩
  unfold predictTexts
  rw [(C92_column [Obj.other v]).1]
  dsimp only
  rw [labelWith_charwise hf.sep hf.same hf.pos hn]
  dsimp only
  unfold wordsIf
  cases hword : L.word with
  | none => exact absurd hword hw
  | some sp =>
    dsimp only
    rw [hd]
    rfl

/-- No texts give nothing, no cells raise. -/
theorem C92_empty_fails : (predictTexts labeler0 2 (.data (.list []))).toOption = some (.entities []) ∧
    (predictCells labeler0 2 false (.data (.list []))) = .error .valueError := ⟨by decide +kernel, rfl⟩

end Verif.Props.Predict
