import Verif.Model.EncodedChars
import Verif.Spec.EncodedChars
import Verif.Props.CharLabels
import Verif.Props.CharProcess
import Mathlib.Tactic.SplitIfs

/-!
# Texts become rows of the codes of their characters
-/

namespace Verif.Props.EncodedChars

open Verif Verif.EncodedChars Verif.CharProcess Verif.Spec.CharProcess Verif.Spec.EncodedChars

/-- The map gives each character its code, an integer of 64 bits, and zero to all other characters. -/
def Means (m : EncMap) (code : Char → ℤ) : Prop :=
  ∀ c, (PyDict.get? m (.text (String.singleton c)) = some (.int (code c)) ∧ -(2 ^ 63) ≤ code c ∧ code c < 2 ^ 63) ∨
    (PyDict.get? m (.text (String.singleton c)) = none ∧ code c = 0)

theorem store_means {m : EncMap} {code : Char → ℤ} (h : Means m code) (parse : String → Option ℤ) (c : Char) :
    store parse (lookUp m (String.singleton c)) = .ok (code c) := by
  unfold lookUp PyDict.getD
  rcases h c with ⟨h1, h2, h3⟩ | ⟨h1, h2⟩
  · rw [h1]
    simp only [Option.getD_some, store]
    rw [if_pos ⟨h2, h3⟩]
  · rw [h1, h2]
    simp [store]

theorem mapM_ok {α β : Type} {f : α → Except Err β} {g : α → β} (l : List α) (h : ∀ a ∈ l, f a = .ok (g a)) :
    l.mapM f = .ok (l.map g) := by
  induction l with
  | nil => rfl
  | cons a l ih =>
    rw [List.mapM_cons, h a (by simp), ih fun x hx => h x (by simp [hx])]
    rfl

theorem row_eq (maxLen : ℕ) (code : Char → ℤ) (text : List Char) (h : text.length ≤ maxLen) :
    text.map code ++ (List.replicate maxLen 0).drop text.length = row maxLen code text := by
  apply List.ext_getElem?
  intro j
  simp only [row, List.getElem?_map, List.getElem?_append, List.length_map, List.drop_replicate, List.getElem?_replicate,
    List.getElem?_range]
  by_cases hj : j < text.length
  · simp [hj, Nat.lt_of_lt_of_le hj h]
  · rw [if_neg hj]
    by_cases hk : j < maxLen
    · rw [if_pos (by omega)]
      simp [hk, List.getElem?_eq_none (l := text) (Nat.le_of_not_lt hj)]
    · rw [if_neg (by omega)]
      simp [hk]

theorem encodeText_row {m : EncMap} {code : Char → ℤ} (h : Means m code) (parse : String → Option ℤ) {maxLen : ℕ}
    {text : List Char} (hl : text.length ≤ maxLen) : encodeText parse m maxLen text = .ok (row maxLen code text) := by
  unfold encodeText
  rw [mapM_ok text fun c _ => store_means h parse c]
  dsimp only
  rw [if_pos hl, row_eq maxLen code text hl]

/-- The samples are those the texts are split into without encoding; each becomes a row of the codes of its characters, filled with
zeros up to the length asked for, whatever the texts are.  No sample is too long for its row. -/
theorem C94_rows {p : Params Char} (hm : p.sep.length < p.maxLen) {m : EncMap} {code : Char → ℤ} (h : Means m code)
    (parse : String → Option ℤ) {size : ℕ} (hs : 0 < size) (texts : List (List Char)) :
    ∃ (batches : List (List (List Char))) (gs : List Bool),
      encode parse p m size texts = .ok (batches.map (List.map (row p.maxLen code))) ∧ Full size batches ∧
      (∀ b ∈ batches, ∀ x ∈ b, x ≠ [] ∧ x.length ≤ p.maxLen) ∧ gs.length = texts.length ∧
      batches.flatten.flatten = weave p.sep texts gs := by
  obtain ⟨bs, h1, h2, h3, gs, h4, h5⟩ := C55_samples hm () () hs (texts.map fun t => (t, ([] : List Unit)))
  refine ⟨bs.map (List.map (·.1)), gs, ?_, ?_, ?_, by simpa using h4, ?_⟩
  · unfold encode
    rw [h1]
    dsimp only
    rw [mapM_ok (g := fun b => b.map fun x => row p.maxLen code x.1) bs fun b hb =>
      mapM_ok b fun x hx => encodeText_row h parse (h3 b hb x hx).2]
    simp [List.map_map, Function.comp_def]
  · clear h1 h3 h5
    induction bs with
    | nil => trivial
    | cons b bs ih =>
      cases bs with
      | nil => exact ⟨by simpa using h2.1, by simpa using h2.2⟩
      | cons c cs => exact ⟨by simpa using h2.1, ih h2.2⟩
  · intro b hb x hx
    obtain ⟨b', hb', rfl⟩ := List.mem_map.mp hb
    obtain ⟨x', hx', rfl⟩ := List.mem_map.mp hx
    exact h3 b' hb' x' hx'
  · rw [← List.map_flatten, h5, List.map_map]
    congr 1
    exact List.map_id _

theorem front_row {maxLen : ℕ} {code : Char → ℤ} {text : List Char} (hl : text.length ≤ maxLen) (hz : ∀ c ∈ text, code c ≠ 0) :
    front (row maxLen code text) = text.map code := by
  rw [← row_eq maxLen code text hl, front, List.takeWhile_append_of_pos (by simpa using hz), List.drop_replicate]
  cases maxLen - text.length <;> simp [List.replicate_succ]

/-- If the map has a code other than zero for every character, and no two characters share one, the texts can be told from their rows:
equal rows are of equal samples, so that the same rows come of the same characters in the same order. -/
theorem C94_told {p : Params Char} (hm : p.sep.length < p.maxLen) {m : EncMap} {code : Char → ℤ} (h : Means m code)
    (parse : String → Option ℤ) {size : ℕ} (hs : 0 < size) {texts texts' : List (List Char)} {A : Char → Prop}
    (hz : ∀ c, A c → code c ≠ 0) (hi : ∀ c d, A c → A d → code c = code d → c = d)
    (ht : ∀ t ∈ texts, ∀ c ∈ t, A c) (ht' : ∀ t ∈ texts', ∀ c ∈ t, A c) (hsep : ∀ c ∈ p.sep, A c)
    (he : encode parse p m size texts = encode parse p m size texts') :
    ∃ gs gs', gs.length = texts.length ∧ gs'.length = texts'.length ∧ weave p.sep texts gs = weave p.sep texts' gs' := by
  obtain ⟨bs, gs, h1, -, h3, h4, h5⟩ := C94_rows hm h parse hs texts
  obtain ⟨bs', gs', h1', -, h3', h4', h5'⟩ := C94_rows hm h parse hs texts'
  refine ⟨gs, gs', h4, h4', ?_⟩
  have hw : ∀ (ts : List (List Char)) (g : List Bool), (∀ t ∈ ts, ∀ c ∈ t, A c) → ∀ c ∈ weave p.sep ts g, A c := by
    intro ts
    induction ts with
    | nil => intro g _ c hc; cases g <;> exact absurd hc (by simp [weave])
    | cons t ts ih =>
      intro g hg c hc
      cases g with
      | nil => exact absurd hc (by simp [weave])
      | cons b g =>
        simp only [weave, List.mem_append] at hc
        rcases hc with (hc | hc) | hc
        · cases b
          · exact absurd hc (by simp)
          · exact hsep c (by simpa using hc)
        · exact hg t (by simp) c hc
        · exact ih g (fun t ht => hg t (by simp [ht])) c hc
  have ha : ∀ b ∈ bs, ∀ x ∈ b, ∀ c ∈ x, A c := fun b hb x hx c hc =>
    hw texts gs ht c (by rw [← h5]; exact List.mem_flatten.mpr ⟨x, List.mem_flatten.mpr ⟨b, hb, hx⟩, hc⟩)
  have ha' : ∀ b ∈ bs', ∀ x ∈ b, ∀ c ∈ x, A c := fun b hb x hx c hc =>
    hw texts' gs' ht' c (by rw [← h5']; exact List.mem_flatten.mpr ⟨x, List.mem_flatten.mpr ⟨b, hb, hx⟩, hc⟩)
  rw [h1, h1'] at he
  injection he with he
  have hflat : (bs.flatten.map (row p.maxLen code)) = (bs'.flatten.map (row p.maxLen code)) := by
    rw [List.map_flatten, List.map_flatten, he]
  have hcodes : (bs.flatten.map (List.map code)) = (bs'.flatten.map (List.map code)) := by
    have hh := congrArg (List.map front) hflat
    rw [List.map_map, List.map_map] at hh
    have e1 : bs.flatten.map (front ∘ row p.maxLen code) = bs.flatten.map (List.map code) := by
      refine List.map_congr_left fun x hx => ?_
      obtain ⟨b, hb, hx⟩ := List.mem_flatten.mp hx
      exact front_row (h3 b hb x hx).2 fun c hc => hz c (ha b hb x hx c hc)
    have e2 : bs'.flatten.map (front ∘ row p.maxLen code) = bs'.flatten.map (List.map code) := by
      refine List.map_congr_left fun x hx => ?_
      obtain ⟨b, hb, hx⟩ := List.mem_flatten.mp hx
      exact front_row (h3' b hb x hx).2 fun c hc => hz c (ha' b hb x hx c hc)
    rw [e1, e2] at hh
    exact hh
  have hc := congrArg List.flatten hcodes
  rw [← List.map_flatten, ← List.map_flatten] at hc
  rw [h5, h5'] at hc
  have a1 := hw texts gs ht
  have a2 := hw texts' gs' ht'
  generalize weave p.sep texts gs = u at hc a1
  generalize weave p.sep texts' gs' = v at hc a2
  clear * - hc a1 a2 hi
  induction u generalizing v with
  | nil => cases v with
    | nil => rfl
    | cons => simp at hc
  | cons c u ih => cases v with
    | nil => simp at hc
    | cons d v =>
      simp only [List.map_cons, List.cons.injEq] at hc
      rw [hi c d (a1 c (by simp)) (a2 d (by simp)) hc.1,
        ih (fun x hx => a1 x (List.mem_cons_of_mem _ hx)) v hc.2 fun x hx => a2 x (List.mem_cons_of_mem _ hx)]

/-- Labels given as a list stay with their rows: the samples, their rows and their labels are those of training without encoding. -/
theorem C94_list {K L : Type} {p : Params Char} (hsep : p.sep ≠ []) (hm : p.sep.length < p.maxLen) {m : EncMap} {code : Char → ℤ}
    (h : Means m code) (parse : String → Option ℤ) {mapping : K → Option L} {f : K → L} {pad dflt : K} {size : ℕ} (hs : 0 < size)
    {texts : List (List Char)} {ls : List (List (ℤ × ℤ × K))} (hl : texts.length = ls.length)
    (hk : CharLabels.Known mapping f pad dflt (texts.zip ls)) :
    ∃ (batches : List (List (List (Char × L)))) (gs : List Bool),
      encodeLabelled parse p m mapping pad dflt size texts (.list ls) =
        .ok (batches.map fun b => (b.map fun x => row p.maxLen code (x.map (·.1)),
          b.map fun x => x.map (·.2) ++ List.replicate (p.maxLen - x.length) (f pad))) ∧
      Full size batches ∧ (∀ b ∈ batches, ∀ x ∈ b, x ≠ [] ∧ x.length ≤ p.maxLen) ∧ gs.length = texts.length ∧
      batches.flatten.flatten =
        weave (p.sep.map fun c => (c, f dflt))
          ((texts.zip ls).map fun x => Spec.CharLabels.labelled f dflt x.1 x.2) gs := by
  obtain ⟨bs, gs, h1, h2, h3, h4, h5⟩ := CharLabels.C56_rows_partial hsep hm hs hk
  refine ⟨bs, gs, ?_, h2, h3, by rw [h4, List.length_zip, hl, Nat.min_self], h5⟩
  unfold encodeLabelled
  rw [if_neg (by simpa [Labels.entities] using hl)]
  simp only [Labels.entities]
  rw [h1]
  dsimp only
  rw [List.mapM_map]
  refine mapM_ok bs fun b hb => ?_
  have hne : ls ≠ [] := by
    rintro rfl
    have ht : texts = [] := List.eq_nil_of_length_eq_zero (by simpa using hl)
    subst ht
    simp only [List.zip_nil_left, List.map_nil, weave] at h5
    obtain ⟨x, hx⟩ : ∃ x, x ∈ b := by
      cases b with
      | nil =>
        exfalso
        clear h1 h3 h4 h5
        induction bs with
        | nil => exact nomatch hb
        | cons b' bs ih =>
          cases bs with
          | nil => simp at hb; subst hb; exact absurd h2.1 (by simp)
          | cons c cs =>
            rcases List.mem_cons.mp hb with e | hb
            · subst e; have := h2.1; simp at this; omega
            · exact ih h2.2 hb
      | cons x _ => exact ⟨x, by simp⟩
    have hxe := (h3 b hb x hx).1
    apply hxe
    have := List.flatten_eq_nil_iff.mp h5
    exact this x (List.mem_flatten.mpr ⟨b, hb, hx⟩)
  have htr : (Labels.list ls).truth = .ok true := by
    cases ls with
    | nil => exact absurd rfl hne
    | cons => rfl
  unfold encodeBatch
  rw [htr]
  dsimp only [Function.comp_apply]
  rw [List.mapM_map, mapM_ok (g := fun x => row p.maxLen code (x.map (·.1))) b fun x hx => by
    simp only [Function.comp_apply, Spec.CharLabels.row]
    exact encodeText_row h parse (by simpa using (h3 b hb x hx).2)]
  simp [List.map_map, Function.comp_def, Spec.CharLabels.row]

/-- Labels given as an array, as documented, raise if there are two texts or more: training never sees a batch. -/
theorem C94_array {K L : Type} {p : Params Char} (hsep : p.sep ≠ []) (hm : p.sep.length < p.maxLen) (m : EncMap)
    (parse : String → Option ℤ) {mapping : K → Option L} {f : K → L} {pad dflt : K} {size : ℕ} (hs : 0 < size)
    {texts : List (List Char)} {ls : List (List (ℤ × ℤ × K))} (hl : texts.length = ls.length)
    (hk : CharLabels.Known mapping f pad dflt (texts.zip ls)) (h2 : 2 ≤ ls.length) (ht : ∃ t ∈ texts, t ≠ []) :
    encodeLabelled parse p m mapping pad dflt size texts (.array ls) = .error .valueError := by
  obtain ⟨bs, gs, h1, -, -, h4, h5⟩ := CharLabels.C56_rows_partial hsep hm hs hk
  unfold encodeLabelled
  rw [if_neg (by simpa [Labels.entities] using hl)]
  simp only [Labels.entities]
  rw [h1]
  dsimp only
  obtain ⟨t, ht, hne⟩ := ht
  cases bs with
  | nil =>
    exfalso
    simp only [List.flatten_nil] at h5
    have hnil : ∀ (sep : List (Char × L)) (ds : List (List (Char × L))) (gs : List Bool), gs.length = ds.length →
        weave sep ds gs = [] → ∀ d ∈ ds, d = [] := by
      intro sep ds
      induction ds with
      | nil => intro _ _ _ d hd; exact nomatch hd
      | cons d ds ih =>
        intro gs hg hw x hx
        cases gs with
        | nil => simp at hg
        | cons g gs =>
          simp only [weave, List.append_eq_nil_iff] at hw
          rcases List.mem_cons.mp hx with rfl | hx
          · exact hw.1.2
          · exact ih gs (by simpa using hg) hw.2 x hx
    obtain ⟨i, hi, rfl⟩ := List.mem_iff_getElem.mp ht
    have := hnil _ _ gs (by simpa using h4) h5.symm
      (Spec.CharLabels.labelled f dflt texts[i] (ls[i]'(hl ▸ hi)))
      (List.mem_map.mpr ⟨(texts[i], ls[i]'(hl ▸ hi)), by
        rw [List.mem_iff_getElem]
        exact ⟨i, by simp only [List.length_zip, ← hl, Nat.min_self]; exact hi, by simp⟩, rfl⟩)
    simp only [Spec.CharLabels.labelled, List.map_eq_nil_iff, List.zipIdx_eq_nil_iff] at this
    exact hne this
  | cons b bs =>
    have htr : (Labels.array ls).truth = .error .valueError := by
      match ls, h2 with
      | _ :: _ :: _, _ => rfl
    rw [List.map_cons, List.mapM_cons]
    unfold encodeBatch
    rw [htr]
    rfl

/-- The same if NumPy made an array of more dimensions of them, even for one text with one entity. -/
theorem C94_nested {K : Type} {ls : List (List (ℤ × ℤ × K))} (h : ∃ es ∈ ls, es ≠ []) {L : Type} (parse : String → Option ℤ)
    (m : EncMap) (maxLen : ℕ) (b : List (List Char × List L)) :
    encodeBatch parse m maxLen (.nested ls) b = .error .valueError := by
  have htr : (Labels.nested ls).truth = .error .valueError := by
    refine if_neg fun he => ?_
    obtain ⟨es, h1, h2⟩ := h
    exact h2 (List.flatten_eq_nil_iff.mp he es h1)
  unfold encodeBatch
  rw [htr]

/-- A single text without entities raises as well, whatever the map. -/
theorem C94_blank {K L : Type} (parse : String → Option ℤ) (m : EncMap) (maxLen : ℕ) {b : List (List Char × List L)} (hb : b ≠ []) :
    (∃ e, encodeBatch (K := K) parse m maxLen (.array [[]]) b = .error e) ∧
      ∃ e, encodeBatch (K := K) parse m maxLen (.nested [[]]) b = .error e := by
  cases b with
  | nil => exact absurd rfl hb
  | cons x b =>
    constructor
    · simp only [encodeBatch, Labels.truth, List.isEmpty_nil, Bool.not_true, List.head?_cons]
      cases store parse (lookUp m (String.ofList x.1)) <;> exact ⟨_, rfl⟩
    · simp only [encodeBatch, Labels.truth, List.flatten_cons, List.flatten_nil, List.append_nil, if_true, List.head?_cons]
      cases store parse (lookUp m (String.ofList x.1)) <;> exact ⟨_, rfl⟩

/-- Two texts with an entity each, labels as an array: the list is fine, the array raises. -/
theorem C94_array_fails :
    ∃ (p : Params Char) (m : EncMap) (texts : List (List Char)) (ls : List (List (ℤ × ℤ × ℕ))) (out : _),
      encodeLabelled (fun _ => none) p m some 0 1 8 texts (.list ls) = .ok out ∧
      encodeLabelled (fun _ => none) p m some 0 1 8 texts (.array ls) = .error .valueError := by
  refine ⟨⟨4, [' '], 0, false, fun c => c == ' '⟩, [(.text "a", .int 7), (.text "b", .int 9)], ["ab".toList, "ba".toList],
    [[(0, 1, 5)], []], [([[7, 9, 0, 0], [9, 7, 0, 0]], [[5, 1, 0, 0], [1, 1, 0, 0]])], CharLabels.ok_of_toOption (by decide +kernel), ?_⟩
  exact C94_array (f := id) (by decide) (by decide) _ _ (by decide) rfl
    ⟨rfl, rfl, by decide⟩ (by decide) ⟨"ab".toList, by decide, by decide⟩

/-- A character the map does not know is encoded as padding is: different texts have the same rows. -/
theorem C94_unknown_fails :
    ∃ (p : Params Char) (m : EncMap) (code : Char → ℤ) (texts texts' : List (List Char)), Means m code ∧
      p.sep.length < p.maxLen ∧ texts.length = texts'.length ∧ texts ≠ texts' ∧
      encode (fun _ => none) p m 8 texts = encode (fun _ => none) p m 8 texts' ∧
      ∃ out, encode (fun _ => none) p m 8 texts = .ok out := by
  refine ⟨⟨4, [' '], 0, false, fun c => c == ' '⟩, [(.text "a", .int 7)], fun c => if c = 'a' then 7 else 0, ["ab".toList],
    ["a".toList], ?_, by decide, rfl, by decide, ?_, ?_⟩
  · intro c
    by_cases h : c = 'a'
    · subst h
      exact Or.inl (by decide +kernel)
    · right
      dsimp only
      rw [if_neg h]
      refine ⟨?_, rfl⟩
      simp only [PyDict.get?]
      rw [if_neg]
      intro he
      injection he with he
      apply h
      have := congrArg String.toList he
      simpa using this.symm
  · exact (CharLabels.ok_of_toOption (x := [[[7, 0, 0, 0]]]) (by decide +kernel)).trans
      (CharLabels.ok_of_toOption (x := [[[7, 0, 0, 0]]]) (by decide +kernel)).symm
  · exact ⟨[[[7, 0, 0, 0]]], CharLabels.ok_of_toOption (by decide +kernel)⟩

/-- Which maps are accepted: those whose keys are all texts, and those whose values are all integers.  The constructor without a map,
which is its default, is refused. -/
theorem C94_accepts (m : Option EncMap) :
    accepts m = true ↔ ∃ d, m = some d ∧
      ((∀ kv ∈ d, ∃ s, kv.1 = .text s) ∨ ∀ kv ∈ d, (∃ i, kv.2 = .int i) ∨ ∃ b, kv.2 = .bool b) := by
  cases m with
  | none => simp [accepts]
  | some d =>
    simp only [accepts, Bool.or_eq_true, List.all_eq_true, Option.some.injEq, exists_eq_left']
    have hk : ∀ k : Key, k.isStr = true ↔ ∃ s, k = .text s := by
      intro k; cases k <;> simp [Key.isStr]
    have hv : ∀ v : Code, v.isInt = true ↔ (∃ i, v = .int i) ∨ ∃ b, v = .bool b := by
      intro v; cases v <;> simp [Code.isInt]
    simp only [hk, hv]

/-- A map is accepted although it does not map texts to integers, and encoding with it raises. -/
theorem C94_accepts_fails : ∃ (m : EncMap) (p : Params Char) (texts : List (List Char)), accepts (some m) = true ∧
    p.sep.length < p.maxLen ∧ encode (fun _ => none) p m 8 texts = .error .valueError := by
  refine ⟨[(.text "a", .str "first")], ⟨4, [' '], 0, false, fun c => c == ' '⟩, ["a".toList], by decide, by decide, ?_⟩
  have h : (match encode (fun _ => none) ⟨4, [' '], 0, false, fun c => c == ' '⟩ [(.text "a", .str "first")] 8 ["a".toList] with
    | .error .valueError => true
    | _ => false) = true := by decide +kernel
  generalize encode (fun _ => none) _ _ _ _ = r at h ⊢
  match r, h with
  | .error .valueError, _ => rfl

/-- Texts of two lengths, one of them too long for a row. -/
example : ∃ (p : Params Char) (m : EncMap) (code : Char → ℤ), p.sep.length < p.maxLen ∧ Means m code ∧
    (∀ c ∈ ['a', 'b', ' '], code c ≠ 0) ∧
    encode (fun _ => none) p m 2 ["ab ba".toList, "b".toList] = .ok [[[1, 2, 0], [3, 2, 1]], [[2, 0, 0]]] := by
  refine ⟨⟨3, [' '], 0, false, fun c => c == ' '⟩, [(.text "a", .int 1), (.text "b", .int 2), (.text " ", .int 3)],
    fun c => if c = 'a' then 1 else if c = 'b' then 2 else if c = ' ' then 3 else 0, by decide, ?_, by decide,
    CharLabels.ok_of_toOption (by decide +kernel)⟩
  intro c
  by_cases h1 : c = 'a'
  · subst h1; exact Or.inl (by decide +kernel)
  by_cases h2 : c = 'b'
  · subst h2; exact Or.inl (by decide +kernel)
  by_cases h3 : c = ' '
  · subst h3; exact Or.inl (by decide +kernel)
  · right
    dsimp only
    rw [if_neg h1, if_neg h2, if_neg h3]
    have hne : ∀ d s, c ≠ d → s.toList = [d] → Key.text s ≠ .text (String.singleton c) := by
      intro d s hd hs he
      injection he with he
      have := congrArg String.toList he
      rw [hs] at this
      exact hd (by simpa using this.symm)
    refine ⟨?_, rfl⟩
    simp only [PyDict.get?]
    rw [if_neg (hne 'a' _ h1 rfl), if_neg (hne 'b' _ h2 rfl), if_neg (hne ' ' _ h3 rfl)]

end Verif.Props.EncodedChars
