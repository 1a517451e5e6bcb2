import Verif.Lemmas.Postprocess
import Mathlib.Data.List.Forall2
import Mathlib.Tactic.FieldSimp
import Mathlib.Tactic.Positivity

/-!
# Entities, words and cells (C57, C58, C59)
-/

namespace Verif.Postprocess

open Verif Verif.Spec.Postprocess

variable {K : Type}

/-! ### C57: entities -/

/-- The entities reported for a text are exactly its maximal runs of equal labels other than padding and default, from left to
right, named by the label mapping. -/
theorem C57_entities (mapping : List (K × ℕ)) (d p : ℕ) (preds : List (List ℕ)) (out : List (List (ℕ × ℕ × K)))
    (h : toNer mapping (some d) (some p) preds = .ok out) :
    List.Forall₂ (fun sample entities => ∃ runs, IsRuns (fun l => decide (l = p ∨ l = d)) sample runs ∧
      List.Forall₂ (fun r e => e.1 = r.1 ∧ e.2.1 = r.2.1 ∧ (e.2.2, r.2.2) ∈ mapping) runs entities) preds out := by
  unfold toNer at h
  dsimp only at h
  have hig : (fun l => l == p || l == d) = fun l => decide (l = p ∨ l = d) := by
    funext l; rw [Bool.eq_iff_iff]; simp
  rw [hig] at h
  refine (mapM_forall₂ h).imp ?_
  intro sample entities hs
  refine ⟨_, spans_runs _ sample, (mapM_forall₂ hs).imp ?_⟩
  intro r e hr
  unfold named at hr
  split at hr
  · rename_i k hk
    injection hr with hr
    subst hr
    exact ⟨rfl, rfl, reverse_some hk⟩
  · exact nomatch hr

/-- A text has only one list of runs, so that the entities are determined by it. -/
theorem C57_unique (ignore : ℕ → Bool) (sample : List ℕ) (o1 o2 : List (ℕ × ℕ × ℕ)) (h1 : IsRuns ignore sample o1)
    (h2 : IsRuns ignore sample o2) : o1 = o2 := runs_eq h1 h2

/-- Naming entities fails only for lack of a name of a label of the predictions, or of the default or padding label. -/
theorem C57_ok (mapping : List (K × ℕ)) (d p : ℕ) (preds : List (List ℕ))
    (h : ∀ sample ∈ preds, ∀ l ∈ sample, l ≠ p → l ≠ d → ∃ k, (k, l) ∈ mapping) :
    ∃ out, toNer mapping (some d) (some p) preds = .ok out := by
  have key : ∀ {α β : Type} (f : α → Except Err β) (l : List α), (∀ x ∈ l, ∃ y, f x = .ok y) → ∃ ys, l.mapM f = .ok ys := by
    intro α β f l hl
    induction l with
    | nil => exact ⟨[], rfl⟩
    | cons x l ih =>
      obtain ⟨y, hy⟩ := hl x (by simp)
      obtain ⟨ys, hys⟩ := ih fun x hx => hl x (by simp [hx])
      exact ⟨y :: ys, by rw [List.mapM_cons, hy, hys]; rfl⟩
  refine key _ _ fun sample hs => key _ _ fun r hr => ?_
  have hruns := (spans_runs (fun l => l == p || l == d) sample).run r hr
  have hmem : r.2.2 ∈ sample := List.mem_of_getElem? (hruns.2.1 r.1 (Nat.le_refl _) hruns.1)
  have hig := hruns.2.2
  simp only [Bool.or_eq_false_iff, beq_eq_false_iff_ne] at hig
  obtain ⟨k, hk⟩ := h sample hs r.2.2 hmem hig.1 hig.2
  unfold named
  split
  · exact ⟨_, rfl⟩
  · rename_i hn
    exact absurd hk (reverse_none.mp hn k)

/-- A text "1 1 0 2 2 2 1" with 0 the default. -/
example : toNer [("bg", 0), ("name", 1), ("date", 2), ("pad", 9)] (some 0) (some 9) [[1, 1, 0, 2, 2, 2, 1], []] =
    .ok [[(0, 2, "name"), (3, 6, "date"), (6, 7, "name")], []] := by decide +kernel

/-- Adjacent entities of the same label are reported as one: what was merged cannot be told from the result. -/
theorem C57_adjacent_fails : ∃ a b : List ℕ, spans (fun l => l == 0) (a ++ b) ≠
    spans (fun l => l == 0) a ++ (spans (fun l => l == 0) b).map (fun r => (r.1 + a.length, r.2.1 + a.length, r.2.2)) :=
  ⟨[1, 1], [1], by decide +kernel⟩

/-- Two names of one label: the entities bear the last of them. -/
theorem C57_alias_fails : ∃ mapping : List (String × ℕ), ("first", 1) ∈ mapping ∧
    toNer mapping (some 0) (some 9) [[1]] = .ok [[(0, 1, "second")]] :=
  ⟨[("bg", 0), ("first", 1), ("second", 1)], by simp, by decide +kernel⟩

/-! ### C58: words -/

/-- The predictions of a text stay as many. -/
theorem C58_length (minPct : ℚ) (bg : ℕ) (seps : List Bool) (preds : List ℕ) (h : seps.length = preds.length) :
    (wordLevel minPct bg seps preds).length = preds.length := (wordLevel_inv minPct bg seps preds h).1

/-- A word ended by a separator gets one label: the most frequent one among those with at least two characters and the required
share of the word, the background if there is none. -/
theorem C58_words_partial (minPct : ℚ) (bg : ℕ) (seps : List Bool) (preds : List ℕ) (h : seps.length = preds.length) (a b : ℕ)
    (hw : IsWord seps a b) (hb : seps[b]? = some true) :
    ∃ w, IsWordLabel minPct bg ((preds.take b).drop a) w ∧
      ∀ i, a ≤ i → i < b → (wordLevel minPct bg seps preds)[i]? = some w := (wordLevel_inv minPct bg seps preds h).2.1 a b hw hb

/-- The last word, if another precedes it: all but its last character get the label of the word. -/
theorem C58_last_partial (minPct : ℚ) (bg : ℕ) (seps : List Bool) (preds : List ℕ) (h : seps.length = preds.length) (a : ℕ)
    (h0 : 0 < a) (ha : a < preds.length) (hw : IsWord seps a preds.length) :
    ∃ w, IsWordLabel minPct bg (preds.drop a) w ∧
      (∀ i, a ≤ i → i + 1 < preds.length → (wordLevel minPct bg seps preds)[i]? = some w) ∧
      ((wordLevel minPct bg seps preds)[preds.length - 1]? = preds[preds.length - 1]? ∨
        (w = bg ∧ (wordLevel minPct bg seps preds)[preds.length - 1]? = some bg)) :=
  (wordLevel_inv minPct bg seps preds h).2.2.2.1 a h0 ha hw

/-- Separators keep their label, or get the background beside a word with the background. -/
theorem C58_separators (minPct : ℚ) (bg : ℕ) (seps : List Bool) (preds : List ℕ) (h : seps.length = preds.length) (i : ℕ)
    (hs : seps[i]? = some true) :
    (wordLevel minPct bg seps preds)[i]? = preds[i]? ∨
      ((wordLevel minPct bg seps preds)[i]? = some bg ∧ Beside minPct bg seps preds i) :=
  (wordLevel_inv minPct bg seps preds h).2.2.1 i (by have := (List.getElem?_eq_some_iff.mp hs).1; omega) hs

/-- A text without separators keeps its predictions. -/
theorem C58_single (minPct : ℚ) (bg : ℕ) (seps : List Bool) (preds : List ℕ) (h : seps.length = preds.length)
    (hn : ∀ i, i < preds.length → seps[i]? = some false) : wordLevel minPct bg seps preds = preds :=
  (wordLevel_inv minPct bg seps preds h).2.2.2.2 hn

/-- "abcd ef. " with three of four characters labelled 1. -/
example : wordLevel (3/4) 0 [false, false, false, false, true, false, false, true, true] [1, 2, 1, 1, 1, 1, 2, 1, 0] =
    [1, 1, 1, 1, 1, 0, 0, 0, 0] := by decide +kernel

/-- The word of the example. -/
example : IsWord [false, false, false, false, true, false, false, true, true] 0 4 :=
  ⟨by omega, fun i _ h => by
    have : i = 0 ∨ i = 1 ∨ i = 2 ∨ i = 3 := by omega
    rcases this with rfl | rfl | rfl | rfl <;> rfl, .inl rfl⟩

/-- The full property: every word, in particular the last or only one, has one label. -/
def C58_uniform : Prop := ∀ (minPct : ℚ) (bg : ℕ) (seps : List Bool) (preds : List ℕ), seps.length = preds.length →
  ∀ a b, IsWord seps a b → (b = seps.length ∨ seps[b]? = some true) →
    ∃ w, ∀ i, a ≤ i → i < b → (wordLevel minPct bg seps preds)[i]? = some w

/-- The last word's last character keeps its own prediction. -/
theorem C58_last_fails : ¬ C58_uniform := by
  intro h
  obtain ⟨w, hw⟩ := h (1/2) 0 [true, false, false, false] [0, 1, 1, 2] rfl 1 4
    ⟨by omega, fun i h1 h2 => by
      have : i = 1 ∨ i = 2 ∨ i = 3 := by omega
      rcases this with rfl | rfl | rfl <;> rfl, .inr rfl⟩ (.inl rfl)
  have h1 := hw 1 (by omega) (by omega)
  have h3 := hw 3 (by omega) (by omega)
  have : wordLevel (1/2) 0 [true, false, false, false] [0, 1, 1, 2] = [0, 1, 1, 2] := by decide +kernel
  rw [this] at h1 h3
  simp at h1 h3
  omega

/-- So does the only word of a text. -/
theorem C58_only_fails : ∃ preds : List ℕ, ∃ seps : List Bool, seps.length = preds.length ∧ (∀ s ∈ seps, s = false) ∧
    ¬ ∃ w, ∀ l ∈ wordLevel (1/2) 0 seps preds, l = w := by
  refine ⟨[1, 1, 1, 2], [false, false, false, false], rfl, by simp, ?_⟩
  have : wordLevel (1/2) 0 [false, false, false, false] [1, 1, 1, 2] = [1, 1, 1, 2] := by decide +kernel
  rw [this]
  rintro ⟨w, hw⟩
  have h1 := hw 1 (by simp)
  have h2 := hw 2 (by simp)
  omega

/-- A word of one character ended by a separator always becomes background, whatever its prediction and however low the required
share. -/
theorem C58_one_character (minPct : ℚ) (bg : ℕ) (seps : List Bool) (preds : List ℕ) (h : seps.length = preds.length) (a : ℕ)
    (hw : IsWord seps a (a + 1)) (hb : seps[a + 1]? = some true) : (wordLevel minPct bg seps preds)[a]? = some bg := by
  obtain ⟨w, h1, h2⟩ := C58_words_partial minPct bg seps preds h a (a + 1) hw hb
  rw [h2 a (Nat.le_refl _) (Nat.lt_succ_self _)]
  rcases h1 with ⟨h1, -⟩ | ⟨h1, -⟩
  · rw [h1]
  · have h3 := h1.1
    have h4 := List.count_le_length (a := w) (l := (preds.take (a + 1)).drop a)
    simp only [List.length_drop, List.length_take] at h4
    omega

example : (wordLevel 0 0 [false, true] [5, 0])[0]? = some 0 := by decide +kernel

/-! ### C59: cells -/

/-- A cell gets none without labels other than padding, else one of the most frequent of these; the default label only if it is
more frequent than every other.  The choice among equals is arbitrary. -/
theorem C59_label (choice : List ℕ → ℕ) (hc : ∀ l, l ≠ [] → choice l ∈ l) (dflt pad : ℕ) (labels : List ℕ) (len : ℕ) :
    IsCellLabel dflt pad (labels.take len) (cellLabel choice dflt pad labels len) := cellLabel_spec choice hc dflt pad labels len

example : cellLabel (fun l => l.headD 0) 1 0 [1, 1, 2, 2, 0, 0, 0] 7 = some 2 ∧
    cellLabel (fun l => l.headD 0) 1 0 [1, 1, 2, 0] 4 = some 1 ∧ cellLabel (fun l => l.headD 0) 1 0 [0, 0] 2 = none := by
  decide +kernel

/-- The confidences of a cell are the shares of its labels other than padding. -/
theorem C59_confidence (num pad : ℕ) (labels : List ℕ) (len : ℕ) (row : List ℚ) (h : cellConf num pad labels len = .ok row) :
    row.length = num ∧ ∀ l, l < num → row[l]? = some (if l = pad then 0 else
      ((labels.take len).count l : ℚ) / (((labels.take len).filter (· ≠ pad)).length : ℚ)) := by
  unfold cellConf at h
  dsimp only at h
  split_ifs at h with hany
  injection h with h
  subst h
  refine ⟨by simp, fun l hl => ?_⟩
  rw [List.getElem?_map, List.getElem?_range hl, Option.map_some, cellCounts_at0, cellCounts_total]
  congr 1
  by_cases hp : l = pad
  · rw [if_pos hp, if_pos hp.symm]; simp
  · rw [if_neg hp, if_neg (Ne.symm hp)]

/-- They add up to one if there are any. -/
theorem C59_sum (num pad : ℕ) (labels : List ℕ) (len : ℕ) (row : List ℚ) (h : cellConf num pad labels len = .ok row) :
    row.sum = if ∃ l ∈ labels.take len, l ≠ pad then 1 else 0 := by
  unfold cellConf at h
  dsimp only at h
  split_ifs at h with hany
  injection h with h
  subst h
  have hlt : ∀ x ∈ cellCounts pad labels len, x.1 < num := by
    intro x hx
    by_contra hge
    exact hany (List.any_eq_true.mpr ⟨x, hx, by simpa using hge⟩)
  have hsum := sum_range_at0 (cellCounts_wf pad labels len) num hlt
  have htot := cellCounts_total pad labels len
  generalize (cellCounts pad labels len : PyDict ℕ ℕ) = counts at *
  have hcast : ∀ (ls : List ℕ) (f : ℕ → ℕ) (t : ℚ), (ls.map fun l => ((f l : ℕ) : ℚ) / t).sum = ((ls.map f).sum : ℕ) / t := by
    intro ls f t
    induction ls with
    | nil => simp
    | cons x ls ih => rw [List.map_cons, List.sum_cons, ih, List.map_cons, List.sum_cons, Nat.cast_add, add_div]
  rw [hcast, hsum]
  by_cases hex : ∃ l ∈ labels.take len, l ≠ pad
  · rw [if_pos hex]
    obtain ⟨l, h1, h2⟩ := hex
    have : 0 < ((labels.take len).filter (· ≠ pad)).length :=
      List.length_pos_iff.mpr (List.ne_nil_of_mem (List.mem_filter.mpr ⟨h1, by simpa using h2⟩))
    rw [htot]
    exact div_self (by exact_mod_cast this.ne')
  · rw [if_neg hex, htot]
    have : (labels.take len).filter (· ≠ pad) = [] := by
      rw [List.filter_eq_nil_iff]
      intro l hl hne
      exact hex ⟨l, hl, by simpa using hne⟩
    rw [this]; simp

/-- They are given unless a label has no column. -/
theorem C59_confidence_ok (num pad : ℕ) (labels : List ℕ) (len : ℕ) (h : ∀ l ∈ labels, l < num) :
    ∃ row, cellConf num pad labels len = .ok row := by
  unfold cellConf
  dsimp only
  rw [if_neg]
  · exact ⟨_, rfl⟩
  · intro hany
    obtain ⟨x, hx, hge⟩ := List.any_eq_true.mp hany
    have := (cellCounts_keys pad labels len x.1).1 (List.mem_map_of_mem hx)
    have := h x.1 (List.mem_of_mem_take this.2)
    simp at hge
    omega

example : (cellConf 4 0 [1, 1, 2, 3, 0, 0] 6).toOption = some [0, 1/2, 1/4, 1/4] := by decide +kernel

/-- The names of the cells of a column in which every cell has a named label. -/
theorem C59_names_partial (mapping : List (K × ℕ)) (choice : List ℕ → ℕ) (hc : ∀ l, l ≠ [] → choice l ∈ l) (dflt pad : ℕ)
    (cells : List (List ℕ × ℕ)) (hne : cells ≠ []) (hlab : ∀ c ∈ cells, ∃ l ∈ c.1.take c.2, l ≠ pad)
    (hmap : ∀ c ∈ cells, ∀ l ∈ c.1, l ≠ pad → ∃ k, (k, l) ∈ mapping) :
    ∃ out, cellNames mapping choice dflt pad cells = .ok out ∧
      List.Forall₂ (fun c n => ∃ w k, n = Name.name k ∧ (k, w) ∈ mapping ∧ IsCellLabel dflt pad (c.1.take c.2) (some w)) cells out := by
  have key : ∀ c ∈ cells, ∃ w k, cellLabel choice dflt pad c.1 c.2 = some w ∧ reverse mapping w = some k := by
    intro c hcm
    have hs := C59_label choice hc dflt pad c.1 c.2
    cases hl : cellLabel choice dflt pad c.1 c.2 with
    | none =>
      rw [hl] at hs
      obtain ⟨l, h1, h2⟩ := hlab c hcm
      exact absurd (hs l h1) h2
    | some w =>
      rw [hl] at hs
      cases hr : reverse mapping w with
      | none =>
        obtain ⟨k, hk⟩ := hmap c hcm w (List.mem_of_mem_take hs.2.1) hs.1
        exact absurd hk (reverse_none.mp hr k)
      | some k => exact ⟨w, k, rfl, hr⟩
  match cells, hne with
  | c :: cs, _ =>
    unfold cellNames vectorize
    obtain ⟨w, k, h1, h2⟩ := key c (by simp)
    rw [List.map_cons, h1, Option.bind_some, h2]
    refine ⟨_, rfl, ?_⟩
    rw [List.map_cons]
    refine List.Forall₂.cons ⟨w, k, rfl, reverse_some h2, h1 ▸ C59_label choice hc dflt pad c.1 c.2⟩ ?_
    rw [List.map_map, List.forall₂_map_right_iff, List.forall₂_same]
    intro c' hc'
    obtain ⟨w', k', h1', h2'⟩ := key c' (by simp [hc'])
    refine ⟨w', k', ?_, reverse_some h2', h1' ▸ C59_label choice hc dflt pad c'.1 c'.2⟩
    simp [h1', h2']

example : (cellNames [("pad", 0), ("bg", 1), ("date", 2)] (fun l => l.headD 0) 1 0 [([1, 2, 2], 3), ([1, 0], 2)]).toOption =
    some [.name "date", .name "bg"] := by decide +kernel

/-- A column without cells raises instead of giving no names. -/
theorem C59_empty_fails (mapping : List (K × ℕ)) (choice : List ℕ → ℕ) (dflt pad : ℕ) :
    cellNames mapping choice dflt pad [] = .error .valueError := rfl

/-- A cell without labels is given nothing, or the text "None", depending on the first cell of the column. -/
theorem C59_none_fails : ∃ (mapping : List (String × ℕ)) (choice : List ℕ → ℕ),
    (cellNames mapping choice 1 0 [([0], 1), ([2], 1)]).toOption = some [.none, .name "date"] ∧
    (cellNames mapping choice 1 0 [([2], 1), ([0], 1)]).toOption = some [.name "date", .noneText] :=
  ⟨[("pad", 0), ("bg", 1), ("date", 2)], fun l => l.headD 0, by decide +kernel, by decide +kernel⟩

end Verif.Postprocess
