import Verif.Lemmas.CharLabels
import Verif.Lemmas.Quantiles

/-!
# Training labels stay with their characters
-/

namespace Verif.CharLabels

open Verif Verif.CharProcess Verif.Spec.CharProcess Verif.Spec.CharLabels

variable {α L K : Type}

/-- The label mapping knows the labels, as `f` says. -/
def Known (mapping : K → Option L) (f : K → L) (pad dflt : K) (data : List (List α × List (ℤ × ℤ × K))) : Prop :=
  mapping pad = some (f pad) ∧ mapping dflt = some (f dflt) ∧
    ∀ x ∈ data, ∀ e ∈ x.2, mapping e.2.2 = some (f e.2.2) ∧ 0 ≤ e.1 ∧ 0 ≤ e.2.1

theorem train_eq {p : Params α} {mapping : K → Option L} {f : K → L} {pad dflt : K} {size : ℕ}
    {data : List (List α × List (ℤ × ℤ × K))} (hk : Known mapping f pad dflt data) :
    train p mapping pad dflt size data =
      process p (f pad) (f dflt) size ((data.map fun x => labelled f dflt x.1 x.2).map fun z => (z.map (·.1), z.map (·.2))) := by
  unfold train
  rw [hk.1, hk.2.1]
  dsimp only
  have : data.mapM (fun x => (labelBuffer mapping dflt x.1.length x.2).map fun ls => (x.1, ls)) =
      .ok (data.map fun x => ((labelled f dflt x.1 x.2).map (·.1), (labelled f dflt x.1 x.2).map (·.2))) := by
    refine Verif.Quantiles.mapM_ok fun x hx => ?_
    rw [labelBuffer_ok mapping f dflt x.1 x.2 hk.2.1 (fun e he => (hk.2.2 x hx e he).1) fun e he => (hk.2.2 x hx e he).2,
      labelled_fst]
    rfl
  rw [this, List.map_map]
  rfl

/-- Training rows: the texts are cut as they are without labels, every character keeps the label of the last entity that covers
it (or the default), separators have the default label, and every row of labels is padded to the same length. -/
theorem C56_rows_partial {p : Params α} (hsep : p.sep ≠ []) (hm : p.sep.length < p.maxLen) {mapping : K → Option L} {f : K → L}
    {pad dflt : K} {size : ℕ} (hs : 0 < size) {data : List (List α × List (ℤ × ℤ × K))}
    (hk : Known mapping f pad dflt data) :
    ∃ (batches : List (List (List (α × L)))) (gs : List Bool),
      train p mapping pad dflt size data = .ok (batches.map (List.map (row p.maxLen (f pad)))) ∧ Full size batches ∧
      (∀ b ∈ batches, ∀ x ∈ b, x ≠ [] ∧ x.length ≤ p.maxLen) ∧ gs.length = data.length ∧
      batches.flatten.flatten =
        weave (p.sep.map fun c => (c, f dflt)) (data.map fun x => labelled f dflt x.1 x.2) gs := by
  have hm' : (lift p (f dflt)).sep.length < (lift p (f dflt)).maxLen := by rw [lift_sep]; exact hm
  obtain ⟨batches, h1, h2, h3, gs, h4, h5, -⟩ := process_ok hm' () () hs
    ((data.map fun x => labelled f dflt x.1 x.2).map fun z => (z, []))
  refine ⟨batches.map (List.map (·.1)), gs, ?_, ?_, ?_, by simpa using h4, ?_⟩
  · rw [train_eq hk, process_labelled p hsep, h1]
    simp [Except.map, List.map_map, Function.comp_def]
  · clear h1 h3 h5
    induction batches with
    | nil => trivial
    | cons b bs ih =>
      cases bs with
      | nil => exact ⟨by simpa using h2.1, by simpa using h2.2⟩
      | cons c cs => exact ⟨by simpa using h2.1, ih h2.2⟩
  · intro b hb x hx
    obtain ⟨b', hb', rfl⟩ := List.mem_map.mp hb
    obtain ⟨x', hx', rfl⟩ := List.mem_map.mp hx
    exact h3 b' hb' x' hx'
  · rw [← List.map_flatten, h5, List.map_map]
    congr 1
    exact List.map_id _

/-- So all rows of labels are as long as they should be. -/
theorem C56_length {p : Params α} (hsep : p.sep ≠ []) (hm : p.sep.length < p.maxLen) {mapping : K → Option L} {f : K → L}
    {pad dflt : K} {size : ℕ} (hs : 0 < size) {data : List (List α × List (ℤ × ℤ × K))}
    (hk : Known mapping f pad dflt data) {batches : List (List (List α × List L))}
    (h : train p mapping pad dflt size data = .ok batches) : ∀ b ∈ batches, ∀ x ∈ b, x.2.length = p.maxLen := by
  obtain ⟨bs, gs, h1, -, h3, -, -⟩ := C56_rows_partial hsep hm hs hk
  rw [h1] at h
  injection h with h
  subst h
  intro b hb x hx
  obtain ⟨b', hb', rfl⟩ := List.mem_map.mp hb
  obtain ⟨x', hx', rfl⟩ := List.mem_map.mp hx
  have := (h3 b' hb' x' hx').2
  simp [row]
  omega

/-- A label the mapping does not know raises. -/
theorem C56_unknown (mapping : K → Option L) (dflt : K) (n : ℕ) (es : List (ℤ × ℤ × K)) :
    (∃ out, labelBuffer mapping dflt n es = .ok out) ↔ mapping dflt ≠ none ∧ ∀ e ∈ es, mapping e.2.2 ≠ none := by
  unfold labelBuffer
  cases hd : mapping dflt with
  | none => simp
  | some d =>
    simp only [ne_eq, reduceCtorEq, not_false_eq_true, true_and]
    generalize List.replicate n d = buf
    induction es generalizing buf with
    | nil => simp [paintAll]
    | cons e es ih =>
      obtain ⟨a, b, k⟩ := e
      rw [paintAll]
      cases hk : mapping k with
      | none => simp [hk]
      | some l => simp [hk, ih]

theorem ok_of_toOption {ε β : Type} {e : Except ε β} {x : β} (h : e.toOption = some x) : e = .ok x := by
  cases e with
  | error _ => exact nomatch h
  | ok y => simpa [Except.toOption] using h

/-- An empty separator passes the validation, and the labels of flattened samples are lost: rows are too short. -/
theorem C56_empty_separator_fails :
    ∃ (p : Params Char) (data : List (List Char × List (ℤ × ℤ × ℕ))) (batches : List (List (List Char × List ℕ))),
      p.sep.length < p.maxLen ∧ Known some id 0 1 data ∧ train p some 0 1 8 data = .ok batches ∧
        ∃ b ∈ batches, ∃ x ∈ b, x.2.length ≠ p.maxLen := by
  refine ⟨⟨4, [], 1, false, fun c => c == ' '⟩, [("ab".toList, [(0, 2, 5)]), ("cdefgh".toList, [])],
    [[("ab".toList, [0, 0]), ("cdef".toList, [1, 1, 1, 1]), ("gh".toList, [1, 1, 0, 0])]], by decide, ?_, ok_of_toOption (by decide +kernel), ?_⟩
  · refine ⟨rfl, rfl, ?_⟩
    decide
  · exact ⟨_, List.mem_singleton.mpr rfl, _, List.mem_cons_self, by decide⟩

/-! ### Structured data -/

/-- Cells in one text: every character of a cell has its label, the separators the pad label. -/
theorem C56_convert_partial [DecidableEq K] (dflt padName : K) (sep : List α) (data : List (List α × K))
    (hlast : data.length ≤ 1 ∨ ∃ x, data.getLast? = some x ∧ x.1 ≠ []) :
    labelled id dflt (convert dflt padName sep data).1 (convert dflt padName sep data).2 = joined padName sep data := by
  have := convertLoop_labels dflt padName sep data 0 hlast
  rw [Nat.zero_add] at this
  exact this

/-- If the last cell is empty, the separator before it has the default label. -/
theorem C56_convert_fails : labelled id 0 (convert 0 9 [' '] [("ab".toList, 3), ([], 4)]).1
    (convert 0 9 [' '] [("ab".toList, 3), ([], 4)]).2 ≠ joined 9 [' '] [("ab".toList, 3), ([], 4)] := by
  decide

/-- Cells are processed one by one: all characters of a cell have the label of the cell. -/
theorem C56_cells [DecidableEq K] {p : Params α} (hsep : p.sep ≠ []) (hm : p.sep.length < p.maxLen) {mapping : K → Option L}
    {f : K → L} {pad dflt padName : K} {size : ℕ} (hs : 0 < size) {data : List (List α × K)}
    (hp : mapping pad = some (f pad)) (hd : mapping dflt = some (f dflt)) (hk : ∀ x ∈ data, mapping x.2 = some (f x.2)) :
    ∃ (batches : List (List (List (α × L)))) (gs : List Bool),
      trainCells p mapping pad dflt padName size data = .ok (batches.map (List.map (row p.maxLen (f pad)))) ∧
      Full size batches ∧ (∀ b ∈ batches, ∀ x ∈ b, x ≠ [] ∧ x.length ≤ p.maxLen) ∧ gs.length = data.length ∧
      batches.flatten.flatten =
        weave (p.sep.map fun c => (c, f dflt)) (data.map fun x => x.1.map fun c => (c, f x.2)) gs := by
  have hes : ∀ x : List α × K, (convert dflt padName p.sep [x]).2 =
      if x.2 ≠ dflt then [((0 : ℤ), ((x.1.length : ℕ) : ℤ), x.2)] else [] := by
    intro x
    obtain ⟨x, k⟩ := x
    simp only [convert, convertLoop]
    rw [if_neg (show ¬ 0 + x.length + p.sep.length < (List.intercalate p.sep ([(x, k)].map (·.1))).length by
      simp [List.intercalate])]
    simp
  have hkn : Known mapping f pad dflt (data.map fun x => convert dflt padName p.sep [x]) := by
    refine ⟨hp, hd, fun y hy e he => ?_⟩
    obtain ⟨x, hx, rfl⟩ := List.mem_map.mp hy
    rw [hes x] at he
    split_ifs at he
    · rw [List.mem_singleton] at he
      subst he
      exact ⟨hk x hx, Int.le_refl _, by simp⟩
    · exact nomatch he
  obtain ⟨batches, gs, h1, h2, h3, h4, h5⟩ := C56_rows_partial hsep hm hs hkn
  refine ⟨batches, gs, h1, h2, h3, by simpa using h4, ?_⟩
  rw [h5, List.map_map]
  congr 1
  apply List.map_congr_left
  intro x _
  obtain ⟨x, k⟩ := x
  have := C56_convert_partial dflt padName p.sep [(x, k)] (.inl (Nat.le_refl _))
  rw [joined] at this
  have h2 := congrArg (List.map fun c : α × K => (c.1, f c.2)) this
  simp only [List.map_map] at h2
  simp only [Function.comp, labelled, List.map_map] at h2 ⊢
  exact h2

/-! ### A case -/

/-- Labels 0 to 9 map to themselves. -/
def exMapping (k : ℕ) : Option ℕ := if k < 10 then some k else none

/-- Six characters per sample, flattened, cut at blanks. -/
def exP : Params Char := ⟨6, [' '], 1, false, fun c => c == ' '⟩

/-- The second entity overrides part of the first; the text is cut before "efghijkl". -/
def exData : List (List Char × List (ℤ × ℤ × ℕ)) :=
  [("ab".toList, [(0, 2, 5)]), ("cd efghijkl".toList, [(0, 5, 3), (1, 2, 4), (9, 40, 7)])]

example : exP.sep ≠ [] ∧ exP.sep.length < exP.maxLen ∧ Known exMapping id 0 1 exData := by
  refine ⟨by decide, by decide, rfl, rfl, by decide⟩

example : (train exP exMapping 0 1 2 exData).toOption.map (List.map (List.map fun x => (String.ofList x.1, x.2))) =
    some [[("ab cd", [5, 5, 1, 3, 4, 0]), (" efghi", [3, 3, 3, 1, 1, 1])], [("jkl", [1, 7, 7, 0, 0, 0])]] := by
  decide +kernel

example : (trainCells exP exMapping 0 1 9 2 [("ab".toList, 5), ("c".toList, 1), ("de".toList, 4)]).toOption.map
    (List.map (List.map fun x => (String.ofList x.1, x.2))) =
    some [[("ab c", [5, 5, 1, 1, 0, 0]), ("de", [4, 4, 0, 0, 0, 0])]] := by
  decide +kernel

end Verif.CharLabels
