import Verif.Lemmas.CharProcess

/-!
# Predictions come back to the characters they were made for
-/

namespace Verif.CharProcess

open Verif.Spec.CharProcess

variable {α L P : Type}

/-- Splitting ends; the batches are full except for the last; no sample is empty or too long; the samples in a row are the
texts in their order, all of their characters, some of them preceded by the separator. -/
theorem C55_samples {p : Params α} (hm : p.sep.length < p.maxLen) (pad dflt : L) {size : ℕ} (hs : 0 < size)
    (data : List (List α × List L)) :
    ∃ batches, process p pad dflt size data = .ok batches ∧ Full size batches ∧
      (∀ b ∈ batches, ∀ x ∈ b, x.1 ≠ [] ∧ x.1.length ≤ p.maxLen) ∧
      ∃ gs, gs.length = data.length ∧ (batches.flatten.map (·.1)).flatten = weave p.sep (data.map (·.1)) gs := by
  obtain ⟨batches, h1, h2, h3, gs, h4, h5, -⟩ := process_ok hm pad dflt hs data
  exact ⟨batches, h1, h2, h3, gs, h4, h5⟩

/-- The matching finds the same places again: whatever was predicted for the samples, each text gets the predictions of its own
characters. -/
theorem C55_match {p : Params α} (hm : p.sep.length < p.maxLen) (pad dflt : L) {size : ℕ} (hs : 0 < size)
    (data : List (List α × List L)) :
    ∃ batches gs, process p pad dflt size data = .ok batches ∧ gs.length = data.length ∧
      (batches.flatten.map (·.1)).flatten = weave p.sep (data.map (·.1)) gs ∧
      ∀ preds : List (List P), preds.map List.length = (batches.flatten.map (·.1)).map List.length →
        matchLengths p.sep.length (data.map fun d => d.1.length) preds =
          pick p.sep.length (data.map fun d => d.1.length) gs preds.flatten := by
  obtain ⟨batches, h1, -, -, gs, h4, h5, h6⟩ := process_ok hm pad dflt hs data
  exact ⟨batches, gs, h1, h4, h5, h6 P⟩

/-- A separator as long as a sample is refused. -/
theorem C55_separator (p : Params α) (pad dflt : L) {size : ℕ} (hs : 0 < size) (data : List (List α × List L)) :
    process p pad dflt size data = .error .valueError ↔ p.maxLen ≤ p.sep.length := by
  constructor
  · intro h
    by_contra hlt
    obtain ⟨batches, h1, -⟩ := C55_samples (p := p) (by omega) pad dflt hs data
    rw [h1] at h
    exact nomatch h
  · intro h
    unfold process
    rw [if_pos h]

/-- The model's arrays hold the predictions of every sample, cut to its length, for any number of batches. -/
theorem C55_predict {size : ℕ} (hs : 0 < size) (zero : List P) {net : List (List α) → List (List P)}
    (batches : List (List (List α))) (hf : Full size batches) (hn : ∀ b ∈ batches, (net b).length = b.length) :
    predict zero net size batches =
      .ok ((batches.flatMap net).zipWith (fun row n => row.take n) (batches.flatten.map List.length)) :=
  predict_ok hs zero batches hf hn

/-- A network that is given samples padded or not, and predicts each character by itself. -/
def Charwise (f : α → P) (net : List (List α) → List (List P)) : Prop :=
  ∀ b, (net b).length = b.length ∧ ∀ i (h1 : i < (net b).length) (h2 : i < b.length),
    ((net b)[i]).take (b[i]).length = (b[i]).map f

/-- A network that predicts one row for each sample, as long as the sample or longer. -/
def Rows (net : List (List α) → List (List P)) : Prop :=
  ∀ b, (net b).length = b.length ∧ ∀ i (h1 : i < (net b).length) (h2 : i < b.length), (b[i]).length ≤ ((net b)[i]).length

theorem rows_flat {net : List (List α) → List (List P)} (h : Rows net) (batches : List (List (List α))) :
    (batches.flatMap net).length = batches.flatten.length ∧
      ∀ i (h1 : i < (batches.flatMap net).length) (h2 : i < batches.flatten.length),
        (batches.flatten[i]).length ≤ ((batches.flatMap net)[i]).length := by
  induction batches with
  | nil => simp
  | cons b bs ih =>
    obtain ⟨g1, g2⟩ := h b
    simp only [List.flatMap_cons, List.flatten_cons]
    refine ⟨by simp [g1, ih.1], fun i h1 h2 => ?_⟩
    rw [List.getElem_append, List.getElem_append]
    split_ifs with k1 k2 k2
    · exact g2 i k2 k1
    · omega
    · omega
    · simp only [g1]
      exact ih.2 _ _ _

theorem charwise_flat {f : α → P} {net : List (List α) → List (List P)} (h : Charwise f net) (batches : List (List (List α))) :
    (batches.flatMap net).zipWith (fun row n => row.take n) (batches.flatten.map List.length) =
      batches.flatten.map (List.map f) := by
  induction batches with
  | nil => rfl
  | cons b bs ih =>
    obtain ⟨g1, g2⟩ := h b
    simp only [List.flatMap_cons, List.flatten_cons, List.map_append]
    rw [List.zipWith_append (by simp [g1]), ih]
    congr 1
    apply List.ext_getElem
    · simp [g1]
    · intro i h1 h2
      simp only [List.length_zipWith, List.length_map, g1, Nat.min_self] at h1
      simp only [List.getElem_zipWith, List.getElem_map]
      exact g2 i (by omega) h1

/-- Whatever the network, labeling gives every text as many predictions as it has characters, and they are those made at its
characters' places in the samples. -/
theorem C55_label {p : Params α} (hm : p.sep.length < p.maxLen) {size : ℕ} (hs : 0 < size) (zero : List P)
    {net : List (List α) → List (List P)} (hn : Rows net) (data : List (List α)) :
    ∃ (batches : List (List (List α))) (gs : List Bool) (res : List (List P)),
      label p size p.sep.length zero net data = .ok res ∧ gs.length = data.length ∧
      batches.flatten.flatten = weave p.sep data gs ∧
      res = pick p.sep.length (data.map List.length) gs
        ((batches.flatMap net).zipWith (fun row n => row.take n) (batches.flatten.map List.length)).flatten ∧
      res.map List.length = data.map List.length := by
  obtain ⟨batches, h1, h2, -, gs, h4, h5, h6⟩ :=
    process_ok hm () () hs (data.map fun d => (d, d.map fun _ => ()))
  have hf : Full size (batches.map fun b => b.map (·.1)) := by
    clear h1 h5 h6
    induction batches with
    | nil => trivial
    | cons b bs ih =>
      cases bs with
      | nil => exact ⟨by simpa using h2.1, by simpa using h2.2⟩
      | cons c cs => exact ⟨by simpa using h2.1, ih h2.2⟩
  have hp := predict_ok hs zero (batches.map fun b => b.map (·.1)) hf fun b _ => (hn b).1
  obtain ⟨r1, r2⟩ := rows_flat hn (batches.map fun b => b.map (·.1))
  have hlen := zip_take_lengths _ _ r1 r2
  have hfl : batches.flatten.map (·.1) = (batches.map fun b => b.map (·.1)).flatten := by
    rw [List.map_flatten]
  have hd : (data.map fun d => (d, d.map fun _ => ())).map (·.1) = data := by
    rw [List.map_map]
    conv_rhs => rw [← List.map_id data]
    rfl
  have hdl : (data.map fun d => (d, d.map fun _ => ())).map (fun d => d.1.length) = data.map List.length := by
    rw [List.map_map]; rfl
  rw [hd, hfl] at h5
  rw [hdl, hfl] at h6
  have hm6 := h6 P _ hlen
  refine ⟨batches.map fun b => b.map (·.1), gs, _, ?_, by simpa using h4, h5, rfl, ?_⟩
  · unfold label
    rw [h1]
    dsimp only
    rw [hp]
    dsimp only
    rw [hm6]
  · have hrow : ((((batches.map fun b => b.map (·.1)).flatMap net).zipWith (fun row n => row.take n)
        ((batches.map fun b => b.map (·.1)).flatten.map List.length)).flatten).length = (weave p.sep data gs).length := by
      rw [← h5, List.length_flatten, List.length_flatten, hlen]
    have hg : gs.length = data.length := by simpa using h4
    revert hrow
    generalize (((batches.map fun b => b.map (·.1)).flatMap net).zipWith (fun row n => row.take n)
        ((batches.map fun b => b.map (·.1)).flatten.map List.length)).flatten = row
    clear h1 h4 h5 h6 hd hdl hm6
    intro hrow
    induction data generalizing gs row with
    | nil => cases gs <;> rfl
    | cons d ds ih =>
      cases gs with
      | nil => simp at hg
      | cons g gs =>
        simp only [weave, List.length_append] at hrow
        have := ih gs (by simpa using hg) (row.drop ((if g then p.sep.length else 0) + d.length)) (by
          rw [List.length_drop, hrow]
          cases g <;> simp <;> omega)
        simp only [List.map_cons, pick, this, List.length_take, List.length_drop]
        rw [Nat.min_eq_left]
        rw [hrow]
        cases g <;> simp <;> omega

/-- So a network that looks at each character by itself gives every text exactly what it says of its characters: none lost,
none moved, however texts are cut, joined and batched. -/
theorem C55_charwise {p : Params α} (hm : p.sep.length < p.maxLen) {size : ℕ} (hs : 0 < size) (zero : List P) {f : α → P}
    {net : List (List α) → List (List P)} (hn : Charwise f net) (data : List (List α)) :
    label p size p.sep.length zero net data = .ok (data.map (List.map f)) := by
  obtain ⟨batches, gs, res, h1, h2, h3, h4, -⟩ := C55_label hm hs zero
    (fun b => ⟨(hn b).1, fun i k1 k2 => by
      have := congrArg List.length ((hn b).2 i k1 k2)
      simp only [List.length_take, List.length_map] at this
      omega⟩) data
  rw [h1, h4, charwise_flat hn]
  have : (batches.flatten.map (List.map f)).flatten = (weave p.sep data gs).map f := by
    rw [← h3]; exact List.map_flatten.symm
  rw [this, pick_weave f p.sep data gs h2]

/-- Six characters per sample, flattened, cut at blanks. -/
def exParams : Params Char := ⟨6, [' '], 1, false, fun c => c == ' '⟩

/-- Upper case by a network that pads to six. -/
def exNet (b : List (List Char)) : List (List Char) := b.map fun x => x.map Char.toUpper ++ List.replicate (6 - x.length) '-'

example : (label exParams 2 1 [] exNet ["ab".toList, [], "cd efghijkl".toList, "m".toList]).toOption =
    some ["AB".toList, [], "CD EFGHIJKL".toList, "M".toList] := by decide +kernel

/-- The samples: "ab cd", " efghi" (cut without a break), "jkl m". -/
example : (process exParams () () 2 (["ab".toList, [], "cd efghijkl".toList, "m".toList].map fun d => (d, []))).toOption.map
    (List.map (List.map fun x => String.ofList x.1)) = some [["ab cd", " efghi"], ["jkl m"]] := by decide +kernel

/-- The hypotheses are met. -/
example : exParams.sep.length < exParams.maxLen ∧ Charwise Char.toUpper exNet := by
  refine ⟨by decide, fun b => ⟨by simp [exNet], fun i h1 h2 => ?_⟩⟩
  simp only [exNet, List.getElem_map]
  rw [List.take_left' (by simp)]

/-- The separators of the two processors must have the same length: the matching of a labeler whose postprocessor was given
another one is off. -/
theorem C55_separator_fails : ∃ data, label exParams 2 2 [] exNet data ≠ .ok (data.map (List.map Char.toUpper)) := by
  refine ⟨["ab".toList, "c".toList], fun h => ?_⟩
  have : (label exParams 2 2 [] exNet ["ab".toList, "c".toList]).toOption ≠
      some (["ab".toList, "c".toList].map (List.map Char.toUpper)) := by decide +kernel
  exact this (by rw [h]; rfl)

end Verif.CharProcess
