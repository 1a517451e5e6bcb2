import Verif.Lemmas.CharShare
import Verif.Lemmas.CharProcess

/-!
# The share of samples that are flattened
-/

namespace Verif.Props.CharShare

open Verif Verif.CharProcess Verif.Spec.CharShare

variable {α L : Type}

/-- The requested share of flattened samples is kept at any time, up to one sample; what was begun at the end is given in addition.  Samples
that are not flattened are parts of single texts. -/
theorem C55_share {p : Params α} (h0 : 0 ≤ p.split) (h1 : p.split ≤ 1) (pad dflt : L) (size : ℕ) (data : List (List α × List L))
    (batches : List (List (List α × List L))) (h : process p pad dflt size data = .ok batches) :
    ∃ flags last, Marks (data.map (·.1)) (batches.flatten.map (·.1)) (flags ++ last) ∧ Share p.split flags ∧
      (last = [] ∨ last = [true]) := by
  unfold process at h
  split at h
  · cases h
  · split at h
    · cases h
    next st hst =>
      simp only [Except.ok.injEq] at h
      obtain ⟨flags, hm⟩ := marked_placeAll h0 h1 (data := data.map (·.1)) pad dflt size data _ st []
        (fun x hx => List.mem_map_of_mem hx) (marked_init h0 _) hst
      have hb : batches.flatten = (flush p pad st).made := by
        rw [← h]
        unfold St.made
        split
        next h' => rw [h', List.append_nil]
        · simp
      rw [hb]
      unfold flush
      split
      · exact ⟨flags, [], by simpa using hm.ok, hm.share, .inl rfl⟩
      · refine ⟨flags, [true], ?_, hm.share, .inr rfl⟩
        simp only [emit, St.made]
        rw [← List.append_assoc, List.map_append]
        exact marks_snoc hm.ok fun h => nomatch h

/-- If nothing is to be flattened, every sample is a part of a single text. -/
theorem C55_share_none {p : Params α} (h0 : p.split = 0) (pad dflt : L) (size : ℕ) (data : List (List α × List L))
    (batches : List (List (List α × List L))) (h : process p pad dflt size data = .ok batches) :
    ∀ b ∈ batches, ∀ x ∈ b, ∃ d ∈ data, x.1 <:+: d.1 := by
  have hp : ∀ fc nfc, p.plain fc nfc = true := by
    intro fc nfc
    simp [Params.plain, h0]
  have hplace : ∀ (fuel : ℕ) (st st' : St α L) (r : List α) (labs : List L), st.fc = 0 → st.flat = [] →
      place p pad dflt size fuel st r labs = some st' → st'.fc = 0 ∧ st'.flat = [] := by
    intro fuel
    induction fuel with
    | zero =>
      intro st st' r labs h2 h3 h4
      match r with
      | [] =>
        simp only [place, Option.some.injEq] at h4
        exact h4 ▸ ⟨h2, h3⟩
      | _ :: _ => simp [place] at h4
    | succ n ih =>
      intro st st' r labs h2 h3 h4
      match r with
      | [] =>
        simp only [place, Option.some.injEq] at h4
        exact h4 ▸ ⟨h2, h3⟩
      | c :: r =>
        simp only [place] at h4
        refine ih _ st' _ _ ?_ ?_ h4
        · rw [(yield_same _ _).2.1]
          simp [step, hp, plainStep, h2]
        · unfold yieldBatch
          simp only [step, hp, plainStep, if_true]
          split <;> exact h3
  have hall : ∀ (ds : List (List α × List L)) (st st' : St α L), st.fc = 0 → st.flat = [] →
      placeAll p pad dflt size st ds = some st' → st'.fc = 0 ∧ st'.flat = [] := by
    intro ds
    induction ds with
    | nil =>
      intro st st' h2 h3 h4
      simp only [placeAll, Option.some.injEq] at h4
      exact h4 ▸ ⟨h2, h3⟩
    | cons x ds ih =>
      intro st st' h2 h3 h4
      simp only [placeAll] at h4
      split at h4
      · cases h4
      next st1 h5 =>
        obtain ⟨h6, h7⟩ := hplace _ _ _ _ _ h2 h3 h5
        exact ih _ _ h6 h7 h4
  unfold process at h
  split at h
  · cases h
  · split at h
    · cases h
    next st hst =>
      simp only [Except.ok.injEq] at h
      obtain ⟨hfc, hfl⟩ := hall data _ st rfl rfl hst
      have h0' : 0 ≤ p.split := h0 ▸ le_rfl
      obtain ⟨flags, hm⟩ := marked_placeAll h0' (h0 ▸ zero_le_one) (data := data.map (·.1)) pad dflt size data _ st []
        (fun x hx => List.mem_map_of_mem hx) (marked_init h0' _) hst
      have hb : batches.flatten = st.made := by
        rw [← h]
        unfold St.made flush
        rw [if_pos hfl]
        split
        next h' => rw [h', List.append_nil]
        · simp
      intro b hbm x hx
      have hmem : x ∈ st.made := by
        rw [← hb]
        exact List.mem_flatten.2 ⟨b, hbm, hx⟩
      obtain ⟨i, hi, hix⟩ := List.mem_iff_getElem.1 hmem
      have hct : flags.count true = 0 := by rw [← hm.fc, hfc]
      have hil : i < flags.length := by
        have := hm.ok.1
        rw [List.length_map] at this
        omega
      have hfi : flags[i]? = some false := by
        rw [List.getElem?_eq_getElem hil, Option.some.injEq]
        rw [List.count_eq_zero] at hct
        cases hv : flags[i]
        · rfl
        · exact absurd (hv ▸ List.getElem_mem hil) hct
      obtain ⟨d, hd, hxd⟩ := hm.ok.2 i x.1 (by rw [List.getElem?_map, List.getElem?_eq_getElem hi, hix]; rfl) hfi
      obtain ⟨e, he, rfl⟩ := List.mem_map.1 hd
      exact ⟨e, he, hxd⟩

/-- If everything is to be flattened, then no sample is placed by itself: texts follow each other with the separator between. -/
example : (process (⟨6, ['#'], 1, true, fun c => c == ' '⟩ : Params Char) 0 1 2 [(['a', 'b'], [5, 5]), (['c'], [6]), (['d'], [7])]).toOption =
    some [[(['a', 'b', '#', 'c'] ++ ['#', 'd'], [5, 5, 1, 6, 1, 7])]] := by decide +kernel

/-- With a half, every second sample is flattened. -/
example : (process (⟨3, ['#'], 1 / 2, true, fun c => c == ' '⟩ : Params Char) 0 1 9
      [(['a'], [5]), (['b'], [6]), (['c'], [7]), (['d', 'e'], [8, 8]), (['f'], [9])]).toOption =
    some [[(['a', '#', 'b'], [5, 1, 6]), (['c'], [7, 0, 0]), (['d', 'e'], [8, 8, 0]), (['f'], [9, 0, 0])]] := by decide +kernel

end Verif.Props.CharShare
