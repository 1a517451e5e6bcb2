import Mathlib.Tactic.NormNum
import Verif.Lemmas.Order

/-!
# C16 — the reported order of a column

`FullClaim` (the reported order is the order of all the data seen) does not hold once data arrive in several
batches.  What holds for every sequence of updates and merges is split into: one batch is classified exactly; ordered
data are never called unordered (`_complete_`); a reported direction holds inside every batch (`_sound_`); "random" is
final.
-/

namespace Verif.Order

open Verif Verif.OrderSpec

variable {α : Type} [LinearOrder α]

/-- The four orders exclude each other and one of them always applies. -/
theorem C16_expected_unique (l : List α) : ∃! k, Expected l k := by
  by_cases hc : Const l
  · refine ⟨.constant, hc, ?_⟩
    intro k hk
    cases k with
    | constant => rfl
    | ascending => exact absurd hc hk.2
    | descending => exact absurd hc hk.2
    | random => exact absurd (asc_of_const hc) hk.1
  · by_cases ha : Asc l
    · refine ⟨.ascending, ⟨ha, hc⟩, ?_⟩
      intro k hk
      cases k with
      | constant => exact absurd hk hc
      | ascending => rfl
      | descending => exact absurd (const_of_asc_desc ha hk.1) hc
      | random => exact absurd ha hk.1
    · by_cases hd : Desc l
      · refine ⟨.descending, ⟨hd, hc⟩, ?_⟩
        intro k hk
        cases k with
        | constant => exact absurd hk hc
        | ascending => exact absurd hk.1 ha
        | descending => rfl
        | random => exact absurd hd hk.2
      · refine ⟨.random, ⟨ha, hd⟩, ?_⟩
        intro k hk
        cases k with
        | constant => exact absurd hk hc
        | ascending => exact absurd hk.1 ha
        | descending => exact absurd hk.1 hd
        | random => rfl

/-- A single batch is classified exactly. -/
theorem C16_single_batch (b : List α) (hb : b ≠ []) :
    ∃ i, run (.update .new b) = some i ∧ Expected b i.order := by
  match b, hb with
  | v :: vs, _ =>
    refine ⟨dataOrder v vs, by simp [run, update, merge], ?_⟩
    have hd := dataOrder_inv v vs
    have hf : [v :: vs].flatten = v :: vs := by simp
    cases hk : (dataOrder v vs).order with
    | ascending =>
      obtain ⟨h1, ⟨b, hb, hn⟩, _⟩ := hd.ascending hk
      simp only [List.mem_singleton] at hb
      subst hb
      exact ⟨h1 _ (by simp), hn⟩
    | descending =>
      obtain ⟨h1, ⟨b, hb, hn⟩, _⟩ := hd.descending hk
      simp only [List.mem_singleton] at hb
      subst hb
      exact ⟨h1 _ (by simp), hn⟩
    | constant => exact (hd.constant hk).1 _ (by simp)
    | random => have := hd.random hk; rw [hf] at this; exact this

example : run (.update .new [1, 2, 2, (5 : ℚ)]) = some ⟨.ascending, 1, 5, false⟩ := by decide +kernel
example : run (.update .new [3, 3, (1 : ℚ)]) = some ⟨.descending, 3, 1, false⟩ := by decide +kernel
example : run (.update .new [3, (3 : ℚ)]) = some ⟨.constant, 3, 3, false⟩ := by decide +kernel
example : (run (.update .new [3, 4, (1 : ℚ)])).map Info.order = some .random := by decide +kernel

/-- No order is reported exactly when no value was seen. -/
theorem C16_none_iff (h : History α) : run h = none ↔ seen h = [] := by
  rcases run_inv h with ⟨h1, h2⟩ | ⟨i, h1, _, h3⟩
  · exact ⟨fun _ => h2, fun _ => h1⟩
  · exact ⟨fun hn => by rw [h1] at hn; simp at hn, fun hn => absurd hn h3⟩

/-- The full claim: whatever the batching and merging, the report is the order of all the data. -/
def FullClaim (α : Type) [LinearOrder α] : Prop :=
  ∀ (h : History α) (i : Info α), run h = some i → Expected (seen h) i.order

/-- It fails: two different values in two batches are reported as one constant value. -/
theorem C16_fails_constant : ¬ FullClaim ℚ := by
  intro h
  have := h (.update (.update .new [5]) [6]) ⟨.constant, 5, 6, true⟩ (by decide +kernel)
  have := this 5 (by simp [seen, batches]) 6 (by simp [seen, batches])
  norm_num at this

/-- It fails: "ascending" although the second batch lies below the first. -/
theorem C16_fails_ascending :
    ∃ (h : History ℚ) (i : Info ℚ), run h = some i ∧ i.order = .ascending ∧ Expected (seen h) .random := by
  refine ⟨.update (.update .new [3, 4]) [1, 2], ⟨.ascending, 1, 4, true⟩, by decide +kernel, rfl, ?_, ?_⟩
  · intro h
    have := (asc_append (l := [(3 : ℚ), 4]) (m := [1, 2])).1 (by simpa [seen, batches] using h)
    have := this.2.2 3 (by simp) 1 (by simp)
    norm_num at this
  · intro h
    have := (desc_append (l := [(3 : ℚ)]) (m := [4, 1, 2])).1 (by simpa [seen, batches] using h)
    have := this.2.2 3 (by simp) 4 (by simp)
    norm_num at this

/-- It fails inside the covered range too: the third batch lies between the first two. -/
theorem C16_fails_enveloped :
    ∃ (h : History ℚ) (i : Info ℚ), run h = some i ∧ i.order = .ascending ∧ ¬ Asc (seen h) := by
  refine ⟨.update (.update (.update .new [1, 2]) [5, 6]) [3, 4], ⟨.ascending, 1, 6, true⟩, by decide +kernel, rfl, ?_⟩
  intro h
  have := (asc_append (l := [(1 : ℚ), 2, 5, 6]) (m := [3, 4])).1 (by simpa [seen, batches] using h)
  have := this.2.2 5 (by simp) 3 (by simp)
  norm_num at this

/-- The report depends on the batching: the same values in one batch. -/
theorem C16_fails_batching :
    ∃ h g : History ℚ, seen h = seen g ∧ (run h).map Info.order ≠ (run g).map Info.order :=
  ⟨.update (.update .new [3, 4]) [1, 2], .update .new [3, 4, 1, 2], by simp [seen, batches], by decide +kernel⟩

/-- Partial: "ascending" means that every batch is ascending and at least one of them is not constant, and the two
stored values are the smallest and the largest of everything seen. -/
theorem C16_sound_ascending_partial (h : History α) (i : Info α) (hi : run h = some i) (ho : i.order = .ascending) :
    (∀ b ∈ batches h, Asc b) ∧ (∃ b ∈ batches h, ¬ Const b) ∧ IsMin i.first (seen h) ∧ IsMax i.last (seen h) := by
  rcases run_inv h with ⟨h1, _⟩ | ⟨j, h1, h2, _⟩
  · rw [h1] at hi; simp at hi
  · rw [h1] at hi
    obtain rfl := Option.some.inj hi
    have := h2.ascending ho
    exact ⟨this.1, this.2.1, this.2.2.1, this.2.2.2.1⟩

/-- Partial: "descending" means that every batch is descending and at least one of them is not constant. -/
theorem C16_sound_descending_partial (h : History α) (i : Info α) (hi : run h = some i) (ho : i.order = .descending) :
    (∀ b ∈ batches h, Desc b) ∧ (∃ b ∈ batches h, ¬ Const b) ∧ i.last < i.first ∧ i.first ∈ seen h ∧
      i.last ∈ seen h := by
  rcases run_inv h with ⟨h1, _⟩ | ⟨j, h1, h2, _⟩
  · rw [h1] at hi; simp at hi
  · rw [h1] at hi
    obtain rfl := Option.some.inj hi
    have := h2.descending ho
    exact ⟨this.1, this.2.1, this.2.2.2.2, this.2.2.1, this.2.2.2.1⟩

/-- Partial: "constant value" means that every batch is constant; it is sound for all the data when the two stored
values agree. -/
theorem C16_sound_constant_partial (h : History α) (i : Info α) (hi : run h = some i) (ho : i.order = .constant) :
    (∀ b ∈ batches h, Const b) ∧ IsMin i.first (seen h) ∧ IsMax i.last (seen h) ∧
      (i.first = i.last ↔ Const (seen h)) := by
  rcases run_inv h with ⟨h1, _⟩ | ⟨j, h1, h2, _⟩
  · rw [h1] at hi; simp at hi
  · rw [h1] at hi
    obtain rfl := Option.some.inj hi
    have := h2.constant ho
    refine ⟨this.1, this.2.1, this.2.2.1, ?_⟩
    constructor
    · intro he x hx y hy
      have h1 := this.2.1.2
      have h2 := this.2.2.1.2
      rw [le_antisymm (he ▸ h2 x hx) (h1 x hx), le_antisymm (he ▸ h2 y hy) (h1 y hy)]
    · intro hc
      exact hc _ this.2.1.1 _ this.2.2.1.1

/-- "random" is never wrong: the data are neither ascending nor descending. -/
theorem C16_sound_random (h : History α) (i : Info α) (hi : run h = some i) (ho : i.order = .random) :
    Expected (seen h) .random := by
  rcases run_inv h with ⟨h1, _⟩ | ⟨j, h1, h2, _⟩
  · rw [h1] at hi; simp at hi
  · rw [h1] at hi
    obtain rfl := Option.some.inj hi
    exact h2.random ho

example : (run (.update (.update .new [1, 2, 6]) [3, (4 : ℚ)])).map Info.order = some .random := by decide +kernel

/-- Ascending data are reported as "ascending", or as "constant value" when every single batch is constant. -/
theorem C16_complete_ascending (h : History α) (hne : seen h ≠ []) (ha : Asc (seen h)) :
    ∃ i, run h = some i ∧
      ((∃ b ∈ batches h, ¬ Const b) → i.order = .ascending) ∧ ((∀ b ∈ batches h, Const b) → i.order = .constant) := by
  rcases run_inv h with ⟨_, h2⟩ | ⟨i, h1, h2, _⟩
  · exact absurd h2 hne
  · refine ⟨i, h1, ?_, ?_⟩
    · rintro ⟨b, hb, hn⟩
      cases hk : i.order with
      | ascending => rfl
      | descending => exact absurd ha (not_asc_of h2 hk)
      | constant => exact absurd ((h2.constant hk).1 b hb) hn
      | random => exact absurd ha (h2.random hk).1
    · intro hc
      cases hk : i.order with
      | ascending => obtain ⟨b, hb, hn⟩ := (h2.ascending hk).2.1; exact absurd (hc b hb) hn
      | descending => exact absurd ha (not_asc_of h2 hk)
      | constant => rfl
      | random => exact absurd ha (h2.random hk).1

example : run (.merge (.update (.update .new [1]) [2]) (.update (.update .new [2, 3]) [4, (4 : ℚ)])) =
    some ⟨.ascending, 1, 4, true⟩ := by decide +kernel

/-- Descending data are reported as "descending", or as "constant value" when every single batch is constant. -/
theorem C16_complete_descending (h : History α) (hne : seen h ≠ []) (ha : Desc (seen h)) :
    ∃ i, run h = some i ∧
      ((∃ b ∈ batches h, ¬ Const b) → i.order = .descending) ∧ ((∀ b ∈ batches h, Const b) → i.order = .constant) := by
  rcases run_inv h with ⟨_, h2⟩ | ⟨i, h1, h2, _⟩
  · exact absurd h2 hne
  · refine ⟨i, h1, ?_, ?_⟩
    · rintro ⟨b, hb, hn⟩
      cases hk : i.order with
      | descending => rfl
      | ascending => exact absurd ha (not_desc_of h2 hk)
      | constant => exact absurd ((h2.constant hk).1 b hb) hn
      | random => exact absurd ha (h2.random hk).2
    · intro hc
      cases hk : i.order with
      | descending => obtain ⟨b, hb, hn⟩ := (h2.descending hk).2.1; exact absurd (hc b hb) hn
      | ascending => exact absurd ha (not_desc_of h2 hk)
      | constant => rfl
      | random => exact absurd ha (h2.random hk).2

example : run (.merge (.update (.update .new [9]) [8]) (.update (.update .new [7, 6]) [5, (5 : ℚ)])) =
    some ⟨.descending, 8, 5, true⟩ := by decide +kernel

/-- Constant data are always reported as "constant value", with that value. -/
theorem C16_complete_constant (h : History α) (x : α) (hx : x ∈ seen h) (hc : Const (seen h)) :
    run h = some ⟨.constant, x, x, false⟩ := by
  obtain ⟨i, h1, _, h3⟩ := C16_complete_ascending h (List.ne_nil_of_mem hx) (asc_of_const hc)
  have ho := h3 (fun b hb => const_sub hc (flatten_sub hb))
  rcases run_inv h with ⟨h2, _⟩ | ⟨j, h2, hj, _⟩
  · rw [h1] at h2; simp at h2
  · rw [h1] at h2
    obtain rfl := Option.some.inj h2
    obtain ⟨_, hmin, hmax, hp⟩ := hj.constant ho
    have e1 : i.first = x := hc _ hmin.1 _ hx
    have e2 : i.last = x := hc _ hmax.1 _ hx
    have e3 : i.piecewise = false := by
      rw [e1, e2] at hp; simpa using hp
    rw [h1]
    cases i
    simp_all

example : run (.update (.merge (.update .new [7]) (.update (.update .new []) [7, 7])) [7]) =
    some (⟨.constant, 7, 7, false⟩ : Info ℚ) := by decide +kernel

/-- "random" is final, whatever data or profiles are added on either side. -/
theorem C16_random_final (h : History α) (hr : (run h).map Info.order = some .random) :
    (∀ b, (run (.update h b)).map Info.order = some .random) ∧
    (∀ g, (run (.merge h g)).map Info.order = some .random) ∧
    (∀ g, (run (.merge g h)).map Info.order = some .random) := by
  cases hi : run h with
  | none => rw [hi] at hr; simp at hr
  | some i =>
    rw [hi] at hr
    have ho : i.order = .random := by simpa using hr
    refine ⟨?_, ?_, ?_⟩
    · intro b
      cases b with
      | nil => simp [run, update, hi, ho]
      | cons v vs => simp [run, update, hi, ho]
    · intro g
      simp only [run, hi]
      cases run g with
      | none => simp [merge, ho]
      | some j => simp [merge, mergeInfo, mergeKind, ho]
    · intro g
      simp only [run, hi]
      cases run g with
      | none => simp [merge, ho]
      | some j => simp [merge, mergeInfo, mergeKind, ho]

/-- Empty batches and fresh profiles change nothing; merging does not depend on the side. -/
theorem C16_neutral (h g : History α) :
    run (.update h []) = run h ∧ run (.merge .new h) = run h ∧ run (.merge h .new) = run h ∧
      run (.merge h g) = run (.merge g h) := by
  refine ⟨rfl, by simp [run, merge], ?_, ?_⟩
  · simp only [run]; cases run h <;> rfl
  · simp only [run]
    cases run h <;> cases run g <;> simp [merge, mergeInfo_comm]

/-! ## Numbers and strings -/

/-- The numbers of batches that all parse. -/
def numbers (parse : String → Option ℚ) (bs : List (List String)) : Option (List (List ℚ)) :=
  bs.mapM (parseAll parse)

theorem parseAll_nil_iff (parse : String → Option ℚ) (b : List String) (xs : List ℚ) (h : parseAll parse b = some xs) :
    b = [] ↔ xs = [] := by
  cases b with
  | nil => simp [parseAll] at h; simp [h]
  | cons s b =>
    simp only [parseAll, List.mapM_cons] at h
    cases hp : parse s with
    | none => rw [hp] at h; simp at h
    | some x =>
      rw [hp] at h
      cases hb : List.mapM parse b with
      | none => rw [hb] at h; simp at h
      | some ys => rw [hb] at h; simp at h; simp [← h]

/-- The history feeding batches one after the other. -/
def feed {β : Type} (bs : List (List β)) : History β := bs.foldl .update .new

/-- As long as every batch is numeric, the column is ordered as the numbers are, not as their texts. -/
theorem C16_numeric (parse : String → Option ℚ) (render : ℚ → String) (bs : List (List String)) (xs : List (List ℚ))
    (hx : numbers parse bs = some xs) :
    bs.foldl (updateColumn parse render) (.num none) = .num (run (feed xs)) := by
  unfold feed
  have key : ∀ (bs : List (List String)) (xs : List (List ℚ)) (h : History ℚ), numbers parse bs = some xs →
      bs.foldl (updateColumn parse render) (.num (run h)) = .num (run (xs.foldl .update h)) := by
    intro bs
    induction bs with
    | nil => intro xs h hx; simp [numbers] at hx; subst hx; rfl
    | cons b bs ih =>
      intro xs h hx
      simp only [numbers, List.mapM_cons] at hx
      cases hb : parseAll parse b with
      | none => rw [hb] at hx; simp at hx
      | some y =>
        rw [hb] at hx
        cases hbs : List.mapM (parseAll parse) bs with
        | none => rw [hbs] at hx; simp at hx
        | some ys =>
          rw [hbs] at hx
          simp at hx
          subst hx
          have hstep : updateColumn parse render (.num (run h)) b = .num (run (.update h y)) := by
            have hnil := parseAll_nil_iff parse b y hb
            unfold updateColumn
            by_cases hbn : b = []
            · rw [if_pos hbn, hnil.1 hbn]; rfl
            · rw [if_neg hbn]
              cases y with
              | nil => exact absurd (hnil.2 rfl) hbn
              | cons v vs =>
                by_cases hr : (run h).map Info.order = some .random
                · simp only [Column.order, hr, if_true, run, update]
                · simp only [Column.order, hr, if_false, hb, run]
          rw [List.foldl_cons, List.foldl_cons, hstep]
          exact ih ys _ hbs
  exact key bs xs .new hx

/-- A column that met a text is compared as texts from then on. -/
theorem C16_text_stays (parse : String → Option ℚ) (render : ℚ → String) (s : Option (Info String))
    (bs : List (List String)) :
    ∃ h : List (List String) , bs.foldl (updateColumn parse render) (.str s) = .str (h.foldl update s) := by
  refine ⟨bs, ?_⟩
  induction bs generalizing s with
  | nil => rfl
  | cons b bs ih =>
    have hstep : updateColumn parse render (.str s) b = .str (update s b) := by
      unfold updateColumn
      cases b with
      | nil => rfl
      | cons v vs =>
        by_cases hr : s.map Info.order = some .random
        · simp only [Column.order, hr, if_true, update, reduceCtorEq, if_false]
        · simp only [Column.order, hr, if_false, reduceCtorEq]
    rw [List.foldl_cons, List.foldl_cons, hstep]
    exact ih _

/-- "random" is final for columns too. -/
theorem C16_column_random_final (parse : String → Option ℚ) (render : ℚ → String) (c : Column) (hc : c.order = some .random)
    (bs : List (List String)) : (bs.foldl (updateColumn parse render) c).order = some .random := by
  have : ∀ b, updateColumn parse render c b = c := by
    intro b; unfold updateColumn; by_cases h : b = [] <;> simp [h, hc]
  induction bs with
  | nil => exact hc
  | cons b bs ih => rw [List.foldl_cons, this]; exact ih

/-- Merging columns does not depend on the side, once both have seen data. -/
theorem C16_column_merge_comm (render : ℚ → String) (a b : Column) (ha : a.order ≠ none) (hb : b.order ≠ none) :
    mergeColumn render a b = mergeColumn render b a := by
  cases a with
  | num s => cases s with
    | none => simp [Column.order] at ha
    | some i => cases b with
      | num t => cases t with
        | none => simp [Column.order] at hb
        | some j => simp [mergeColumn, merge, mergeInfo_comm]
      | str t => cases t with
        | none => simp [Column.order] at hb
        | some j => simp [mergeColumn, merge, toStr, mergeInfo_comm]
  | str s => cases s with
    | none => simp [Column.order] at ha
    | some i => cases b with
      | num t => cases t with
        | none => simp [Column.order] at hb
        | some j => simp [mergeColumn, merge, toStr, mergeInfo_comm]
      | str t => cases t with
        | none => simp [Column.order] at hb
        | some j => simp [mergeColumn, merge, mergeInfo_comm]

/-- Reading all values of a batch. -/
theorem parseAll_some {f : String → Option ℚ} {l : List String} (h : ∀ x ∈ l, f x ≠ none) :
    parseAll f l = some (l.filterMap f) := by
  induction l with
  | nil => rfl
  | cons x l ih =>
    have := ih fun y hy => h y (by simp [hy])
    cases hx : f x with
    | none => exact absurd hx (h x (by simp))
    | some q =>
      simp only [parseAll] at this ⊢
      simp [List.mapM_cons, hx, this]

/-- The order of a column of numbers is updated like that of the numbers. -/
theorem column_update (f : String → Option ℚ) (render : ℚ → String) (ho : History ℚ) {l : List String}
    (h : ∀ x ∈ l, f x ≠ none) :
    updateColumn f render (.num (run ho)) l = .num (run (.update ho (l.filterMap f))) := by
  have hp := parseAll_some h
  have hnil := parseAll_nil_iff f l _ hp
  unfold updateColumn
  by_cases hl : l = []
  · rw [if_pos hl, hl]; rfl
  · rw [if_neg hl]
    generalize l.filterMap f = y at *
    cases y with
    | nil => exact absurd (hnil.2 rfl) hl
    | cons v vs =>
      by_cases hr : (run ho).map Info.order = some .random
      · simp only [Column.order, hr, if_true, run, update]
      · simp only [Column.order, hr, if_false, hp, run]

/-- … and merged like that of the numbers. -/
theorem column_merge (render : ℚ → String) (h1 h2 : History ℚ) :
    mergeColumn render (.num (run h1)) (.num (run h2)) = .num (run (.merge h1 h2)) := by
  rw [run]
  cases run h1 with
  | none => cases run h2 <;> rfl
  | some a => cases run h2 <;> rfl

/-- **Numbers in batches and merges**: a column that was only given numbers has the order of the numbers, batch by batch. -/
theorem C16_column_numbers (parse : String → Option ℚ) (render : ℚ → String) (h : History String)
    (hall : ∀ x ∈ seen h, parse x ≠ none) :
    ∃ g : History ℚ, runColumn parse render h = .num (run g) ∧ batches g = (batches h).map fun b => b.filterMap parse := by
  induction h with
  | new => exact ⟨.new, rfl, rfl⟩
  | update h b ih =>
    simp only [seen, batches, List.flatten_append, List.flatten_cons, List.flatten_nil, List.append_nil, List.mem_append] at hall ih
    obtain ⟨g, g1, g2⟩ := ih fun x hx => hall x (.inl hx)
    refine ⟨.update g (b.filterMap parse), ?_, by simp [batches, g2]⟩
    rw [runColumn, g1, column_update parse render g fun x hx => hall x (.inr hx)]
  | merge h1 h2 i1 i2 =>
    simp only [seen, batches, List.flatten_append, List.mem_append] at hall i1 i2
    obtain ⟨g1, a1, a2⟩ := i1 fun x hx => hall x (.inl hx)
    obtain ⟨g2, b1, b2⟩ := i2 fun x hx => hall x (.inr hx)
    refine ⟨.merge g1 g2, ?_, by simp [batches, a2, b2]⟩
    rw [runColumn, a1, b1, column_merge]

theorem update_isSome {α : Type} [LinearOrder α] (s : Option (Info α)) {b : List α} (hb : b ≠ []) : (update s b).isSome := by
  match b, hb with
  | v :: vs, _ =>
    unfold update
    dsimp only
    split_ifs with h
    · cases s with
      | none => simp at h
      | some i => rfl
    · cases s <;> rfl

/-- **No order without values**: a column of any texts has an order as soon as it was given a value. -/
theorem C16_column_none_iff (parse : String → Option ℚ) (render : ℚ → String) (h : History String) :
    (runColumn parse render h).order = none ↔ seen h = [] := by
  induction h with
  | new => simp [runColumn, Column.order, seen, batches]
  | update h b ih =>
    rw [runColumn, show seen (.update h b) = seen h ++ b by simp [seen, batches]]
    by_cases hb : b = []
    · rw [hb, List.append_nil, show updateColumn parse render (runColumn parse render h) [] = runColumn parse render h from if_pos rfl]
      exact ih
    · have hn : ¬ (seen h ++ b = []) := by simp [hb]
      simp only [hn, iff_false]
      unfold updateColumn
      rw [if_neg hb]
      split_ifs with hr
      · rw [hr]; simp
      · cases hc : runColumn parse render h with
        | str s =>
          have := update_isSome s hb
          simp only [Column.order, Option.map_eq_none_iff]
          intro e; rw [e] at this; cases this
        | num s =>
          simp only
          cases hp : parseAll parse b with
          | none =>
            have := update_isSome (toStr render s) hb
            simp only [Column.order, Option.map_eq_none_iff]
            intro e; rw [e] at this; cases this
          | some xs =>
            have hx : xs ≠ [] := fun e => hb ((parseAll_nil_iff parse b xs hp).2 e)
            have := update_isSome s hx
            simp only [Column.order, Option.map_eq_none_iff]
            intro e; rw [e] at this; cases this
  | merge h1 h2 i1 i2 =>
    rw [runColumn, show seen (.merge h1 h2) = seen h1 ++ seen h2 by simp [seen, batches], List.append_eq_nil_iff]
    refine Iff.trans ?_ (and_congr i1 i2)
    generalize runColumn parse render h1 = a
    generalize runColumn parse render h2 = b
    rcases a with (_ | _) | (_ | _) <;> rcases b with (_ | _) | (_ | _) <;> simp [mergeColumn, Column.order, merge, toStr]

/-- Python's reading and writing of the two numbers used below. -/
def demoParse (s : String) : Option ℚ := if s = "9" then some 9 else if s = "10" then some 10 else none
/-- See `demoParse`. -/
def demoRender (q : ℚ) : String := if q = 9 then "9.0" else "10.0"

/-- Texts after numbers: the numeric endpoints are turned into texts, so "9", "10", "a" is reported ascending although
"9" comes after "10" as a text — and the same texts in one batch are reported random. -/
theorem C16_fails_mixed :
    ([["9", "10"], ["a"]].foldl (updateColumn demoParse demoRender) (.num none)).order = some .ascending ∧
    ([["9", "10", "a"]].foldl (updateColumn demoParse demoRender) (.num none)).order = some .random := by
  constructor <;> decide +kernel

end Verif.Order
