import Verif.Spec.Precision
import Verif.Lemmas.Moments

/-!
# Lemmas about precision statistics
-/

namespace Verif.Precision

open Verif Verif.PrecisionSpec

/-! ## Counting figures -/

/-- Digits and decimal points. -/
def Plain (c : Char) : Prop := c.isDigit = true ∨ c = '.'

theorem plain_not_ws {c : Char} (h : Plain c) : c.isWhitespace = false := by
  rcases h with h | rfl
  · rw [Bool.eq_false_iff]
    intro hw
    simp only [Char.isWhitespace, Bool.or_eq_true, decide_eq_true_eq] at hw
    rcases hw with ((rfl | rfl) | rfl) | rfl <;> simp [Char.isDigit] at h
  · decide

/-- Only zeros. -/
def Zeros (cs : List Char) : Prop := ∀ c ∈ cs, c = '0'

theorem dropWhile_nil {p : Char → Bool} : ∀ {cs : List Char}, cs.dropWhile p = [] ↔ ∀ c ∈ cs, p c = true
  | [] => by simp
  | c :: cs => by
    by_cases h : p c = true
    · simp [h, dropWhile_nil (cs := cs)]
    · simp [h]

theorem dropWhile_zeros {cs : List Char} : cs.dropWhile (· == '0') = [] ↔ Zeros cs := by
  simp [dropWhile_nil, Zeros]

theorem zerosThenEnd_plain {cs : List Char} (h : ∀ c ∈ cs, c.isWhitespace = false) (rest : List Char) :
    zerosThenEnd cs = some rest ↔ cs ≠ [] ∧ Zeros cs ∧ rest = [] := by
  unfold zerosThenEnd
  rcases cs with _ | ⟨c, cs⟩
  · simp
  · by_cases hc : c = '0'
    · subst hc
      simp only [List.head?_cons, if_true]
      rcases hd : ('0' :: cs).dropWhile (· == '0') with _ | ⟨d, ds⟩
      · have := dropWhile_zeros.1 hd
        simp [this, eq_comm]
      · have hm : d ∈ ('0' :: cs) := by
          have := List.dropWhile_suffix (l := '0' :: cs) (· == '0')
          exact this.subset (by rw [hd]; simp)
        have hz : ¬ Zeros ('0' :: cs) := by
          intro hz
          rw [dropWhile_zeros.2 hz] at hd
          exact nomatch hd
        simp [h d hm, hz]
    · have : ¬ Zeros (c :: cs) := fun hz => hc (hz c (by simp))
      simp [hc, this]

theorem tailMatch_dot (cs : List Char) : tailMatch ('.' :: cs) = zerosThenEnd cs := rfl

theorem tailMatch_other {c : Char} (hc : c ≠ '.') (cs : List Char) :
    tailMatch (c :: cs) = zerosThenEnd (c :: cs) := by
  unfold tailMatch
  split
  · rename_i heq
    simp only [List.cons.injEq] at heq
    exact absurd heq.1 hc
  · rfl

/-- The digits left after dropping zeros at the end. -/
def kept (cs : List Char) : List Char := (cs.reverse.dropWhile (· == '0')).filter Char.isDigit

theorem kept_zeros {cs : List Char} (h : Zeros cs) : kept cs = [] := by
  have : Zeros cs.reverse := fun c hc => h c (List.mem_reverse.1 hc)
  simp [kept, dropWhile_zeros.2 this]

theorem kept_cons_length (c : Char) (cs : List Char) (h : ¬ (c = '0' ∧ Zeros cs)) :
    (kept (c :: cs)).length = (kept cs).length + (if c.isDigit then 1 else 0) := by
  unfold kept
  rw [List.reverse_cons, List.dropWhile_append]
  by_cases hz : cs.reverse.dropWhile (· == '0') = []
  · have hz' : Zeros cs := fun d hd => dropWhile_zeros.1 hz d (List.mem_reverse.2 hd)
    have hc : c ≠ '0' := fun hc => h ⟨hc, hz'⟩
    rw [hz]
    simp [hc]
    split_ifs with hd <;> simp [hd]
  · rw [if_neg (by simpa using hz), List.filter_append, List.length_append]
    congr 1
    split_ifs with hd <;> simp [hd]

theorem scan_plain : ∀ (cs : List Char) (fuel : ℕ), cs.length ≤ fuel → (∀ c ∈ cs, Plain c) →
    (scan fuel false cs).length = (kept cs).length
  | [], fuel, _, _ => by cases fuel <;> simp [scan, kept]
  | c :: cs, 0, hf, _ => by simp at hf
  | c :: cs, fuel + 1, hf, hp => by
    have hcs : ∀ d ∈ cs, Plain d := fun d hd => hp d (List.mem_cons_of_mem _ hd)
    have ih := scan_plain cs fuel (by simpa using hf) hcs
    have hc := hp c (by simp)
    rw [scan]
    rcases hc with hd | rfl
    · have hdot : c ≠ '.' := by rintro rfl; exact absurd hd (by decide)
      rw [tailMatch_other hdot]
      rcases ht : zerosThenEnd (c :: cs) with _ | rest
      · have hz : ¬ (c = '0' ∧ Zeros cs) := by
          rintro ⟨rfl, hz⟩
          have : zerosThenEnd ('0' :: cs) = some [] :=
            (zerosThenEnd_plain (fun d hd => plain_not_ws (hp d hd)) []).2 ⟨by simp, fun d hd => by
              rcases List.mem_cons.1 hd with rfl | hd
              · rfl
              · exact hz d hd, rfl⟩
          rw [this] at ht
          exact nomatch ht
        simp [hd, ih, kept_cons_length c cs hz]
      · obtain ⟨_, hz, rfl⟩ := (zerosThenEnd_plain (fun d hd => plain_not_ws (hp d hd)) rest).1 ht
        rw [kept_zeros hz]
        cases fuel <;> simp [scan]
    · rw [tailMatch_dot]
      have hk : (kept ('.' :: cs)).length = (kept cs).length := by
        rw [kept_cons_length '.' cs (fun h => absurd h.1 (by decide))]
        simp [show Char.isDigit '.' = false by decide]
      rcases ht : zerosThenEnd cs with _ | rest
      · simp [ih, hk, show Char.isDigit '.' = false by decide]
      · obtain ⟨_, hz, rfl⟩ := (zerosThenEnd_plain (fun d hd => plain_not_ws (hcs d hd)) rest).1 ht
        rw [hk, kept_zeros hz]
        cases fuel <;> simp [scan]

theorem scan_after_e (ex : List Char) (hw : ∀ c ∈ ex, c.isWhitespace = false) (fuel : ℕ) :
    scan fuel true ex = [] := by
  rcases fuel with _ | fuel
  · simp [scan]
  rcases ex with _ | ⟨c, cs⟩
  · simp [scan]
  have hnil : ∀ f b, scan f b [] = [] := fun f b => by cases f <;> simp [scan]
  have hnl : ∀ d ∈ c :: cs, d ≠ '\n' := by
    rintro d hd rfl
    exact absurd (hw _ hd) (by decide)
  have hdrop : (c :: cs).dropWhile (· != '\n') = [] := dropWhile_nil.2 fun d hd => by simpa using hnl d hd
  have hsome : ∀ rest, tailMatch (c :: cs) = some rest → rest = [] := by
    intro rest ht
    by_cases hc : c = '.'
    · subst hc
      rw [tailMatch_dot] at ht
      exact ((zerosThenEnd_plain (fun d hd => hw d (List.mem_cons_of_mem _ hd)) rest).1 ht).2.2
    · rw [tailMatch_other hc] at ht
      exact ((zerosThenEnd_plain hw rest).1 ht).2.2
  rw [scan]
  rcases ht : tailMatch (c :: cs) with _ | rest
  · simp only [Bool.true_and]
    rw [if_pos (by simpa using hnl c (by simp)), hdrop, hnil]
  · simp only
    rw [hsome rest ht, hnil]

theorem scan_exp (ex : List Char) (hw : ∀ c ∈ ex, c.isWhitespace = false) : ∀ (cs : List Char) (fuel : ℕ),
    (cs ++ 'e' :: ex).length ≤ fuel → (∀ c ∈ cs, Plain c) →
    (scan fuel false (cs ++ 'e' :: ex)).length = (cs.filter Char.isDigit).length
  | [], fuel, hf, _ => by
    rcases fuel with _ | fuel
    · simp at hf
    · have ht : tailMatch ('e' :: ex) = none := by
        rw [tailMatch_other (by decide)]
        simp [zerosThenEnd]
      simp [scan, ht, show Char.isDigit 'e' = false by decide, scan_after_e ex hw]
  | c :: cs, 0, hf, _ => by simp at hf
  | c :: cs, fuel + 1, hf, hp => by
    have hcs : ∀ d ∈ cs, Plain d := fun d hd => hp d (List.mem_cons_of_mem _ hd)
    have ih := scan_exp ex hw cs fuel (by simpa using hf) hcs
    have hws : ∀ l : List Char, (∀ d ∈ l, Plain d) → zerosThenEnd (l ++ 'e' :: ex) = none := by
      intro l hl
      rcases ht : zerosThenEnd (l ++ 'e' :: ex) with _ | rest
      · rfl
      · have := (zerosThenEnd_plain (cs := l ++ 'e' :: ex) (fun d hd => by
          rcases List.mem_append.1 hd with hd | hd
          · exact plain_not_ws (hl d hd)
          · rcases List.mem_cons.1 hd with rfl | hd
            · decide
            · exact hw d hd) rest).1 ht
        exact absurd (this.2.1 'e' (by simp)) (by decide)
    rw [List.cons_append, scan]
    rcases hp c (by simp) with hd | rfl
    · have hdot : c ≠ '.' := by rintro rfl; exact absurd hd (by decide)
      rw [tailMatch_other hdot, ← List.cons_append, hws _ hp]
      simp [hd, ih]
    · rw [tailMatch_dot, hws _ hcs]
      simp [ih, show Char.isDigit '.' = false by decide]

theorem dropWhile_lead (lead core : List Char) (hl : ∀ c ∈ lead, isLead c = true) (c : Char) (rest : List Char)
    (hc : core = c :: rest) (hn : isLead c = false) : (lead ++ core).dropWhile isLead = core := by
  rw [List.dropWhile_append, dropWhile_nil.2 hl, hc]
  simp [hn]

/-! ## Statistics -/

theorem least_spec : ∀ (m : ℝ) (xs : List ℝ), least m xs ∈ m :: xs ∧ ∀ x ∈ m :: xs, least m xs ≤ x
  | m, [] => by simp [least]
  | m, x :: xs => by
    obtain ⟨h1, h2⟩ := least_spec (Min.min m x) xs
    rw [least]
    refine ⟨?_, fun y hy => ?_⟩
    · rcases List.mem_cons.1 h1 with h | h
      · rcases min_choice m x with e | e <;> rw [h, e] <;> simp
      · simp [h]
    · have hm := h2 (Min.min m x) (by simp)
      rcases List.mem_cons.1 hy with rfl | hy
      · exact hm.trans (min_le_left _ _)
      · rcases List.mem_cons.1 hy with rfl | hy
        · exact hm.trans (min_le_right _ _)
        · exact h2 y (List.mem_cons_of_mem _ hy)

theorem greatest_spec : ∀ (m : ℝ) (xs : List ℝ), greatest m xs ∈ m :: xs ∧ ∀ x ∈ m :: xs, x ≤ greatest m xs
  | m, [] => by simp [greatest]
  | m, x :: xs => by
    obtain ⟨h1, h2⟩ := greatest_spec (Max.max m x) xs
    rw [greatest]
    refine ⟨?_, fun y hy => ?_⟩
    · rcases List.mem_cons.1 h1 with h | h
      · rcases max_choice m x with e | e <;> rw [h, e] <;> simp
      · simp [h]
    · have hm := h2 (Max.max m x) (by simp)
      rcases List.mem_cons.1 hy with rfl | hy
      · exact (le_max_left _ _).trans hm
      · rcases List.mem_cons.1 hy with rfl | hy
        · exact (le_max_right _ _).trans hm
        · exact h2 y (List.mem_cons_of_mem _ hy)

theorem ofSample_describes {xs : List ℝ} (h : xs ≠ []) :
    Describes xs (ofSample xs) ∧ (ofSample xs).biasedVar = some (Spec.variance xs) := by
  rcases xs with _ | ⟨x, xs⟩
  · exact absurd rfl h
  · obtain ⟨a1, a2⟩ := least_spec x xs
    obtain ⟨b1, b2⟩ := greatest_spec x xs
    exact ⟨⟨⟨_, a1, rfl, a2⟩, ⟨_, b1, rfl, b2⟩, rfl, rfl, rfl⟩, by rw [ofSample, Moments.npVar_eq]⟩

theorem pyMin_spec {xs ys : List ℝ} {p q : Numeric.Flt} (hp : ∃ a ∈ xs, p = some a ∧ ∀ x ∈ xs, a ≤ x)
    (hq : ∃ a ∈ ys, q = some a ∧ ∀ x ∈ ys, a ≤ x) :
    ∃ a ∈ xs ++ ys, pyMin p q = some a ∧ ∀ x ∈ xs ++ ys, a ≤ x := by
  obtain ⟨a, ha, rfl, hal⟩ := hp
  obtain ⟨b, hb, rfl, hbl⟩ := hq
  refine ⟨Min.min a b, ?_, rfl, fun x hx => ?_⟩
  · rcases min_choice a b with e | e <;> rw [e] <;> simp [ha, hb]
  · rcases List.mem_append.1 hx with hx | hx
    · exact (min_le_left _ _).trans (hal x hx)
    · exact (min_le_right _ _).trans (hbl x hx)

theorem pyMax_spec {xs ys : List ℝ} {p q : Numeric.Flt} (hp : ∃ a ∈ xs, p = some a ∧ ∀ x ∈ xs, x ≤ a)
    (hq : ∃ a ∈ ys, q = some a ∧ ∀ x ∈ ys, x ≤ a) :
    ∃ a ∈ xs ++ ys, pyMax p q = some a ∧ ∀ x ∈ xs ++ ys, x ≤ a := by
  obtain ⟨a, ha, rfl, hal⟩ := hp
  obtain ⟨b, hb, rfl, hbl⟩ := hq
  refine ⟨Max.max a b, ?_, rfl, fun x hx => ?_⟩
  · rcases max_choice a b with e | e <;> rw [e] <;> simp [ha, hb]
  · rcases List.mem_append.1 hx with hx | hx
    · exact (hal x hx).trans (le_max_left _ _)
    · exact (hbl x hx).trans (le_max_right _ _)

theorem quotient_mean {xs ys : List ℝ} (h : xs ≠ []) :
    quotient (xs.sum + ys.sum) (xs.length + ys.length) = some (Spec.mean (xs ++ ys)) := by
  have : xs.length ≠ 0 := by simpa using h
  rw [quotient, if_neg (by omega), Spec.mean, List.sum_append, List.length_append]

theorem absorb_describes {xs ys : List ℝ} {p q : Stats} (hx : xs ≠ []) (hp : Describes xs p) (hq : Describes ys q) :
    Describes (xs ++ ys) (absorb p q) := by
  refine ⟨pyMin_spec hp.min hq.min, pyMax_spec hp.max hq.max, ?_, ?_, ?_⟩
  · simp [absorb, hp.sum, hq.sum]
  · simp only [absorb]
    rw [hp.sum, hq.sum, hp.size, hq.size, quotient_mean hx]
  · simp [absorb, hp.size, hq.size]

theorem combine_describes {xs ys : List ℝ} {p q : Stats} (hx : xs ≠ []) (hp : Describes xs p) (hq : Describes ys q) :
    Describes (xs ++ ys) (combine p q) := by
  refine ⟨pyMin_spec hp.min hq.min, pyMax_spec hp.max hq.max, ?_, ?_, ?_⟩
  · simp [combine, hp.sum, hq.sum]
  · simp only [combine]
    rw [hp.sum, hq.sum, hp.size, hq.size, quotient_mean hx]
  · simp [combine, hp.size, hq.size]

theorem combine_var {xs ys : List ℝ} {p q : Stats} (hx : xs ≠ []) (hy : ys ≠ []) (hp : Describes xs p)
    (hq : Describes ys q) (vp : p.biasedVar = some (Spec.variance xs)) (vq : q.biasedVar = some (Spec.variance ys)) :
    (combine p q).biasedVar = some (Spec.variance (xs ++ ys)) := by
  have h1 : xs.length ≠ 0 := by simpa using hx
  have h2 : ys.length ≠ 0 := by simpa using hy
  simp only [combine, mergeVar, hp.size, hq.size, vp, vq, hp.mean, hq.mean, Option.getD_some]
  rw [Numeric.mergeBiasedVariance, if_neg (by omega), if_neg (by omega)]
  simp only [Option.some.injEq]
  rw [Moments.variance_eq (xs ++ ys), Moments.M2_append hx hy, List.length_append]
  rw [← Moments.variance_mul hx, ← Moments.variance_mul hy]
  push_cast
  ring

end Verif.Precision
