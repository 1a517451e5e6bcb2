import Verif.Spec.Words
import Mathlib.Tactic.SplitIfs

/-!
# Lemmas on splitting texts into words
-/

namespace Verif.Words

open WordsSpec

variable {isSpace : Char → Bool}

theorem mem_punctuation (c : Char) : c ∈ punctuation ↔ Punct c := by
  have h1 : ∀ c ∈ punctuation, 33 ≤ c.toNat ∧ c.toNat < 127 ∧ ¬(48 ≤ c.toNat ∧ c.toNat ≤ 57) ∧
      ¬(65 ≤ c.toNat ∧ c.toNat ≤ 90) ∧ ¬(97 ≤ c.toNat ∧ c.toNat ≤ 122) := by decide +kernel
  have h2 : ∀ n ∈ List.range 127, 33 ≤ n → ¬(48 ≤ n ∧ n ≤ 57) → ¬(65 ≤ n ∧ n ≤ 90) →
      ¬(97 ≤ n ∧ n ≤ 122) → Char.ofNat n ∈ punctuation := by decide +kernel
  constructor
  · exact h1 c
  · rintro ⟨a, b, c1, c2, c3⟩
    have := h2 c.toNat (List.mem_range.2 b) a c1 c2 c3
    rwa [Char.ofNat_toNat] at this

theorem pieces_ne_nil (t : Word) : pieces isSpace t ≠ [] := by
  induction t with
  | nil => simp [pieces]
  | cons c cs ih =>
    unfold pieces
    cases h : pieces isSpace cs with
    | nil => exact absurd h ih
    | cons p ps =>
      simp only
      split_ifs <;> simp

theorem pieces_space {c : Char} (h : isSpace c = true) (cs : Word) : pieces isSpace (c :: cs) = [] :: pieces isSpace cs := by
  obtain ⟨p, ps, hp⟩ := List.exists_cons_of_ne_nil (pieces_ne_nil (isSpace := isSpace) cs)
  rw [pieces, hp]
  simp [h]

theorem pieces_word {w : Word} (h : ∀ c ∈ w, isSpace c = false) {rest p : Word} {ps : List Word}
    (hr : pieces isSpace rest = p :: ps) : pieces isSpace (w ++ rest) = (w ++ p) :: ps := by
  induction w with
  | nil => exact hr
  | cons c w ih =>
    rw [List.cons_append, pieces, ih fun c' h' => h c' (List.mem_cons_of_mem _ h')]
    simp [h c List.mem_cons_self]

theorem split_gap {gap : Word} (h : ∀ c ∈ gap, isSpace c = true) (t : Word) :
    split isSpace (gap ++ t) = split isSpace t := by
  induction gap with
  | nil => rfl
  | cons c gap ih =>
    rw [← ih fun c' h' => h c' (List.mem_cons_of_mem _ h')]
    unfold split
    rw [List.cons_append, pieces_space (h c List.mem_cons_self), List.filter_cons_of_neg (by simp)]

theorem split_word {w rest : Word} (hne : w ≠ []) (h : ∀ c ∈ w, isSpace c = false)
    (hr : ∀ c cs, rest = c :: cs → isSpace c = true) : split isSpace (w ++ rest) = strip w :: split isSpace rest := by
  cases rest with
  | nil =>
    unfold split
    rw [pieces_word h (p := []) (ps := []) rfl, List.filter_cons_of_pos (by simpa using hne)]
    simp [pieces]
  | cons c cs =>
    have hc := hr c cs rfl
    unfold split
    rw [pieces_word h (pieces_space hc cs), List.filter_cons_of_pos (by simpa using hne), pieces_space hc,
      List.filter_cons_of_neg (by simp)]
    simp

theorem split_spaces {t : Word} (h : ∀ c ∈ t, isSpace c = true) : split isSpace t = [] := by
  have := split_gap h []
  rw [List.append_nil] at this
  rw [this]
  rfl

theorem dropWhile_append_all {p : Char → Bool} {a t : Word} (h : ∀ c ∈ a, p c = true) :
    (a ++ t).dropWhile p = t.dropWhile p := by
  induction a with
  | nil => rfl
  | cons c a ih =>
    rw [List.cons_append, List.dropWhile_cons_of_pos (h c List.mem_cons_self)]
    exact ih fun c' h' => h c' (List.mem_cons_of_mem _ h')

theorem strip_eq {a core b : Word} (ha : ∀ c ∈ a, c ∈ punctuation) (hb : ∀ c ∈ b, c ∈ punctuation)
    (h1 : ∀ c cs, core = c :: cs → c ∉ punctuation) (h2 : ∀ c cs, core = cs ++ [c] → c ∉ punctuation) :
    strip (a ++ core ++ b) = core := by
  have hpa : ∀ c ∈ a, decide (c ∈ punctuation) = true := fun c hc => decide_eq_true (ha c hc)
  have hpb : ∀ c ∈ b, decide (c ∈ punctuation) = true := fun c hc => decide_eq_true (hb c hc)
  unfold strip
  rw [List.append_assoc, dropWhile_append_all hpa]
  cases core with
  | nil =>
    have := dropWhile_append_all (t := []) hpb
    rw [List.append_nil] at this
    rw [List.nil_append, this]
    rfl
  | cons c cs =>
    have hc : ¬(decide (c ∈ punctuation) = true) := by simpa using h1 c cs rfl
    rw [List.cons_append, List.dropWhile_cons_of_neg (p := fun c => decide (c ∈ punctuation)) hc, ← List.cons_append, List.reverse_append,
      dropWhile_append_all fun c' hc' => hpb c' (List.mem_reverse.1 hc')]
    obtain ⟨l, x, hx⟩ : ∃ l x, c :: cs = l ++ [x] :=
      ⟨(c :: cs).dropLast, (c :: cs).getLast (by simp), (List.dropLast_concat_getLast _).symm⟩
    have hxp : ¬(decide (x ∈ punctuation) = true) := by simpa using h2 x l hx
    rw [hx, List.reverse_append, List.reverse_singleton, List.singleton_append, List.dropWhile_cons_of_neg (p := fun c => decide (c ∈ punctuation)) hxp,
      List.reverse_cons, List.reverse_reverse]

theorem mem_takeWhile' {p : Char → Bool} {t : Word} : ∀ c ∈ t.takeWhile p, p c = true := by
  induction t with
  | nil => intro c hc; cases hc
  | cons x t ih =>
    intro c hc
    by_cases hx : p x = true
    · rw [List.takeWhile_cons_of_pos hx] at hc
      rcases List.mem_cons.1 hc with rfl | hc
      · exact hx
      · exact ih c hc
    · rw [List.takeWhile_cons_of_neg hx] at hc
      cases hc

theorem dropWhile_head {p : Char → Bool} {t : Word} {c : Char} {cs : Word} (h : t.dropWhile p = c :: cs) :
    p c = false := by
  induction t with
  | nil => cases h
  | cons x t ih =>
    by_cases hx : p x = true
    · rw [List.dropWhile_cons_of_pos hx] at h
      exact ih h
    · rw [List.dropWhile_cons_of_neg hx] at h
      injection h with h1 _
      subst h1
      simpa using hx

theorem strip_parts (w : Word) : ∃ a b, w = a ++ strip w ++ b ∧ (∀ c ∈ a, c ∈ punctuation) ∧
    (∀ c ∈ b, c ∈ punctuation) ∧ (∀ c cs, strip w = c :: cs → c ∉ punctuation) ∧
    ∀ c cs, strip w = cs ++ [c] → c ∉ punctuation := by
  let p : Char → Bool := fun c => decide (c ∈ punctuation)
  have hp : ∀ c, p c = true ↔ c ∈ punctuation := fun c => decide_eq_true_iff
  have hpf : ∀ c, p c = false ↔ c ∉ punctuation := fun c => decide_eq_false_iff_not
  have hs : strip w = ((w.dropWhile p).reverse.dropWhile p).reverse := rfl
  have e : w.dropWhile p = strip w ++ ((w.dropWhile p).reverse.takeWhile p).reverse := by
    rw [hs, ← List.reverse_append, List.takeWhile_append_dropWhile, List.reverse_reverse]
  refine ⟨w.takeWhile p, ((w.dropWhile p).reverse.takeWhile p).reverse, ?_, ?_, ?_, ?_, ?_⟩
  · rw [List.append_assoc, ← e, List.takeWhile_append_dropWhile]
  · exact fun c hc => (hp c).1 (mem_takeWhile' c hc)
  · exact fun c hc => (hp c).1 (mem_takeWhile' c (List.mem_reverse.1 hc))
  · intro c cs h
    rw [h, List.cons_append] at e
    exact (hpf c).1 (dropWhile_head e)
  · intro c cs h
    have h' : (w.dropWhile p).reverse.dropWhile p = c :: cs.reverse := by
      have := congrArg List.reverse (hs.symm.trans h)
      rw [List.reverse_reverse] at this
      rw [this]; simp
    exact (hpf c).1 (dropWhile_head h')

/-- The words of a text are uniquely determined, and `split` finds them. -/
theorem wordsOf_iff (t : Word) (ws : List Word) : WordsOf isSpace t ws ↔ ws = split isSpace t := by
  constructor
  · intro h
    induction h with
    | none h => rw [split_spaces h]
    | word hg hne hw hr e ha hb h1 h2 _ ih =>
      rw [List.append_assoc, split_gap hg, split_word hne hw hr, ← ih]
      subst e
      rw [strip_eq (fun c h => (mem_punctuation c).2 (ha c h)) (fun c h => (mem_punctuation c).2 (hb c h))
        (fun c cs h h' => h1 c cs h ((mem_punctuation c).1 h')) (fun c cs h h' => h2 c cs h ((mem_punctuation c).1 h'))]
  · rintro rfl
    induction hn : t.length using Nat.strongRecOn generalizing t with
    | ind n ih =>
      by_cases hall : ∀ c ∈ t, isSpace c = true
      · rw [split_spaces hall]
        exact WordsOf.none hall
      · let gap := t.takeWhile isSpace
        let t1 := t.dropWhile isSpace
        let w := t1.takeWhile fun c => !isSpace c
        let rest := t1.dropWhile fun c => !isSpace c
        have et : t = gap ++ w ++ rest := by
          rw [List.append_assoc, List.takeWhile_append_dropWhile, List.takeWhile_append_dropWhile]
        have hg : ∀ c ∈ gap, isSpace c = true := mem_takeWhile'
        have hw : ∀ c ∈ w, isSpace c = false := fun c hc => by simpa using mem_takeWhile' c hc
        have hr : ∀ c cs, rest = c :: cs → isSpace c = true := fun c cs h => by simpa using dropWhile_head h
        have hne : w ≠ [] := by
          intro hw0
          cases h1 : t1 with
          | nil =>
            apply hall
            have : t = gap := by
              have := List.takeWhile_append_dropWhile (p := isSpace) (l := t)
              rw [show t.dropWhile isSpace = [] from h1, List.append_nil] at this
              exact this.symm
            rw [this]
            exact hg
          | cons c cs =>
            have hc := dropWhile_head h1
            have : w = c :: cs.takeWhile fun c => !isSpace c := by
              show t1.takeWhile _ = _
              rw [h1, List.takeWhile_cons_of_pos (by simp [hc])]
            rw [this] at hw0
            cases hw0
        obtain ⟨a, b, h1, h2, h3, h4, h5⟩ := strip_parts w
        have hlt : rest.length < n := by
          rw [← hn, et, List.length_append, List.length_append]
          have := List.length_pos_iff.2 hne
          omega
        have hsplit : split isSpace t = strip w :: split isSpace rest := by
          conv => lhs; rw [et]
          rw [List.append_assoc, split_gap hg, split_word hne hw hr]
        rw [hsplit, et]
        exact WordsOf.word hg hne hw hr h1 (fun c h => (mem_punctuation c).1 (h2 c h))
          (fun c h => (mem_punctuation c).1 (h3 c h)) (fun c cs h h' => h4 c cs h ((mem_punctuation c).2 h'))
          (fun c cs h h' => h5 c cs h ((mem_punctuation c).2 h')) (ih _ hlt rest rfl)

end Verif.Words
