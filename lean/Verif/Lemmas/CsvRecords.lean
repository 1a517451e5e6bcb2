import Verif.Model.CsvRecords
import Verif.Spec.CsvRecords
import Mathlib.Tactic.Basic
import Mathlib.Tactic.Push

/-! # Lemmas on records of delimited data -/

namespace Verif.CsvRecords

open Verif Verif.Spec.CsvRecords

theorem mem_breaks (c : Char) : breaks.contains c = true ↔ LineBreak c := by
  have key : ∀ n : ℕ, (Char.ofNat n).toNat = n → (c = Char.ofNat n ↔ c.toNat = n) := by
    intro n hn
    constructor
    · rintro rfl; exact hn
    · intro h; rw [← h, Char.ofNat_toNat]
  have h10 : c = '\n' ↔ c.toNat = 10 := key 10 (by decide)
  have h13 : c = '\r' ↔ c.toNat = 13 := key 13 (by decide)
  simp only [breaks, List.contains_iff_mem, List.mem_cons, List.not_mem_nil, or_false, LineBreak, h10, h13, key 11 (by decide), key 12 (by decide),
    key 28 (by decide), key 29 (by decide), key 30 (by decide), key 0x85 (by decide), key 0x2028 (by decide), key 0x2029 (by decide)]
  omega

/-! ### Fields -/

theorem escaped_flatMap (q : Char) : ∀ f : List Char, Escaped q (f.flatMap fun c => if c = q then [c, c] else [c]) f
  | [] => .nil
  | c :: f => by
    rw [List.flatMap_cons]
    by_cases h : c = q
    · subst h; simpa using .quote (escaped_flatMap c f)
    · rw [if_neg h]; exact .char h (escaped_flatMap q f)

theorem field_field (D : Dialect) (b : Bool) (f : List Char) : Field D.delim D.quote (field D b f) f := by
  unfold field
  split
  · exact .quoted (escaped_flatMap _ _)
  · rename_i h
    refine .bare fun c hc => ?_
    simp only [quoted, Bool.or_eq_true, List.any_eq_true, decide_eq_true_eq, not_or, not_exists, not_and] at h
    exact ⟨(h.1.1 c hc).1.1, (h.1.1 c hc).1.2⟩

theorem row_line (D : Dialect) (b : Bool) : ∀ fs : List (List Char), fs ≠ [] →
    Line D.delim D.quote (join D.delim (fs.map (field D b))) fs
  | [], h => absurd rfl h
  | [f], _ => .last (field_field D b f)
  | f :: g :: fs, _ => .more (field_field D b f) (row_line D b (g :: fs) (by simp))

theorem mem_field {D : Dialect} {b : Bool} {f : List Char} {c : Char} (h : c ∈ field D b f) : c ∈ f ∨ c = D.quote := by
  unfold field at h
  split at h
  · simp only [List.cons_append, List.mem_cons, List.mem_append, List.mem_flatMap, List.not_mem_nil, or_false] at h
    rcases h with h | ⟨x, hx, hc⟩ | h
    · exact .inr h
    · left; split at hc <;> simp at hc <;> exact hc ▸ hx
    · exact .inr h
  · exact .inl h

theorem mem_join {sep c : Char} : ∀ {ls : List (List Char)}, c ∈ join sep ls → c = sep ∨ ∃ l ∈ ls, c ∈ l
  | [], h => by cases h
  | [l], h => .inr ⟨l, by simp, h⟩
  | l :: m :: ls, h => by
    simp only [join, List.mem_append, List.mem_cons] at h
    rcases h with h | h | h
    · exact .inr ⟨l, by simp, h⟩
    · exact .inl h
    · rcases mem_join h with h | ⟨x, hx, hc⟩
      · exact .inl h
      · exact .inr ⟨x, List.mem_cons_of_mem _ hx, hc⟩

theorem mem_row {D : Dialect} {fs : List (List Char)} {c : Char} (h : c ∈ row D fs) : c = D.delim ∨ c = D.quote ∨ ∃ f ∈ fs, c ∈ f := by
  rcases mem_join h with h | ⟨l, hl, hc⟩
  · exact .inl h
  · obtain ⟨f, hf, rfl⟩ := List.mem_map.1 hl
    rcases mem_field hc with h | h
    · exact .inr (.inr ⟨f, hf, h⟩)
    · exact .inr (.inl h)

/-! ### A line can be read in one way only -/

/-- Where a reader of a line is. -/
inductive Mode where
  | out
  | inside
  | after

/-- A character before the first field. -/
def push (c : Char) : List (List Char) → List (List Char)
  | [] => [[c]]
  | f :: fs => (c :: f) :: fs

/-- A reader of lines. -/
def decode (d q : Char) : Mode → List Char → List (List Char)
  | _, [] => [[]]
  | .out, c :: t => if c = d then [] :: decode d q .out t else if c = q then decode d q .inside t else push c (decode d q .out t)
  | .inside, c :: t => if c = q then decode d q .after t else push c (decode d q .inside t)
  | .after, c :: t => if c = q then push q (decode d q .inside t) else if c = d then [] :: decode d q .out t else decode d q .out t

theorem decode_bare {d q : Char} : ∀ {f : List Char} (r : List Char), (∀ c ∈ f, c ≠ d ∧ c ≠ q) →
    decode d q .out (f ++ r) = f.foldr push (decode d q .out r)
  | [], r, _ => rfl
  | c :: f, r, h => by
    have hc := h c List.mem_cons_self
    simp only [List.cons_append, decode, if_neg hc.1, if_neg hc.2, List.foldr_cons]
    rw [decode_bare r fun c hc => h c (List.mem_cons_of_mem _ hc)]

theorem decode_escaped {d q : Char} (r : List Char) : ∀ {w f : List Char}, Escaped q w f →
    decode d q .inside (w ++ q :: r) = f.foldr push (decode d q .after r)
  | _, _, .nil => by simp [decode]
  | _, _, .char h e => by
    simp only [List.cons_append, decode, if_neg h, List.foldr_cons]
    rw [decode_escaped r e]
  | _, _, .quote e => by
    simp only [List.cons_append, decode, if_true, List.foldr_cons]
    rw [decode_escaped r e]

theorem foldr_push (f g : List Char) (fs : List (List Char)) : f.foldr push (g :: fs) = (f ++ g) :: fs := by
  induction f with
  | nil => rfl
  | cons c f ih => rw [List.foldr_cons, ih]; rfl

theorem decode_line {d q : Char} (hdq : d ≠ q) {w : List Char} {fs : List (List Char)} (h : Line d q w fs) : decode d q .out w = fs := by
  induction h with
  | last hf =>
    cases hf with
    | bare hb =>
      rename_i f
      have := decode_bare [] hb
      rw [List.append_nil] at this
      rw [this, decode, foldr_push, List.append_nil]
    | quoted he =>
      rw [List.cons_append, decode, if_neg (Ne.symm hdq), if_pos rfl, decode_escaped [] he, decode, foldr_push, List.append_nil]
  | more hf _ ih =>
    cases hf with
    | bare hb => rw [decode_bare _ hb, decode, if_pos rfl, foldr_push, List.append_nil, ih]
    | quoted he =>
      rename_i w'
      rw [List.cons_append, List.cons_append, decode, if_neg (Ne.symm hdq), if_pos rfl, List.append_assoc, List.cons_append, List.nil_append,
        decode_escaped _ he, decode, if_neg hdq, if_pos rfl, foldr_push, List.append_nil, ih]

/-! ### Lines -/

theorem splitLines_line {l : List Char} (h : ∀ c ∈ l, ¬ LineBreak c) (t : List Char) :
    splitLines false (l ++ '\n' :: t) = l :: splitLines false t := by
  induction l with
  | nil => simp [splitLines, breaks]
  | cons c l ih =>
    have hc : breaks.contains c = false := by
      rw [Bool.eq_false_iff, Ne, mem_breaks]; exact h c List.mem_cons_self
    rw [List.cons_append, splitLines, Bool.false_and, if_neg (by simp), hc, if_neg (by simp), ih fun c hc => h c (List.mem_cons_of_mem _ hc)]

theorem splitLines_lines : ∀ {ls : List (List Char)}, (∀ l ∈ ls, ∀ c ∈ l, ¬ LineBreak c) → splitLines false (ls.flatMap (· ++ ['\n'])) = ls
  | [], _ => rfl
  | l :: ls, h => by
    rw [List.flatMap_cons, List.append_assoc, List.cons_append, List.nil_append, splitLines_line (h l List.mem_cons_self),
      splitLines_lines fun l hl => h l (List.mem_cons_of_mem _ hl)]

/-- Texts that are empty or end with a line feed. -/
def Ended (t : List Char) : Prop := t = [] ∨ ∃ u, t = u ++ ['\n']

theorem Ended.tail {c : Char} {t : List Char} (h : Ended (c :: t)) : Ended t := by
  rcases h with h | ⟨u, h⟩
  · cases h
  · cases u with
    | nil => simp at h; exact .inl h.2
    | cons d u => simp at h; exact .inr ⟨u, h.2⟩

theorem splitLines_ended : ∀ {t : List Char}, Ended t → (∀ c ∈ t, LineBreak c → c = '\n') →
    (splitLines false t).flatMap (· ++ ['\n']) = t ∧ (splitLines false t).length = t.count '\n'
  | [], _, _ => ⟨rfl, rfl⟩
  | c :: t, he, hb => by
    obtain ⟨h1, h2⟩ := splitLines_ended he.tail fun c hc => hb c (List.mem_cons_of_mem _ hc)
    by_cases hc : breaks.contains c = true
    · have : c = '\n' := hb c List.mem_cons_self ((mem_breaks c).1 hc)
      subst this
      have hcr : ('\n' : Char) ≠ '\r' := by decide
      simp only [splitLines, Bool.false_and, Bool.false_eq_true, if_false, hc, if_true, hcr, decide_false]
      simp [h1, h2]
    · have hn : c ≠ '\n' := by
        rintro rfl; exact hc (by decide)
      cases hs : splitLines false t with
      | nil =>
        exfalso
        rw [hs] at h1
        have ht : t = [] := by simpa using h1.symm
        subst ht
        rcases he with h | ⟨u, h⟩
        · cases h
        · have := congrArg List.getLast? h
          simp at this
          exact hn this
      | cons l ls =>
        rw [hs] at h1 h2
        simp only [splitLines, Bool.false_and, Bool.false_eq_true, if_false, hc, hs]
        simp only [List.flatMap_cons, List.length_cons] at h1 h2 ⊢
        exact ⟨by rw [← h1]; simp, by rw [List.count_cons_of_ne hn]; exact h2⟩

theorem join_end (sep : Char) : ∀ {ls : List (List Char)}, ls ≠ [] → join sep ls ++ [sep] = ls.flatMap (· ++ [sep])
  | [], h => absurd rfl h
  | [l], _ => by simp [join]
  | l :: m :: ls, _ => by
    rw [join, List.append_assoc, List.cons_append, join_end sep (ls := m :: ls) (by simp), List.flatMap_cons (x := l)]
    · simp
    · simp

theorem written_ended (D : Dialect) (names : List (List Char)) (rows : List (List (Option (List Char)))) :
    Ended (written D names rows) ∧ written D names rows ≠ [] := by
  have key : ∀ ls : List (List (List Char)), ls ≠ [] → ∃ u, ls.flatMap (fun r => row D r ++ ['\n']) = u ++ ['\n'] := by
    intro ls h
    obtain ⟨xs, x, rfl⟩ : ∃ xs x, ls = xs ++ [x] := ⟨ls.dropLast, ls.getLast h, (List.dropLast_concat_getLast h).symm⟩
    exact ⟨xs.flatMap (fun r => row D r ++ ['\n']) ++ row D x, by simp⟩
  obtain ⟨u, hu⟩ := key (names :: rows.map fun r => r.map fun c => c.getD []) (by simp)
  refine ⟨.inr ⟨u, hu⟩, ?_⟩
  unfold written
  rw [hu]; simp

/-! ### Counting line feeds -/

theorem count_field (D : Dialect) (hq : D.quote ≠ '\n') (b : Bool) (f : List Char) : (field D b f).count '\n' = f.count '\n' := by
  unfold field
  split
  · have : ∀ f : List Char, (f.flatMap fun c => if c = D.quote then [c, c] else [c]).count '\n' = f.count '\n' := by
      intro f
      induction f with
      | nil => rfl
      | cons c f ih =>
        rw [List.flatMap_cons, List.count_append, ih]
        by_cases h : c = D.quote
        · rw [if_pos h, List.count_cons_of_ne (h ▸ hq), List.count_cons_of_ne (h ▸ hq), List.count_cons_of_ne (h ▸ hq)]; simp
        · rw [if_neg h, List.count_cons (l := f), List.count_cons, List.count_nil]; omega
    rw [List.cons_append, List.count_cons_of_ne hq, List.count_append, this, List.count_cons_of_ne hq]; simp
  · rfl

theorem count_join (sep : Char) (hs : sep ≠ '\n') : ∀ ls : List (List Char), (join sep ls).count '\n' = (ls.map (List.count '\n')).sum
  | [] => rfl
  | [l] => by simp [join]
  | l :: m :: ls => by
    rw [join, List.count_append, List.count_cons_of_ne hs, count_join sep hs (m :: ls)]
    · simp
    · simp

theorem count_row (D : Dialect) (hd : D.delim ≠ '\n') (hq : D.quote ≠ '\n') (fs : List (List Char)) :
    (row D fs).count '\n' = (fs.map (List.count '\n')).sum := by
  unfold row
  rw [count_join _ hd, List.map_map]
  congr 1
  exact List.map_congr_left fun f _ => count_field D hq _ f

theorem count_rows (D : Dialect) (hd : D.delim ≠ '\n') (hq : D.quote ≠ '\n') (t : List (List (List Char))) :
    ((t.map (row D)).flatMap (· ++ ['\n'])).count '\n' = t.length + (t.map fun r => (r.map (List.count '\n')).sum).sum := by
  induction t with
  | nil => rfl
  | cons r t ih =>
    rw [List.map_cons, List.flatMap_cons, List.count_append, ih, List.count_append, count_row D hd hq]
    simp only [List.map_cons, List.sum_cons, List.length_cons, List.count_cons, List.count_nil]
    simp
    omega

end Verif.CsvRecords
