import Verif.Model.CharProcess
import Verif.Spec.CharProcess
import Mathlib.Tactic.SplitIfs
import Mathlib.Data.List.Infix
import Mathlib.Data.List.TakeWhile
import Mathlib.Tactic.Linarith

/-!
# Lemmas about splitting text
-/

namespace Verif.CharProcess

open Verif

variable {α L P : Type}

theorem findBreak_le (brk : α → Bool) (r : List α) (n : ℕ) : findBreak brk r n ≤ n := by
  induction n with
  | zero => simp [findBreak]
  | succ n ih => rw [findBreak]; split_ifs <;> omega

theorem findBreak_above (brk : α → Bool) (r : List α) (n i : ℕ) (h1 : findBreak brk r n < i) (h2 : i ≤ n) :
    (r[i]?).any brk = false := by
  induction n with
  | zero => omega
  | succ n ih =>
    rw [findBreak] at h1
    split_ifs at h1 with h
    · omega
    · rcases Nat.lt_or_ge n i with h3 | h3
      · obtain rfl : i = n + 1 := by omega
        simpa using h
      · exact ih h1 h3

theorem findBreak_eq_zero (brk : α → Bool) (r : List α) (n : ℕ) (h : ∀ i, 0 < i → i ≤ n → (r[i]?).any brk = false) :
    findBreak brk r n = 0 := by
  induction n with
  | zero => rfl
  | succ n ih =>
    rw [findBreak, if_neg (by simp [h (n + 1) (by omega) (by omega)])]
    exact ih fun i h1 h2 => h i h1 (by omega)

/-- No break is left after the last one. -/
theorem findBreak_drop (brk : α → Bool) (r : List α) (n m : ℕ) (hm : findBreak brk r n + m ≤ n) :
    findBreak brk (r.drop (findBreak brk r n)) m = 0 := by
  refine findBreak_eq_zero _ _ _ fun i h1 h2 => ?_
  rw [List.getElem?_drop]
  exact findBreak_above brk r n _ (by omega) (by omega)

/-- Everything that was added to batches. -/
def St.out (st : St α L) : List (List α × List L) := st.done.flatten ++ st.cur

/-- The samples. -/
def St.samples (st : St α L) : List (List α) := st.out.map (·.1)

/-- The flattened sample so far. -/
def St.pending (p : Params α) (st : St α L) : List α := List.intercalate p.sep st.flat

/-- All the text so far. -/
def St.stream (p : Params α) (st : St α L) : List α := st.samples.flatten ++ st.pending p

theorem out_yield (size : ℕ) (st : St α L) : (yieldBatch size st).out = st.out := by
  unfold yieldBatch St.out
  split_ifs <;> simp

theorem samples_yield (size : ℕ) (st : St α L) : (yieldBatch size st).samples = st.samples := by
  simp [St.samples, out_yield]

theorem yield_flat (size : ℕ) (st : St α L) : (yieldBatch size st).flat = st.flat ∧ (yieldBatch size st).len = st.len ∧
    (yieldBatch size st).fc = st.fc ∧ (yieldBatch size st).nfc = st.nfc ∧ (yieldBatch size st).ents = st.ents := by
  unfold yieldBatch
  split_ifs <;> simp

/-- The invariant between rounds. -/
structure Inv (p : Params α) (st : St α L) : Prop where
  len : st.len = (st.pending p).length
  pieces : ∀ x ∈ st.flat, x ≠ []
  room : st.flat ≠ [] → p.plain st.fc st.nfc = false ∧ st.len + p.sep.length < p.maxLen
  sizes : ∀ x ∈ st.samples, x ≠ [] ∧ x.length ≤ p.maxLen

theorem inv_yield {p : Params α} {st : St α L} (size : ℕ) (h : Inv p st) : Inv p (yieldBatch size st) := by
  obtain ⟨h1, h2, h3, h4, -⟩ := yield_flat size st
  refine ⟨?_, ?_, ?_, ?_⟩
  · rw [h2, h.len]; simp [St.pending, h1]
  · rw [h1]; exact h.pieces
  · rw [h1, h2, h3, h4]; exact h.room
  · rw [samples_yield]; exact h.sizes

theorem intercalate_append (sep : List α) (xs : List (List α)) (y : List α) (h : xs ≠ []) :
    List.intercalate sep (xs ++ [y]) = List.intercalate sep xs ++ sep ++ y := by
  induction xs with
  | nil => exact absurd rfl h
  | cons x xs ih =>
    cases xs with
    | nil => simp [List.intercalate, List.intersperse]
    | cons x' xs =>
      have := ih (by simp)
      simp only [List.intercalate, List.intersperse, List.cons_append, List.flatten_cons] at this ⊢
      rw [this]
      simp [List.append_assoc]

theorem intercalate_ne_nil (sep : List α) (xs : List (List α)) (h : xs ≠ []) (hp : ∀ x ∈ xs, x ≠ []) :
    List.intercalate sep xs ≠ [] := by
  cases xs with
  | nil => exact absurd rfl h
  | cons x xs =>
    have hx := hp x (by simp)
    cases xs with
    | nil => simpa [List.intercalate, List.intersperse] using hx
    | cons x' xs => simp [List.intercalate, List.intersperse, hx]

theorem Inv.len_pos {p : Params α} {st : St α L} (h : Inv p st) (hf : st.flat ≠ []) : 0 < st.len := by
  rw [h.len]
  exact List.length_pos_iff.mpr (intercalate_ne_nil _ _ hf h.pieces)

theorem Inv.len_zero {p : Params α} {st : St α L} (h : Inv p st) (hf : st.flat = []) : st.len = 0 := by
  rw [h.len]; simp [St.pending, hf]

/-- The text left can only start a new sample. -/
def Stuck (p : Params α) (st : St α L) (r : List α) : Prop :=
  p.atMax = false ∧ p.maxLen - (st.len + p.sep.length) < r.length ∧
    findBreak p.brk r (p.maxLen - (st.len + p.sep.length)) = 0

/-- The state in the middle of a text. -/
def Mid (p : Params α) (st : St α L) (r : List α) : Prop := r = [] ∨ st.flat = [] ∨ Stuck p st r

/-- What comes after extends what was there. -/
def Ext (p : Params α) (st st' : St α L) : Prop :=
  ∃ q rest, st'.samples ++ [st'.pending p] = st.samples ++ q :: rest ∧ st.pending p <+: q

theorem Ext.refl (p : Params α) (st : St α L) : Ext p st st := ⟨_, [], rfl, List.prefix_refl _⟩

theorem Ext.samples {p : Params α} {st st' : St α L} (h : Ext p st st') : ∃ N, st'.samples = st.samples ++ N := by
  obtain ⟨q, rest, h, -⟩ := h
  rcases List.eq_nil_or_concat rest with h0 | ⟨r', x, h0⟩
  · subst h0
    have := List.append_inj_left' h rfl
    exact ⟨[], by simpa using this⟩
  · rw [h0] at h
    have : st'.samples ++ [st'.pending p] = (st.samples ++ q :: r') ++ [x] := by simpa using h
    exact ⟨q :: r', List.append_inj_left' this rfl⟩

theorem Ext.trans {p : Params α} {a b c : St α L} (h1 : Ext p a b) (h2 : Ext p b c) : Ext p a c := by
  obtain ⟨q, rest, h1, hq⟩ := h1
  obtain ⟨q', rest', h2, hq'⟩ := h2
  rcases List.eq_nil_or_concat rest with h0 | ⟨r', x, h0⟩
  · subst h0
    have e1 := List.append_inj_left' h1 rfl
    have e2 : b.pending p = q := by
      rw [e1] at h1
      simpa using h1
    exact ⟨q', rest', by rw [h2, e1], hq.trans (e2 ▸ hq')⟩
  · rw [h0] at h1
    have e1 : b.samples ++ [b.pending p] = (a.samples ++ q :: r') ++ [x] := by simpa using h1
    have e2 := List.append_inj_left' e1 rfl
    exact ⟨q, r' ++ q' :: rest', by rw [h2, e2]; simp, hq⟩

theorem ext_yield {p : Params α} {a b : St α L} (size : ℕ) (h : Ext p a b) : Ext p a (yieldBatch size b) := by
  obtain ⟨q, rest, h, hq⟩ := h
  refine ⟨q, rest, ?_, hq⟩
  rw [samples_yield, ← h]
  simp [St.pending, (yield_flat size b).1]

/-- How many rounds may be left. -/
def rounds (st : St α L) (r : List α) : ℕ := 2 * r.length + if st.flat = [] then 0 else 1

/-! ### The two kinds of rounds -/

theorem samples_add (st : St α L) (x : List α × List L) (st' : St α L) (h1 : st'.done = st.done)
    (h2 : st'.cur = st.cur ++ [x]) : st'.samples = st.samples ++ [x.1] := by
  simp [St.samples, St.out, h1, h2]

theorem samples_same (st st' : St α L) (h1 : st'.done = st.done) (h2 : st'.cur = st.cur) : st'.samples = st.samples := by
  simp [St.samples, St.out, h1, h2]

theorem plainCut_pos {p : Params α} (hm : 0 < p.maxLen) {st : St α L} (h : st.len = 0) (r : List α) :
    0 < plainCut p st r ∧ plainCut p st r ≤ p.maxLen := by
  unfold plainCut
  have := findBreak_le p.brk r p.maxLen
  split_ifs <;> omega

/-- A round without flattening. -/
theorem plain_round {p : Params α} (hm : 0 < p.maxLen) (pad dflt : L) {st : St α L} (hi : Inv p st) {r : List α} (hr : r ≠ [])
    (labs : List L) (hp : p.plain st.fc st.nfc = true) :
    st.flat = [] ∧ 0 < (step p pad dflt st r labs).2 ∧
      (step p pad dflt st r labs).1.samples = st.samples ++ [r.take (step p pad dflt st r labs).2] ∧
      (step p pad dflt st r labs).1.flat = [] ∧ Inv p (step p pad dflt st r labs).1 := by
  have hf : st.flat = [] := by
    by_contra h
    rw [(hi.room h).1] at hp
    exact nomatch hp
  have hl := hi.len_zero hf
  have hc := plainCut_pos hm hl r
  have hs : (step p pad dflt st r labs).1.samples = st.samples ++ [r.take (step p pad dflt st r labs).2] := by
    unfold step
    rw [if_pos hp]
    simp [plainStep, St.samples, St.out]
  have hn : (step p pad dflt st r labs).2 = plainCut p st r := by
    unfold step; rw [if_pos hp]; rfl
  have hfl : (step p pad dflt st r labs).1.flat = [] := by
    unfold step; rw [if_pos hp]; exact hf
  have hlen : (step p pad dflt st r labs).1.len = 0 := by
    unfold step; rw [if_pos hp]; exact hl
  refine ⟨hf, by rw [hn]; exact hc.1, hs, hfl, ?_, ?_, ?_, ?_⟩
  · rw [hlen]; simp [St.pending, hfl]
  · rw [hfl]; simp
  · intro h; exact absurd hfl h
  · rw [hs]
    intro x hx
    rcases List.mem_append.mp hx with hx | hx
    · exact hi.sizes x hx
    · rw [List.mem_singleton] at hx
      subst hx
      rw [hn]
      refine ⟨?_, by rw [List.length_take]; omega⟩
      intro h0
      rcases List.take_eq_nil_iff.mp h0 with h | h
      · omega
      · exact hr h

/-- The flattened sample is let go. -/
theorem emit_round {p : Params α} (pad : L) {st : St α L} (hs : ∀ x ∈ st.samples, x ≠ [] ∧ x.length ≤ p.maxLen)
    (hne : st.pending p ≠ []) (hle : (st.pending p).length ≤ p.maxLen) :
    (emit p pad st).samples = st.samples ++ [st.pending p] ∧ (emit p pad st).flat = [] ∧ Inv p (emit p pad st) := by
  have h1 : (emit p pad st).samples = st.samples ++ [st.pending p] := by
    simp [emit, St.samples, St.out, St.pending]
  refine ⟨h1, rfl, rfl, by simp [emit], fun h => absurd rfl h, ?_⟩
  rw [h1]
  intro x hx
  rcases List.mem_append.mp hx with hx | hx
  · exact hs x hx
  · rw [List.mem_singleton] at hx
    subst hx
    exact ⟨hne, hle⟩

/-- What the separator and a piece make of the flattened sample. -/
def grown (p : Params α) (st : St α L) (r : List α) (n : ℕ) : List α :=
  st.pending p ++ (if st.flat = [] then [] else p.sep) ++ r.take n

theorem opened_len {p : Params α} (dflt : L) {st : St α L} (hi : Inv p st) :
    (opened p dflt st).len = st.len + (if st.flat = [] then 0 else p.sep.length) ∧ (opened p dflt st).flat = st.flat ∧
      (opened p dflt st).cur = st.cur ∧ (opened p dflt st).done = st.done ∧ (opened p dflt st).fc = st.fc ∧
      (opened p dflt st).nfc = st.nfc := by
  unfold opened
  by_cases hf : st.flat = []
  · rw [if_neg (by rw [hi.len_zero hf]; omega)]
    simp [hf]
  · rw [if_pos (hi.len_pos hf)]
    simp [hf]

/-- A piece is added, and the sample let go if full. -/
theorem grow_round {p : Params α} (hm : p.sep.length < p.maxLen) (pad dflt : L) {st : St α L} (hi : Inv p st) {r : List α}
    (hr : r ≠ []) (labs : List L) (hp : p.plain st.fc st.nfc = false) (n : ℕ) (hn : 0 < n)
    (hn2 : n ≤ p.maxLen - (opened p dflt st).len) :
    let st' := emitIfFull p pad (addPiece (opened p dflt st) r labs n)
    Inv p st' ∧
      ((st'.flat = [] ∧ st'.samples = st.samples ++ [grown p st r n]) ∨
        (st'.flat ≠ [] ∧ st'.samples = st.samples ∧ st'.pending p = grown p st r n ∧ st'.fc = st.fc ∧ st'.nfc = st.nfc ∧
          st'.len = (opened p dflt st).len + (r.take n).length)) := by
  intro st'
  obtain ⟨ho1, ho2, ho3, ho4, ho5, ho6⟩ := opened_len dflt hi
  have htake : r.take n ≠ [] := by
    intro h0
    rcases List.take_eq_nil_iff.mp h0 with h | h
    · omega
    · exact hr h
  have hpend : (addPiece (opened p dflt st) r labs n).pending p = grown p st r n := by
    unfold addPiece grown St.pending
    rw [if_neg (by omega)]
    simp only [ho2]
    by_cases hf : st.flat = []
    · simp [hf, List.intercalate, List.intersperse]
    · rw [intercalate_append p.sep _ _ hf, if_neg hf]
  have hlen : (addPiece (opened p dflt st) r labs n).len = (opened p dflt st).len + (r.take n).length := by
    unfold addPiece; rw [if_neg (by omega)]
  have hlen2 : (addPiece (opened p dflt st) r labs n).len = (grown p st r n).length := by
    rw [hlen, ho1, hi.len]
    unfold grown
    by_cases hf : st.flat = [] <;> simp [hf, Nat.add_assoc]
  have hsamp : (addPiece (opened p dflt st) r labs n).samples = st.samples := by
    refine samples_same _ _ ?_ ?_
    · unfold addPiece; rw [if_neg (by omega)]; exact ho4
    · unfold addPiece; rw [if_neg (by omega)]; exact ho3
  have htl : (r.take n).length ≤ n := by rw [List.length_take]; omega
  have hne : grown p st r n ≠ [] := by unfold grown; simp [htake]
  have hle : (grown p st r n).length ≤ p.maxLen := by
    rw [← hlen2, hlen]
    omega
  have hfl : (addPiece (opened p dflt st) r labs n).flat = st.flat ++ [r.take n] := by
    unfold addPiece; rw [if_neg (by omega)]; simp [ho2]
  have hfc : (addPiece (opened p dflt st) r labs n).fc = st.fc ∧ (addPiece (opened p dflt st) r labs n).nfc = st.nfc := by
    unfold addPiece; rw [if_neg (by omega)]; exact ⟨ho5, ho6⟩
  by_cases hfull : p.maxLen - p.sep.length ≤ (addPiece (opened p dflt st) r labs n).len
  · have : st' = emit p pad (addPiece (opened p dflt st) r labs n) := if_pos hfull
    rw [this]
    obtain ⟨h1, h2, h3⟩ := emit_round (p := p) pad (st := addPiece (opened p dflt st) r labs n)
      (by rw [hsamp]; exact hi.sizes) (by rw [hpend]; exact hne) (by rw [hpend]; exact hle)
    refine ⟨h3, .inl ⟨h2, ?_⟩⟩
    rw [h1, hsamp, hpend]
  · have : st' = addPiece (opened p dflt st) r labs n := if_neg hfull
    rw [this]
    refine ⟨⟨by rw [hlen2, hpend], ?_, ?_, by rw [hsamp]; exact hi.sizes⟩, .inr ⟨?_, hsamp, hpend, hfc.1, hfc.2, hlen⟩⟩
    · rw [hfl]
      intro x hx
      rcases List.mem_append.mp hx with hx | hx
      · exact hi.pieces x hx
      · rw [List.mem_singleton] at hx; rw [hx]; exact htake
    · intro _
      rw [hfc.1, hfc.2]
      exact ⟨hp, by omega⟩
    · rw [hfl]; simp

/-- The flattened sample is let go to make room. -/
theorem force_round {p : Params α} (pad dflt : L) {st : St α L} (hi : Inv p st) (hf : st.flat ≠ []) :
    let o := opened p dflt st
    let st' := emit p pad { o with len := o.len - p.sep.length, ents := dropEnd p.sep.length o.ents }
    Inv p st' ∧ st'.flat = [] ∧ st'.samples = st.samples ++ [st.pending p] := by
  intro o st'
  obtain ⟨ho1, ho2, ho3, ho4, ho5, ho6⟩ := opened_len dflt hi
  have hsamp : ({ o with len := o.len - p.sep.length, ents := dropEnd p.sep.length o.ents } : St α L).samples = st.samples :=
    samples_same _ _ ho4 ho3
  have hpend : ({ o with len := o.len - p.sep.length, ents := dropEnd p.sep.length o.ents } : St α L).pending p =
      st.pending p := by
    unfold St.pending
    simp only [o, ho2]
  have hroom := hi.room hf
  obtain ⟨h1, h2, h3⟩ := emit_round (p := p) pad
    (st := ({ o with len := o.len - p.sep.length, ents := dropEnd p.sep.length o.ents } : St α L))
    (by rw [hsamp]; exact hi.sizes) (by rw [hpend]; exact intercalate_ne_nil _ _ hf hi.pieces)
    (by rw [hpend, ← hi.len]; omega)
  exact ⟨h3, h2, by rw [h1, hsamp, hpend]⟩

/-- What a flattening round does: it lets the flattened sample go, or adds a piece to it. -/
theorem flat_round {p : Params α} (hm : p.sep.length < p.maxLen) (pad dflt : L) {st : St α L} (hi : Inv p st) {r : List α}
    (hr : r ≠ []) (labs : List L) (hp : p.plain st.fc st.nfc = false) :
    let st' := (step p pad dflt st r labs).1
    let n := (step p pad dflt st r labs).2
    Inv p st' ∧
      ((st.flat ≠ [] ∧ n = 0 ∧ st'.flat = [] ∧ st'.samples = st.samples ++ [st.pending p]) ∨
        (0 < n ∧ (st.flat = [] ∨ ¬ Stuck p st r) ∧
          ((st'.flat = [] ∧ st'.samples = st.samples ++ [grown p st r n]) ∨
            (st'.flat ≠ [] ∧ st'.samples = st.samples ∧ st'.pending p = grown p st r n ∧ st'.fc = st.fc ∧
              st'.nfc = st.nfc ∧ Mid p st' (r.drop n))))) := by
  obtain ⟨ho1, -, -, -, -, -⟩ := opened_len dflt hi
  have hroom : 0 < p.maxLen - (opened p dflt st).len := by
    rw [ho1]
    by_cases hf : st.flat = []
    · rw [hi.len_zero hf]; simp [hf]; omega
    · have := (hi.room hf).2
      simp [hf]; omega
  have hbl := findBreak_le p.brk r (p.maxLen - (opened p dflt st).len)
  have hstep : step p pad dflt st r labs = flatStep p pad dflt st r labs := by
    unfold step; rw [if_neg (by simp [hp])]
  rw [hstep]
  unfold flatStep
  dsimp only
  split_ifs with h1 h2 h3
  · -- let go
    have hf : st.flat ≠ [] := by
      intro hf
      rw [ho1, hi.len_zero hf] at h3
      simp [hf] at h3
    obtain ⟨a, b, c⟩ := force_round (p := p) pad dflt hi hf
    exact ⟨a, .inl ⟨hf, rfl, b, c⟩⟩
  · -- no break, and nothing pending
    have hf : st.flat = [] := by
      by_contra hf
      exact h3 (by rw [ho1]; have := hi.len_pos hf; omega)
    obtain ⟨a, b⟩ := grow_round hm pad dflt hi hr labs hp _ hroom (Nat.le_refl _)
    refine ⟨a, .inr ⟨hroom, .inl hf, ?_⟩⟩
    rcases b with b | ⟨b1, b2, b3, b4, b5, b6⟩
    · exact .inl b
    · exfalso
      have := (a.room b1).2
      rw [b6, List.length_take, Nat.min_eq_left (by omega)] at this
      omega
  · -- a break
    obtain ⟨a, b⟩ := grow_round hm pad dflt hi hr labs hp _ (by omega) hbl
    refine ⟨a, .inr ⟨by omega, ?_, ?_⟩⟩
    · by_cases hf : st.flat = []
      · exact .inl hf
      · right
        rintro ⟨-, -, h5⟩
        rw [ho1, if_neg hf] at h2
        exact h2 h5
    · rcases b with b | ⟨b1, b2, b3, b4, b5, b6⟩
      · exact .inl b
      · refine .inr ⟨b1, b2, b3, b4, b5, .inr (.inr ⟨h1.1, ?_, ?_⟩)⟩
        · rw [b6, List.length_take, List.length_drop]
          omega
        · refine findBreak_drop p.brk r _ _ ?_
          rw [b6, List.length_take, Nat.min_eq_left (by omega)]
          have := (a.room b1).2
          rw [b6, List.length_take, Nat.min_eq_left (by omega)] at this
          omega
  · obtain ⟨a, b⟩ := grow_round hm pad dflt hi hr labs hp _ hroom (Nat.le_refl _)
    refine ⟨a, .inr ⟨hroom, ?_, ?_⟩⟩
    · by_cases hf : st.flat = []
      · exact .inl hf
      · right
        rintro ⟨h5, h6, -⟩
        exact h1 ⟨h5, by rw [ho1, if_neg hf]; exact h6⟩
    · rcases b with b | ⟨b1, b2, b3, b4, b5, b6⟩
      · exact .inl b
      · refine .inr ⟨b1, b2, b3, b4, b5, .inl ?_⟩
        rw [List.drop_eq_nil_iff]
        by_contra hlt
        have := (a.room b1).2
        rw [b6, List.length_take, Nat.min_eq_left (by omega)] at this
        omega

/-- One round, in the middle of a text. -/
theorem mid_round {p : Params α} (hm : p.sep.length < p.maxLen) (pad dflt : L) {st : St α L} (hi : Inv p st) {r : List α}
    (hr : r ≠ []) (labs : List L) (hmid : Mid p st r) :
    let st' := (step p pad dflt st r labs).1
    let n := (step p pad dflt st r labs).2
    Inv p st' ∧ Ext p st st' ∧ st'.stream p = st.stream p ++ r.take n ∧ Mid p st' (r.drop n) ∧
      rounds st' (r.drop n) < rounds st r ∧ (st.flat ≠ [] → st.samples ++ [st.pending p] <+: st'.samples) := by
  intro st' n
  have hrl : 0 < r.length := List.length_pos_iff.mpr hr
  cases hp : p.plain st.fc st.nfc with
  | true =>
    obtain ⟨h1, h2, h3, h4, h5⟩ := plain_round (by omega) pad dflt hi hr labs hp
    have hp0 : st.pending p = [] := by simp [St.pending, h1]
    have hp1 : st'.pending p = [] := by simp [St.pending, st', h4]
    refine ⟨h5, ⟨r.take n, [st'.pending p], ?_, ?_⟩, ?_, .inr (.inl h4), ?_, fun h => absurd h1 h⟩
    · show st'.samples ++ _ = _
      rw [h3]; simp [n]
    · rw [hp0]; exact List.nil_prefix
    · unfold St.stream
      rw [h3, hp1, hp0]; simp [n]
    · unfold rounds
      rw [h4, h1, List.length_drop]
      simp only [if_true]
      have : 0 < n := h2
      omega
  | false =>
    obtain ⟨h0, h⟩ := flat_round hm pad dflt hi hr labs hp
    rcases h with ⟨h1, h2, h3, h4⟩ | ⟨h1, h2, h3⟩
    · have hp1 : st'.pending p = [] := by simp [St.pending, st', h3]
      refine ⟨h0, ⟨st.pending p, [st'.pending p], ?_, List.prefix_refl _⟩, ?_, .inr (.inl h3), ?_, fun _ => ?_⟩
      · show st'.samples ++ _ = _
        rw [h4]; simp
      · unfold St.stream
        rw [h4, hp1, show n = 0 from h2]; simp
      · unfold rounds
        rw [h3, show n = 0 from h2, if_neg h1]; simp
      · show _ <+: st'.samples
        rw [h4]
    · have hf : st.flat = [] := by
        rcases hmid with h | h | h
        · exact absurd h hr
        · exact h
        · rcases h2 with h2 | h2
          · exact h2
          · exact absurd h h2
      have hg : grown p st r n = r.take n := by simp [grown, hf, St.pending, List.intercalate, List.intersperse]
      have hp0 : st.pending p = [] := by simp [St.pending, hf]
      rcases h3 with ⟨h3, h4⟩ | ⟨h3, h4, h5, -, -, h6⟩
      · have hp1 : st'.pending p = [] := by simp [St.pending, st', h3]
        refine ⟨h0, ⟨grown p st r n, [st'.pending p], ?_, ?_⟩, ?_, .inr (.inl h3), ?_, fun h => absurd hf h⟩
        · show st'.samples ++ _ = _
          rw [h4]; simp [n]
        · rw [hp0]; exact List.nil_prefix
        · unfold St.stream
          rw [h4, hp1, hp0, hg]; simp
        · unfold rounds
          rw [h3, hf, List.length_drop]
          have : 0 < n := h1
          simp only [if_true]
          omega
      · refine ⟨h0, ⟨st'.pending p, [], ?_, ?_⟩, ?_, h6, ?_, fun h => absurd hf h⟩
        · show st'.samples ++ _ = _
          rw [h4]
        · rw [hp0]; exact List.nil_prefix
        · unfold St.stream
          rw [h4, h5, hg, hp0]; simp
        · unfold rounds
          rw [if_neg h3, hf, List.length_drop]
          have : 0 < n := h1
          simp only [if_true]
          omega

theorem stream_yield {p : Params α} (size : ℕ) (st : St α L) : (yieldBatch size st).stream p = st.stream p := by
  unfold St.stream
  rw [samples_yield]
  simp [St.pending, (yield_flat size st).1]

theorem mid_yield {p : Params α} (size : ℕ) {st : St α L} {r : List α} (h : Mid p st r) : Mid p (yieldBatch size st) r := by
  obtain ⟨h1, h2, -⟩ := yield_flat size st
  unfold Mid Stuck at *
  rw [h1, h2]
  exact h

theorem rounds_yield (size : ℕ) (st : St α L) (r : List α) : rounds (yieldBatch size st) r = rounds st r := by
  simp [rounds, (yield_flat size st).1]

/-- The inner loop in the middle of a text: it ends, and all of the text follows. -/
theorem place_mid {p : Params α} (hm : p.sep.length < p.maxLen) (pad dflt : L) (size fuel : ℕ) (st : St α L) (r : List α)
    (labs : List L) (hi : Inv p st) (hmid : Mid p st r) (hfuel : rounds st r ≤ fuel) :
    ∃ st', place p pad dflt size fuel st r labs = some st' ∧ Inv p st' ∧ Ext p st st' ∧ st'.stream p = st.stream p ++ r ∧
      (st.flat ≠ [] → r ≠ [] → st.samples ++ [st.pending p] <+: st'.samples) := by
  induction fuel generalizing st r labs with
  | zero =>
    cases r with
    | nil => exact ⟨st, by simp [place], hi, Ext.refl p st, by simp, fun _ h => absurd rfl h⟩
    | cons c r => simp [rounds] at hfuel
  | succ fuel ih =>
    cases r with
    | nil => exact ⟨st, by simp [place], hi, Ext.refl p st, by simp, fun _ h => absurd rfl h⟩
    | cons c r =>
      obtain ⟨h1, h2, h3, h4, h5, h6⟩ := mid_round hm pad dflt hi (r := c :: r) (by simp) labs hmid
      obtain ⟨st', g1, g2, g3, g4, -⟩ := ih (yieldBatch size (step p pad dflt st (c :: r) labs).1)
        ((c :: r).drop (step p pad dflt st (c :: r) labs).2) (labs.drop (step p pad dflt st (c :: r) labs).2)
        (inv_yield size h1) (mid_yield size h4) (by rw [rounds_yield]; omega)
      refine ⟨st', by rw [place]; exact g1, g2, (ext_yield size h2).trans g3, ?_, fun hf _ => ?_⟩
      · rw [g4, stream_yield, h3, List.append_assoc, List.take_append_drop]
      · obtain ⟨N, hN⟩ := g3.samples
        rw [samples_yield] at hN
        rw [hN]
        exact (h6 hf).trans (List.prefix_append _ _)

/-- The inner loop on a whole text. -/
theorem place_text {p : Params α} (hm : p.sep.length < p.maxLen) (pad dflt : L) (size : ℕ) (st : St α L) (r : List α)
    (labs : List L) (hi : Inv p st) (hr : r ≠ []) :
    ∃ st', place p pad dflt size (2 * r.length + 1) st r labs = some st' ∧ Inv p st' ∧ Ext p st st' ∧
      ((st'.stream p = st.stream p ++ r ∧ (st.flat ≠ [] → st.samples ++ [st.pending p] <+: st'.samples)) ∨
        (st.flat ≠ [] ∧ st'.stream p = st.stream p ++ p.sep ++ r ∧
          ∃ q rest, st'.samples ++ [st'.pending p] = st.samples ++ q :: rest ∧
            (st.pending p).length + p.sep.length < q.length)) := by
  by_cases hmid : Mid p st r
  · obtain ⟨st', h1, h2, h3, h4, h5⟩ := place_mid hm pad dflt size (2 * r.length + 1) st r labs hi hmid
      (by unfold rounds; split_ifs <;> omega)
    exact ⟨st', h1, h2, h3, .inl ⟨h4, fun h => h5 h hr⟩⟩
  · have hf : st.flat ≠ [] := fun h => hmid (.inr (.inl h))
    have hp := (hi.room hf).1
    obtain ⟨h0, h⟩ := flat_round hm pad dflt hi hr labs hp
    cases r with
    | nil => exact absurd rfl hr
    | cons c r =>
      have hplace : ∀ x, place p pad dflt size (2 * (c :: r).length) (yieldBatch size (step p pad dflt st (c :: r) labs).1)
          ((c :: r).drop (step p pad dflt st (c :: r) labs).2) (labs.drop (step p pad dflt st (c :: r) labs).2) = x →
          place p pad dflt size (2 * (c :: r).length + 1) st (c :: r) labs = x := by
        intro x hx
        rw [place]
        exact hx
      rcases h with ⟨h1, h2, h3, h4⟩ | ⟨h1, -, h3⟩
      · obtain ⟨st', g1, g2, g3, g4, -⟩ := place_mid hm pad dflt size (2 * (c :: r).length)
          (yieldBatch size (step p pad dflt st (c :: r) labs).1)
          ((c :: r).drop (step p pad dflt st (c :: r) labs).2) (labs.drop (step p pad dflt st (c :: r) labs).2)
          (inv_yield size h0) (mid_yield size (.inr (.inl h3)))
          (by rw [rounds_yield]; unfold rounds; rw [if_pos h3, h2]; simp)
        have hpend : (step p pad dflt st (c :: r) labs).1.pending p = [] := by simp [St.pending, h3]
        refine ⟨st', hplace _ g1, g2, (ext_yield size ?_).trans g3, .inl ⟨?_, fun _ => ?_⟩⟩
        · exact ⟨st.pending p, [(step p pad dflt st (c :: r) labs).1.pending p], by rw [h4]; simp, List.prefix_refl _⟩
        · rw [g4, stream_yield, h2]
          unfold St.stream
          rw [h4, hpend]
          simp
        · obtain ⟨N, hN⟩ := g3.samples
          rw [samples_yield, h4] at hN
          rw [hN]
          exact List.prefix_append _ _
      · have htl : 0 < ((c :: r).take (step p pad dflt st (c :: r) labs).2).length := by
          rw [List.length_take]; simp; omega
        have hgl : (st.pending p).length + p.sep.length <
            (grown p st (c :: r) (step p pad dflt st (c :: r) labs).2).length := by
          unfold grown
          rw [if_neg hf, List.length_append, List.length_append]
          omega
        have hmid' : Mid p (step p pad dflt st (c :: r) labs).1 ((c :: r).drop (step p pad dflt st (c :: r) labs).2) := by
          rcases h3 with ⟨h3, -⟩ | ⟨-, -, -, -, -, h3⟩
          · exact .inr (.inl h3)
          · exact h3
        obtain ⟨st', g1, g2, g3, g4, -⟩ := place_mid hm pad dflt size (2 * (c :: r).length)
          (yieldBatch size (step p pad dflt st (c :: r) labs).1)
          ((c :: r).drop (step p pad dflt st (c :: r) labs).2) (labs.drop (step p pad dflt st (c :: r) labs).2)
          (inv_yield size h0) (mid_yield size hmid')
          (by
            rw [rounds_yield]; unfold rounds; rw [List.length_drop]
            simp only [List.length_cons]
            split_ifs <;> omega)
        have hext : ∃ q rest, (step p pad dflt st (c :: r) labs).1.samples ++
            [(step p pad dflt st (c :: r) labs).1.pending p] = st.samples ++ q :: rest ∧
            q = grown p st (c :: r) (step p pad dflt st (c :: r) labs).2 := by
          rcases h3 with ⟨h3, h4⟩ | ⟨h3, h4, h5, -, -, -⟩
          · exact ⟨_, [(step p pad dflt st (c :: r) labs).1.pending p], by rw [h4]; simp, rfl⟩
          · exact ⟨_, [], by rw [h4, h5], rfl⟩
        obtain ⟨q, rest, hq, hq'⟩ := hext
        have hstream : (step p pad dflt st (c :: r) labs).1.stream p =
            st.stream p ++ p.sep ++ (c :: r).take (step p pad dflt st (c :: r) labs).2 := by
          rcases h3 with ⟨h3, h4⟩ | ⟨h3, h4, h5, -, -, -⟩
          · unfold St.stream
            rw [h4]
            simp [St.pending, h3, grown, hf]
          · unfold St.stream
            rw [h4, h5]
            simp [grown, hf]
        -- the first sample extends the one grown
        obtain ⟨q2, rest2, k1, k2⟩ := g3
        refine ⟨st', hplace _ g1, g2, (ext_yield size ⟨q, rest, hq, by rw [hq']; unfold grown; simp [List.append_assoc]⟩).trans
          ⟨q2, rest2, k1, k2⟩, .inr ⟨hf, ?_, ?_⟩⟩
        · rw [g4, stream_yield, hstream, List.append_assoc _ _ (List.drop _ _), List.take_append_drop]
        · rw [samples_yield] at k1
          have hpy : (yieldBatch size (step p pad dflt st (c :: r) labs).1).pending p =
              (step p pad dflt st (c :: r) labs).1.pending p := by
            simp [St.pending, (yield_flat size _).1]
          rw [hpy] at k2
          rcases h3 with ⟨h3, h4⟩ | ⟨h3, h4, h5, -, -, -⟩
          · rw [h4] at k1
            exact ⟨_, q2 :: rest2, by rw [k1]; simp, hgl⟩
          · rw [h4] at k1
            refine ⟨q2, rest2, k1, ?_⟩
            have := k2.length_le
            rw [h5] at this
            omega

theorem place_empty (p : Params α) (pad dflt : L) (size : ℕ) (st : St α L) (labs : List L) (fuel : ℕ) :
    place p pad dflt size fuel st [] labs = some st := by
  cases fuel <;> rfl

theorem inv_init (p : Params α) : Inv p (St.init : St α L) := by
  refine ⟨?_, ?_, ?_, ?_⟩ <;> simp [St.init, St.pending, St.samples, St.out, List.intercalate, List.intersperse]

/-- All texts are placed. -/
theorem placeAll_some {p : Params α} (hm : p.sep.length < p.maxLen) (pad dflt : L) (size : ℕ) (st : St α L)
    (data : List (List α × List L)) (hi : Inv p st) :
    ∃ st', placeAll p pad dflt size st data = some st' ∧ Inv p st' ∧ Ext p st st' := by
  induction data generalizing st with
  | nil => exact ⟨st, rfl, hi, Ext.refl p st⟩
  | cons d ds ih =>
    obtain ⟨r, labs⟩ := d
    by_cases hr : r = []
    · subst hr
      obtain ⟨st', h1, h2, h3⟩ := ih st hi
      exact ⟨st', by rw [placeAll, place_empty]; exact h1, h2, h3⟩
    · obtain ⟨st1, h1, h2, h3, -⟩ := place_text hm pad dflt size st r labs hi hr
      obtain ⟨st', g1, g2, g3⟩ := ih st1 h2
      exact ⟨st', by rw [placeAll, h1]; exact g1, g2, h3.trans g3⟩

/-! ### The samples at the end -/

/-- The samples once the last one is let go. -/
theorem flush_samples {p : Params α} (pad : L) {st : St α L} (hi : Inv p st) :
    Inv p (flush p pad st) ∧ (flush p pad st).flat = [] ∧
      (flush p pad st).samples = st.samples ++ (if st.flat = [] then [] else [st.pending p]) := by
  unfold flush
  by_cases hf : st.flat = []
  · rw [if_pos hf, if_pos hf]
    exact ⟨hi, hf, by simp⟩
  · rw [if_neg hf, if_neg hf]
    have hroom := (hi.room hf).2
    obtain ⟨h1, h2, h3⟩ := emit_round (p := p) pad hi.sizes (intercalate_ne_nil _ _ hf hi.pieces)
      (by rw [← hi.len]; omega)
    exact ⟨h3, h2, h1⟩

theorem flush_stream {p : Params α} (pad : L) {st : St α L} (hi : Inv p st) :
    (flush p pad st).samples.flatten = st.stream p := by
  rw [(flush_samples pad hi).2.2]
  unfold St.stream
  by_cases hf : st.flat = []
  · simp [hf, St.pending]
  · simp [hf]

/-- What follows a state, in terms of the final samples. -/
theorem flush_ext {p : Params α} (pad : L) {st fin : St α L} (hfin : Inv p fin) {m : ℕ} (hm : 0 < m)
    (h : ∃ q rest, fin.samples ++ [fin.pending p] = st.samples ++ q :: rest ∧ m ≤ q.length) :
    ∃ q rest, (flush p pad fin).samples = st.samples ++ q :: rest ∧ m ≤ q.length := by
  obtain ⟨q, rest, h1, h2⟩ := h
  rw [(flush_samples pad hfin).2.2]
  by_cases hf : fin.flat = []
  · have hp : fin.pending p = [] := by simp [St.pending, hf]
    rw [if_pos hf]
    rcases List.eq_nil_or_concat rest with h0 | ⟨r', x, h0⟩
    · subst h0
      have e1 := List.append_inj_left' h1 rfl
      rw [hp, e1] at h1
      have : q = [] := by simpa using h1.symm
      rw [this] at h2
      simp at h2
      omega
    · rw [h0] at h1
      have e1 : fin.samples ++ [fin.pending p] = (st.samples ++ q :: r') ++ [x] := by simpa using h1
      exact ⟨q, r', by rw [List.append_nil]; exact List.append_inj_left' e1 rfl, h2⟩
  · rw [if_neg hf, h1]
    exact ⟨q, rest, rfl, h2⟩

theorem ext_long {p : Params α} {a b c : St α L} {m : ℕ}
    (h1 : ∃ q rest, b.samples ++ [b.pending p] = a.samples ++ q :: rest ∧ m ≤ q.length) (h2 : Ext p b c) :
    ∃ q rest, c.samples ++ [c.pending p] = a.samples ++ q :: rest ∧ m ≤ q.length := by
  obtain ⟨q, rest, h1, hq⟩ := h1
  obtain ⟨q', rest', h2, hq'⟩ := h2
  rcases List.eq_nil_or_concat rest with h0 | ⟨r', x, h0⟩
  · subst h0
    have e1 := List.append_inj_left' h1 rfl
    have e2 : b.pending p = q := by
      rw [e1] at h1
      simpa using h1
    refine ⟨q', rest', by rw [h2, e1], ?_⟩
    have := hq'.length_le
    rw [e2] at this
    omega
  · rw [h0] at h1
    have e1 : b.samples ++ [b.pending p] = (a.samples ++ q :: r') ++ [x] := by simpa using h1
    have e2 := List.append_inj_left' e1 rfl
    exact ⟨q, r' ++ q' :: rest', by rw [h2, e2]; simp, hq⟩

/-! ### Ends of samples -/

theorem cums_append (a : ℕ) (xs ys : List (List P)) : cums a (xs ++ ys) = cums a xs ++ cums (a + xs.flatten.length) ys := by
  induction xs generalizing a with
  | nil => simp [cums]
  | cons x xs ih => simp [cums, ih, Nat.add_assoc]

theorem cums_gt (a : ℕ) (xs : List (List P)) (h : ∀ x ∈ xs, x ≠ []) : ∀ b ∈ cums a xs, a < b := by
  induction xs generalizing a with
  | nil => simp [cums]
  | cons x xs ih =>
    intro b hb
    have hx : 0 < x.length := List.length_pos_iff.mpr (h x (by simp))
    rw [cums, List.mem_cons] at hb
    rcases hb with hb | hb
    · omega
    · have := ih _ (fun y hy => h y (by simp [hy])) b hb
      omega

theorem cums_le (a : ℕ) (xs : List (List P)) : ∀ b ∈ cums a xs, b ≤ a + xs.flatten.length := by
  induction xs generalizing a with
  | nil => simp [cums]
  | cons x xs ih =>
    intro b hb
    rw [cums, List.mem_cons] at hb
    rw [List.flatten_cons, List.length_append]
    rcases hb with hb | hb
    · omega
    · have := ih _ b hb
      omega

theorem cums_sorted (a : ℕ) (xs : List (List P)) (h : ∀ x ∈ xs, x ≠ []) : (cums a xs).Pairwise (· < ·) := by
  induction xs generalizing a with
  | nil => exact List.Pairwise.nil
  | cons x xs ih =>
    rw [cums, List.pairwise_cons]
    exact ⟨cums_gt _ _ fun y hy => h y (by simp [hy]), ih _ fun y hy => h y (by simp [hy])⟩

theorem cums_lengths {Q : Type} (a : ℕ) (xs : List (List P)) (ys : List (List Q)) (h : xs.map List.length = ys.map List.length) :
    cums a xs = cums a ys := by
  induction xs generalizing a ys with
  | nil =>
    cases ys with
    | nil => rfl
    | cons y ys => simp at h
  | cons x xs ih =>
    cases ys with
    | nil => simp at h
    | cons y ys =>
      simp only [List.map_cons, List.cons.injEq] at h
      rw [cums, cums, h.1, ih _ _ h.2]

theorem dropWhile_filter (C : List ℕ) (hC : C.Pairwise (· < ·)) (e0 e : ℕ) (h : e0 ≤ e) :
    (C.filter (e0 < ·)).dropWhile (· ≤ e) = C.filter (e < ·) := by
  induction C with
  | nil => rfl
  | cons c C ih =>
    rw [List.pairwise_cons] at hC
    by_cases h1 : e0 < c
    · rw [List.filter_cons_of_pos (by simpa using h1)]
      by_cases h2 : c ≤ e
      · rw [List.dropWhile_cons_of_pos (by simpa using h2), ih hC.2, List.filter_cons_of_neg (by simpa using h2)]
      · rw [List.dropWhile_cons_of_neg (by simpa using h2), List.filter_cons_of_pos (by simp; omega)]
        congr 1
        refine List.filter_congr fun x hx => ?_
        have := hC.1 x hx
        simp only [decide_eq_decide]
        omega
    · rw [List.filter_cons_of_neg (by simpa using h1), ih hC.2, List.filter_cons_of_neg (by simp; omega)]

theorem lastPopped_mem (e first : ℕ) (bounds : List ℕ) :
    (lastPopped e first bounds = first ∧ bounds.takeWhile (· ≤ e) = []) ∨
      (lastPopped e first bounds ∈ bounds ∧ lastPopped e first bounds ≤ e) := by
  unfold lastPopped
  cases h : (bounds.takeWhile (· ≤ e)).getLast? with
  | none =>
    rw [List.getLast?_eq_none_iff] at h
    exact .inl ⟨rfl, h⟩
  | some x =>
    right
    have hx := List.mem_of_getLast? h
    refine ⟨(List.takeWhile_subset _) hx, ?_⟩
    simpa using List.mem_takeWhile_imp hx

theorem lastPopped_end (e first : ℕ) (bounds : List ℕ) (hs : bounds.Pairwise (· < ·)) (he : e ∈ bounds) :
    lastPopped e first bounds = e := by
  unfold lastPopped
  obtain ⟨l1, l2, rfl⟩ := List.append_of_mem he
  rw [List.pairwise_append] at hs
  have h1 : (l1 ++ e :: l2).takeWhile (· ≤ e) = l1 ++ [e] := by
    rw [List.takeWhile_append_of_pos (by
      intro x hx
      have := hs.2.2 x hx e (by simp)
      simp; omega)]
    rw [List.takeWhile_cons_of_pos (by simp)]
    have : l2.takeWhile (· ≤ e) = [] := by
      cases l2 with
      | nil => rfl
      | cons x l2 =>
        have := (List.pairwise_cons.mp hs.2.1).1 x (by simp)
        rw [List.takeWhile_cons_of_neg (by simp; omega)]
    rw [this]
  rw [h1]
  simp

/-- The position in the row and the ends still ahead. -/
structure Good (s : ℕ) (C : List ℕ) (e pos : ℕ) (bounds : List ℕ) : Prop where
  ahead : bounds = C.filter (e < ·)
  atEnd : e = 0 ∨ e ∈ C → pos = e
  inside : e ≠ 0 → e ∉ C → (∀ b ∈ C, e < b → e + s < b) → (∃ b ∈ C, e < b) → pos = e + s

theorem good_advance {s : ℕ} {C : List ℕ} (hC : C.Pairwise (· < ·)) {e0 e : ℕ} (h : e0 < e) :
    Good s C e (advance s e (C.filter (e0 < ·))).1 (advance s e (C.filter (e0 < ·))).2 := by
  have hsort : (C.filter (e0 < ·)).Pairwise (· < ·) := hC.sublist List.filter_sublist
  have hdrop := dropWhile_filter C hC e0 e (by omega)
  cases hb : C.filter (e0 < ·) with
  | nil =>
    rw [hb] at hdrop
    refine ⟨hdrop, fun _ => rfl, fun _ _ _ ⟨b, hb1, hb2⟩ => ?_⟩
    have : b ∈ C.filter (e0 < ·) := List.mem_filter.mpr ⟨hb1, by simp; omega⟩
    rw [hb] at this
    exact nomatch this
  | cons b bounds =>
    rw [hb] at hdrop hsort
    have hmem : ∀ x ∈ b :: bounds, x ∈ C := fun x hx => (List.mem_filter.mp (hb ▸ hx)).1
    refine ⟨hdrop, fun hend => ?_, fun h0 hno hfar _ => ?_⟩
    · have he : e ∈ b :: bounds := by
        rw [← hb]
        refine List.mem_filter.mpr ⟨?_, by simpa using h⟩
        rcases hend with h0 | h0
        · omega
        · exact h0
      simp only [advance, lastPopped_end e b _ hsort he]
      rw [if_neg (by omega)]
    · simp only [advance]
      rw [if_pos]
      rcases lastPopped_mem e b (b :: bounds) with ⟨h1, h2⟩ | ⟨h1, h2⟩
      · right
        rw [h1]
        have hbe : e < b := by
          by_contra hle
          rw [List.takeWhile_cons_of_pos (by simp; omega)] at h2
          exact nomatch h2
        have := hfar b (hmem b (by simp)) hbe
        omega
      · left
        have : lastPopped e b (b :: bounds) ≠ e := fun heq => hno (heq ▸ hmem _ h1)
        omega

/-! ### Everything together -/

open Verif.Spec.CharProcess

/-- The samples are the texts in a row, and matching reads them back. -/
theorem placeAll_weave {p : Params α} (hm : p.sep.length < p.maxLen) (pad dflt : L) (size : ℕ) (st fin : St α L)
    (data : List (List α × List L)) (hi : Inv p st) (h : placeAll p pad dflt size st data = some fin) (hfin : Inv p fin) :
    ∃ gs, gs.length = data.length ∧
      (flush p pad fin).samples.flatten = st.stream p ++ weave p.sep (data.map (·.1)) gs ∧
      ∀ (P : Type) (buf : List P) (pos : ℕ) (bounds : List ℕ),
        Good p.sep.length (cums 0 (flush p pad fin).samples) (st.stream p).length pos bounds →
          matchLoop p.sep.length buf pos bounds (data.map fun d => d.1.length) =
            pick p.sep.length (data.map fun d => d.1.length) gs (buf.drop (st.stream p).length) := by
  have hne : ∀ x ∈ (flush p pad fin).samples, x ≠ [] := fun x hx => ((flush_samples pad hfin).1.sizes x hx).1
  have hC := cums_sorted 0 _ hne
  induction data generalizing st with
  | nil =>
    obtain rfl : st = fin := by simpa [placeAll] using h
    exact ⟨[], rfl, by simp [flush_stream pad hi, weave], fun P buf pos bounds _ => rfl⟩
  | cons d ds ih =>
    obtain ⟨r, labs⟩ := d
    by_cases hr : r = []
    · subst hr
      rw [placeAll, place_empty] at h
      obtain ⟨gs, h1, h2, h3⟩ := ih st hi h
      refine ⟨false :: gs, by simp [h1], by simp [weave, h2], fun P buf pos bounds hg => ?_⟩
      have := h3 P buf pos bounds hg
      simp only [List.map_cons, List.length_nil, matchLoop, pick]
      simp [this]
    · have hrl : 0 < r.length := List.length_pos_iff.mpr hr
      obtain ⟨st1, g1, g2, g3, g4⟩ := place_text hm pad dflt size st r labs hi hr
      rw [placeAll, g1] at h
      dsimp only at h
      obtain ⟨gs, h1, h2, h3⟩ := ih st1 g2 h
      have hext : Ext p st1 fin := by
        obtain ⟨fin', k1, -, k3⟩ := placeAll_some hm pad dflt size st1 ds g2
        rw [h] at k1
        obtain rfl : fin = fin' := by simpa using k1
        exact k3
      have hpre : ∃ N, (flush p pad fin).samples = st1.samples ++ N := by
        obtain ⟨N, hN⟩ := hext.samples
        rw [(flush_samples pad hfin).2.2, hN]
        exact ⟨N ++ _, by rw [List.append_assoc]⟩
      have hnext : ∀ (e pos : ℕ) (bounds : List ℕ), Good p.sep.length (cums 0 (flush p pad fin).samples) e pos bounds →
          ∀ e', e < e' → Good p.sep.length (cums 0 (flush p pad fin).samples) e'
            (advance p.sep.length e' bounds).1 (advance p.sep.length e' bounds).2 := by
        intro e pos bounds hg e' he
        rw [hg.ahead]
        exact good_advance hC he
      rcases g4 with ⟨g4, g5⟩ | ⟨g4, g5, g6⟩
      · refine ⟨false :: gs, by simp [h1], ?_, fun P buf pos bounds hg => ?_⟩
        · rw [h2, g4]; simp [weave]
        · have hpos : pos = (st.stream p).length := by
            apply hg.atEnd
            by_cases hf : st.flat = []
            · have hst : (st.stream p).length = st.samples.flatten.length := by simp [St.stream, St.pending, hf]
              rcases List.eq_nil_or_concat st.samples with h0 | ⟨A, x, h0⟩
              · left; rw [hst, h0]; rfl
              · right
                rw [List.concat_eq_append] at h0
                obtain ⟨N', hN'⟩ := g3.samples
                obtain ⟨N, hN⟩ := hpre
                rw [hN, hN', h0, hst, h0]
                rw [List.append_assoc, List.append_assoc, cums_append]
                refine List.mem_append_right _ ?_
                rw [List.cons_append, cums]
                simp
            · right
              obtain ⟨N', hN'⟩ := g5 hf
              obtain ⟨N, hN⟩ := hpre
              rw [hN, ← hN', List.append_assoc, List.append_assoc, cums_append]
              refine List.mem_append_right _ ?_
              rw [List.cons_append, cums]
              simp [St.stream]
          have hlen : (st1.stream p).length = pos + r.length := by rw [g4, List.length_append, hpos]
          have := h3 P buf _ _ (hlen ▸ hnext _ _ _ hg (pos + r.length) (by omega))
          simp only [List.map_cons, matchLoop, pick]
          rw [if_neg (by omega)]
          simp only [Bool.false_eq_true, if_false, Nat.zero_add, List.drop_drop]
          rw [hlen] at this
          rw [this, hpos, Nat.add_zero]
      · refine ⟨true :: gs, by simp [h1], ?_, fun P buf pos bounds hg => ?_⟩
        · rw [h2, g5]; simp [weave]
        · have hpl : 0 < (st.pending p).length := List.length_pos_iff.mpr (intercalate_ne_nil _ _ g4 hi.pieces)
          have hst : (st.stream p).length = st.samples.flatten.length + (st.pending p).length := by simp [St.stream]
          obtain ⟨q, rest, k1, k2⟩ := flush_ext pad hfin (m := (st.pending p).length + p.sep.length + 1) (by omega)
            (ext_long (a := st) (m := (st.pending p).length + p.sep.length + 1)
              (by obtain ⟨q, rest, a, b⟩ := g6; exact ⟨q, rest, a, by omega⟩) hext)
          have hcums : ∀ b ∈ cums 0 (flush p pad fin).samples, b ≤ st.samples.flatten.length ∨
              st.samples.flatten.length + q.length ≤ b := by
            intro b hb
            rw [k1, cums_append, List.mem_append, cums, List.mem_cons] at hb
            rcases hb with hb | hb | hb
            · have := cums_le 0 _ b hb
              omega
            · omega
            · have := cums_gt _ _ (fun x hx => hne x (by rw [k1]; simp [hx])) b hb
              omega
          have hpos : pos = (st.stream p).length + p.sep.length := by
            apply hg.inside
            · omega
            · intro hc
              have := hcums _ hc
              omega
            · intro b hb hlt
              have := hcums b hb
              omega
            · refine ⟨st.samples.flatten.length + q.length, ?_, by omega⟩
              rw [k1, cums_append]
              refine List.mem_append_right _ ?_
              rw [cums]
              simp
          have hlen : (st1.stream p).length = pos + r.length := by
            rw [g5, List.length_append, List.length_append, hpos]
          have := h3 P buf _ _ (hlen ▸ hnext _ _ _ hg (pos + r.length) (by omega))
          simp only [List.map_cons, matchLoop, pick]
          rw [if_neg (by omega)]
          simp only [if_true, List.drop_drop]
          rw [hlen] at this
          rw [this, hpos]
          simp only [Nat.add_assoc]

/-! ### Batches -/

/-- All yielded batches are full, and the one being filled is not. -/
structure Bat (size : ℕ) (st : St α L) : Prop where
  full : ∀ b ∈ st.done, b.length = size
  cur : st.cur.length < size

theorem step_cur (p : Params α) (pad dflt : L) (st : St α L) (r : List α) (labs : List L) :
    (step p pad dflt st r labs).1.done = st.done ∧ (step p pad dflt st r labs).1.cur.length ≤ st.cur.length + 1 := by
  have ho : (opened p dflt st).done = st.done ∧ (opened p dflt st).cur = st.cur := by
    unfold opened; split_ifs <;> exact ⟨rfl, rfl⟩
  have ha : ∀ n, (addPiece (opened p dflt st) r labs n).done = st.done ∧ (addPiece (opened p dflt st) r labs n).cur = st.cur := by
    intro n; unfold addPiece; split_ifs <;> exact ho
  have he : ∀ n, (emitIfFull p pad (addPiece (opened p dflt st) r labs n)).done = st.done ∧
      (emitIfFull p pad (addPiece (opened p dflt st) r labs n)).cur.length ≤ st.cur.length + 1 := by
    intro n
    unfold emitIfFull
    split_ifs
    · exact ⟨(ha n).1, by simp [emit, (ha n).2]⟩
    · exact ⟨(ha n).1, by rw [(ha n).2]; omega⟩
  unfold step
  split_ifs
  · exact ⟨rfl, by simp [plainStep]⟩
  · unfold flatStep
    dsimp only
    split_ifs
    · exact ⟨ho.1, by simp [emit, ho.2]⟩
    · exact he _
    · exact he _
    · exact he _

theorem bat_step {size : ℕ} {p : Params α} {pad dflt : L} {st : St α L} (h : Bat size st) (r : List α) (labs : List L) :
    Bat size (yieldBatch size (step p pad dflt st r labs).1) := by
  obtain ⟨h1, h2⟩ := step_cur p pad dflt st r labs
  have := h.cur
  unfold yieldBatch
  split_ifs with hs
  · refine ⟨?_, by simp; omega⟩
    intro b hb
    rw [h1] at hb
    rcases List.mem_append.mp hb with hb | hb
    · exact h.full b hb
    · rw [List.mem_singleton] at hb; rw [hb, hs]
  · exact ⟨by rw [h1]; exact h.full, by omega⟩

theorem bat_place {size : ℕ} {p : Params α} {pad dflt : L} (fuel : ℕ) {st st' : St α L} (h : Bat size st) (r : List α)
    (labs : List L) (hp : place p pad dflt size fuel st r labs = some st') : Bat size st' := by
  induction fuel generalizing st r labs with
  | zero =>
    cases r with
    | nil => obtain rfl : st = st' := by simpa [place] using hp
             exact h
    | cons c r => simp [place] at hp
  | succ fuel ih =>
    cases r with
    | nil => obtain rfl : st = st' := by simpa [place] using hp
             exact h
    | cons c r =>
      rw [place] at hp
      exact ih (bat_step h (c :: r) labs) _ _ hp

theorem bat_placeAll {size : ℕ} {p : Params α} {pad dflt : L} {st st' : St α L} (h : Bat size st)
    (data : List (List α × List L)) (hp : placeAll p pad dflt size st data = some st') : Bat size st' := by
  induction data generalizing st with
  | nil => obtain rfl : st = st' := by simpa [placeAll] using hp
           exact h
  | cons d ds ih =>
    obtain ⟨r, labs⟩ := d
    rw [placeAll] at hp
    split at hp
    · exact nomatch hp
    · rename_i st1 h1
      exact ih (bat_place _ h _ _ h1) hp

theorem full_append {B : Type} (size : ℕ) (hs : 0 < size) (xs : List (List B)) (hx : ∀ b ∈ xs, b.length = size) (y : List B)
    (hy : 0 < y.length) (hy2 : y.length ≤ size) : Full size (xs ++ [y]) := by
  induction xs with
  | nil => exact ⟨hy, hy2⟩
  | cons x xs ih =>
    have := ih fun b hb => hx b (by simp [hb])
    cases xs with
    | nil => exact ⟨hx x (by simp), this⟩
    | cons x' xs => exact ⟨hx x (by simp), this⟩

theorem full_all {B : Type} (size : ℕ) (hs : 0 < size) (xs : List (List B)) (hx : ∀ b ∈ xs, b.length = size) :
    Full size xs := by
  rcases List.eq_nil_or_concat xs with h | ⟨ys, y, h⟩
  · rw [h]; trivial
  · rw [List.concat_eq_append] at h
    rw [h]
    have hy := hx y (by rw [h]; simp)
    exact full_append size hs ys (fun b hb => hx b (by rw [h]; simp [hb])) y (by omega) (by omega)

/-- The whole of `process`. -/
theorem process_ok {p : Params α} (hm : p.sep.length < p.maxLen) (pad dflt : L) {size : ℕ} (hs : 0 < size)
    (data : List (List α × List L)) :
    ∃ batches, process p pad dflt size data = .ok batches ∧ Full size batches ∧
      (∀ b ∈ batches, ∀ x ∈ b, x.1 ≠ [] ∧ x.1.length ≤ p.maxLen) ∧
      ∃ gs, gs.length = data.length ∧ (batches.flatten.map (·.1)).flatten = weave p.sep (data.map (·.1)) gs ∧
        ∀ (P : Type) (preds : List (List P)), preds.map List.length = (batches.flatten.map (·.1)).map List.length →
          matchLengths p.sep.length (data.map fun d => d.1.length) preds =
            pick p.sep.length (data.map fun d => d.1.length) gs preds.flatten := by
  obtain ⟨fin, h1, h2, h3⟩ := placeAll_some hm pad dflt size St.init data (inv_init p)
  obtain ⟨gs, g1, g2, g3⟩ := placeAll_weave hm pad dflt size St.init fin data (inv_init p) h1 h2
  have hb := bat_placeAll (h := (⟨by simp [St.init], by simpa [St.init] using hs⟩ : Bat size (St.init : St α L))) data h1
  have hbat : (flush p pad fin).done = fin.done ∧ (flush p pad fin).cur.length ≤ size := by
    have := hb.cur
    unfold flush
    split_ifs
    · exact ⟨rfl, by omega⟩
    · exact ⟨rfl, by simp [emit]; omega⟩
  have hflat : (if (flush p pad fin).cur = [] then (flush p pad fin).done
      else (flush p pad fin).done ++ [(flush p pad fin).cur]).flatten.map (·.1) = (flush p pad fin).samples := by
    unfold St.samples St.out
    split_ifs with h
    · simp [h]
    · simp
  have h0 : (St.init : St α L).stream p = [] := by
    simp [St.stream, St.samples, St.out, St.pending, St.init, List.intercalate]
  refine ⟨if (flush p pad fin).cur = [] then (flush p pad fin).done else (flush p pad fin).done ++ [(flush p pad fin).cur],
    ?_, ?_, ?_, gs, g1, ?_, ?_⟩
  · unfold process
    rw [if_neg (by omega), h1]
  · split_ifs with h
    · exact full_all size hs _ (by rw [hbat.1]; exact hb.full)
    · exact full_append size hs _ (by rw [hbat.1]; exact hb.full) _ (List.length_pos_iff.mpr h) hbat.2
  · intro b hb x hx
    refine (flush_samples pad h2).1.sizes x.1 ?_
    rw [← hflat]
    exact List.mem_map_of_mem (List.mem_flatten_of_mem hb hx)
  · rw [hflat, g2, h0]; simp
  · intro P preds hp
    rw [hflat] at hp
    have := g3 P preds.flatten 0 (cums 0 preds) (by
      rw [h0, cums_lengths 0 _ _ hp]
      have hne : ∀ x ∈ (flush p pad fin).samples, x ≠ [] := fun x hx => ((flush_samples pad h2).1.sizes x hx).1
      refine ⟨?_, fun _ => rfl, fun h => absurd rfl h⟩
      symm
      rw [List.filter_eq_self]
      intro b hb
      have := cums_gt 0 _ hne b hb
      simpa using this)
    rw [h0] at this
    simpa [matchLengths] using this

/-! ### Predictions -/

theorem write_take (xs : List P) (i : ℕ) (ys : List P) (h : i + ys.length ≤ xs.length) :
    (write xs i ys).take (i + ys.length) = xs.take i ++ ys := by
  unfold write
  have : (xs.take i ++ ys).length = i + ys.length := by simp; omega
  rw [List.take_append_of_le_length (by omega), ← this, List.take_length]

theorem write_length (xs : List P) (i : ℕ) (ys : List P) (h : i + ys.length ≤ xs.length) :
    (write xs i ys).length = xs.length := by
  unfold write
  simp
  omega

/-- The arrays after some batches. -/
structure Filled (size : ℕ) (net : List (List α) → List (List P)) (a : Arrays P) (bs : List (List (List α))) : Prop where
  len : a.lens.length = a.preds.length
  mult : size ∣ a.preds.length
  pos : 0 < a.preds.length
  next : a.next = bs.flatten.length
  room : bs.flatten.length ≤ a.preds.length
  preds : a.preds.take bs.flatten.length = bs.flatMap net
  lens : a.lens.take bs.flatten.length = bs.flatten.map List.length

theorem filled_step {size : ℕ} (zero : List P) {net : List (List α) → List (List P)} {a : Arrays P}
    {bs : List (List (List α))} {i : ℕ} {b : List (List α)} (h : Filled size net a bs) (hi : bs.flatten.length = i * size)
    (hb : b.length ≤ size) (hn : (net b).length = b.length) :
    ∃ a', predictBatch zero net size a i b = .ok a' ∧ Filled size net a' (bs ++ [b]) := by
  have hroom : i * size ≤ a.preds.length := hi ▸ h.room
  obtain ⟨k, hk⟩ := h.mult
  have hpos := h.pos
  have hspos : 0 < size := Nat.pos_of_ne_zero fun h0 => by rw [h0] at hk; omega
  obtain ⟨preds, hp⟩ : ∃ x, x = if a.preds.length ≤ i * size then a.preds ++ List.replicate a.preds.length zero else a.preds :=
    ⟨_, rfl⟩
  obtain ⟨lens, hl⟩ : ∃ x, x = if a.preds.length ≤ i * size then a.lens ++ List.replicate a.lens.length 0 else a.lens :=
    ⟨_, rfl⟩
  have hlen : lens.length = preds.length := by
    rw [hp, hl]; split_ifs <;> simp [h.len]
  have hmult : size ∣ preds.length := by
    rw [hp]
    split_ifs
    · rw [List.length_append, List.length_replicate]; exact Nat.dvd_add h.mult h.mult
    · exact h.mult
  have hbig : i * size < preds.length := by
    rw [hp]
    split_ifs with hc
    · rw [List.length_append, List.length_replicate]; omega
    · omega
  have hbig2 : i * size + size ≤ preds.length := by
    obtain ⟨j, hj⟩ := hmult
    rw [hj] at hbig ⊢
    have : i < j := by
      rw [Nat.mul_comm] at hbig
      exact Nat.lt_of_mul_lt_mul_left hbig
    calc i * size + size = size * (i + 1) := by rw [Nat.mul_add, Nat.mul_comm]; simp
      _ ≤ size * j := Nat.mul_le_mul_left _ this
  have htp : preds.take (i * size) = bs.flatMap net := by
    rw [← h.preds, hi, hp]
    split_ifs
    · rw [List.take_append_of_le_length hroom]
    · rfl
  have htl : lens.take (i * size) = bs.flatten.map List.length := by
    rw [← h.lens, hi, hl]
    split_ifs
    · rw [List.take_append_of_le_length (by rw [h.len]; exact hroom)]
    · rfl
  refine ⟨⟨write preds (i * size) (net b), write lens (i * size) (b.map List.length), i * size + b.length⟩, ?_, ?_⟩
  · unfold predictBatch
    dsimp only
    rw [← hp, ← hl, if_neg]
    simp only [hn, hlen]
    omega
  · have e : (bs ++ [b]).flatten.length = i * size + b.length := by simp [← hi]
    have w1 := write_length preds (i * size) (net b) (by omega)
    have w2 := write_length lens (i * size) (b.map List.length) (by simp; omega)
    refine ⟨?_, ?_, ?_, ?_, ?_, ?_, ?_⟩
    · rw [w1, w2, hlen]
    · rw [w1]; exact hmult
    · rw [w1]; omega
    · rw [e]
    · rw [e, w1]; omega
    · have := write_take preds (i * size) (net b) (by omega)
      rw [hn] at this
      rw [e, this, htp]
      simp
    · have := write_take lens (i * size) (b.map List.length) (by simp; omega)
      rw [List.length_map] at this
      rw [e, this, htl]
      simp

theorem predictAll_ok {size : ℕ} (zero : List P) {net : List (List α) → List (List P)}
    (rest : List (List (List α))) (bs : List (List (List α))) (a : Arrays P) (i : ℕ) (hf : Full size rest)
    (hi : rest ≠ [] → bs.flatten.length = i * size) (hn : ∀ b ∈ rest, (net b).length = b.length) (h : Filled size net a bs) :
    ∃ a', predictAll zero net size a i rest = .ok a' ∧ Filled size net a' (bs ++ rest) := by
  induction rest generalizing bs a i with
  | nil => exact ⟨a, rfl, by simpa using h⟩
  | cons b rest ih =>
    have hb : b.length ≤ size := by
      cases rest with
      | nil => exact hf.2
      | cons _ _ => exact Nat.le_of_eq hf.1
    obtain ⟨a1, h1, h2⟩ := filled_step zero h (hi (by simp)) hb (hn b (by simp))
    obtain ⟨a', g1, g2⟩ := ih (bs ++ [b]) a1 (i + 1)
      (by cases rest with
          | nil => trivial
          | cons _ _ => exact hf.2)
      (by
        intro hne
        cases rest with
        | nil => exact absurd rfl hne
        | cons _ _ =>
          have e := hi (by simp)
          have e2 : b.length = size := hf.1
          simp [e, e2, Nat.add_mul])
      (fun x hx => hn x (by simp [hx])) h2
    exact ⟨a', by rw [predictAll, h1]; exact g1, by simpa using g2⟩

/-- `predict` gives the predictions for the characters of each sample. -/
theorem predict_ok {size : ℕ} (hs : 0 < size) (zero : List P) {net : List (List α) → List (List P)}
    (batches : List (List (List α))) (hf : Full size batches) (hn : ∀ b ∈ batches, (net b).length = b.length) :
    predict zero net size batches =
      .ok ((batches.flatMap net).zipWith (fun row n => row.take n) (batches.flatten.map List.length)) := by
  obtain ⟨a, h1, h2⟩ := predictAll_ok zero batches [] ⟨List.replicate size zero, List.replicate size 0, 0⟩ 0 hf
    (fun _ => by simp) hn
    ⟨by simp, by simp, by simpa using hs, by simp, by simp, by simp, by simp⟩
  rw [List.nil_append] at h2
  unfold predict
  rw [h1]
  simp only [h2.next]
  rw [h2.preds, h2.lens]

theorem zip_take_lengths (rows : List (List P)) (xs : List (List α)) (hl : rows.length = xs.length)
    (h : ∀ i (h1 : i < rows.length) (h2 : i < xs.length), xs[i].length ≤ rows[i].length) :
    (rows.zipWith (fun row n => row.take n) (xs.map List.length)).map List.length = xs.map List.length := by
  induction rows generalizing xs with
  | nil =>
    cases xs with
    | nil => rfl
    | cons _ _ => simp at hl
  | cons r rows ih =>
    cases xs with
    | nil => simp at hl
    | cons x xs =>
      have h0 := h 0 (by simp) (by simp)
      simp only [List.getElem_cons_zero] at h0
      have := ih xs (by simpa using hl) fun i h1 h2 =>
        h (i + 1) (by simpa using h1) (by simpa using h2)
      simp only [List.map_cons, List.zipWith_cons_cons, List.length_take, this, Nat.min_eq_left h0]

theorem pick_weave (f : α → P) (sep : List α) (data : List (List α)) (gs : List Bool) (h : gs.length = data.length) :
    pick sep.length (data.map List.length) gs ((weave sep data gs).map f) = data.map (List.map f) := by
  induction data generalizing gs with
  | nil => cases gs <;> rfl
  | cons d ds ih =>
    cases gs with
    | nil => simp at h
    | cons g gs =>
      have := ih gs (by simpa using h)
      have e : ∀ pre : List α, pre.length = (if g = true then sep.length else 0) →
          (((pre ++ d ++ weave sep ds gs).map f).drop (if g = true then sep.length else 0)).take d.length = d.map f ∧
          ((pre ++ d ++ weave sep ds gs).map f).drop ((if g = true then sep.length else 0) + d.length) =
            (weave sep ds gs).map f := by
        intro pre hp
        rw [← hp]
        constructor
        · rw [List.append_assoc, List.map_append, List.drop_left' (by simp), List.map_append, List.take_left' (by simp)]
        · rw [List.map_append, List.drop_left' (by simp)]
      obtain ⟨e1, e2⟩ := e (if g = true then sep else []) (by split_ifs <;> rfl)
      simp only [List.map_cons, weave, pick]
      rw [e1, e2, this]

end Verif.CharProcess
