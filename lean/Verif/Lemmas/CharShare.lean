import Verif.Model.CharProcess
import Verif.Spec.CharShare
import Mathlib.Tactic.Common
import Mathlib.Tactic.Linarith
import Mathlib.Tactic.Ring
import Mathlib.Tactic.FieldSimp
import Mathlib.Tactic.Positivity
import Mathlib.Algebra.Order.Field.Rat
import Mathlib.Data.List.Infix

/-!
# The share of flattened samples: invariant of the loops
-/

namespace Verif.CharProcess

open Verif Verif.Spec.CharShare

variable {α L : Type}

/-- The samples made so far. -/
def St.made (st : St α L) : List (List α × List L) := st.done.flatten ++ st.cur

/-- The invariant. -/
structure Marked (p : Params α) (data : List (List α)) (st : St α L) (flags : List Bool) : Prop where
  ok : Marks data (st.made.map (·.1)) flags
  fc : st.fc = flags.count true
  nfc : st.nfc = flags.count false
  share : Share p.split flags

theorem count_add (flags : List Bool) : flags.count true + flags.count false = flags.length := by
  induction flags with
  | nil => rfl
  | cons b fs ih => cases b <;> simp <;> omega

theorem plain_true {p : Params α} (h0 : 0 ≤ p.split) {fc nfc : ℕ} (h : p.plain fc nfc = true) :
    p.split * ((fc + nfc : ℕ) : ℚ) ≤ fc := by
  unfold Params.plain at h
  simp only [Bool.or_eq_true, decide_eq_true_eq] at h
  rcases h with h | h
  · have hm : (0 : ℚ) < ((max 1 (fc + nfc) : ℕ) : ℚ) := by
      have : 0 < max 1 (fc + nfc) := by omega
      exact_mod_cast this
    rw [lt_div_iff₀ hm] at h
    have : ((fc + nfc : ℕ) : ℚ) ≤ ((max 1 (fc + nfc) : ℕ) : ℚ) := by exact_mod_cast le_max_right _ _
    have := mul_le_mul_of_nonneg_left this h0
    linarith
  · rw [h, zero_mul]
    exact_mod_cast Nat.zero_le fc

theorem plain_false {p : Params α} {fc nfc : ℕ} (h : p.plain fc nfc = false) :
    (fc : ℚ) ≤ p.split * ((fc + nfc : ℕ) : ℚ) := by
  unfold Params.plain at h
  simp only [Bool.or_eq_false_iff, decide_eq_false_iff_not, not_lt] at h
  obtain ⟨h, -⟩ := h
  rcases Nat.eq_zero_or_pos (fc + nfc) with h' | h'
  · have hf : fc = 0 := by omega
    rw [h', hf]
    simp
  · rw [show max 1 (fc + nfc) = fc + nfc by omega] at h
    have hm : (0 : ℚ) < ((fc + nfc : ℕ) : ℚ) := by exact_mod_cast h'
    rwa [div_le_iff₀ hm] at h

theorem share_snoc {s : ℚ} {flags : List Bool} {b : Bool} (h : Share s flags)
    (hu : ((flags ++ [b]).count true : ℚ) ≤ s * (flags.length + 1) + 1)
    (hl : s * (flags.length : ℚ) ≤ ((flags ++ [b]).count true : ℚ)) : Share s (flags ++ [b]) := by
  intro k hk
  rw [List.length_append, List.length_singleton] at hk
  rcases Nat.lt_or_ge k (flags.length + 1) with h' | h'
  · rw [List.take_append_of_le_length (by omega)]
    exact h k (by omega)
  · have hk' : k = flags.length + 1 := by omega
    subst hk'
    rw [List.take_of_length_le (by simp)]
    push_cast
    refine ⟨hu, ?_⟩
    rw [show (flags.length : ℚ) + 1 - 1 = flags.length by ring]
    exact hl

theorem marks_snoc {data samples : List (List α)} {flags : List Bool} {x : List α} {b : Bool} (h : Marks data samples flags)
    (hx : b = false → ∃ d ∈ data, x <:+: d) : Marks data (samples ++ [x]) (flags ++ [b]) := by
  obtain ⟨h1, h2⟩ := h
  refine ⟨by simp [h1], fun i y hy hf => ?_⟩
  rcases Nat.lt_or_ge i samples.length with h' | h'
  · rw [List.getElem?_append_left h'] at hy
    rw [List.getElem?_append_left (by omega)] at hf
    exact h2 i y hy hf
  · rw [List.getElem?_append_right h'] at hy
    rw [List.getElem?_append_right (by omega)] at hf
    rw [← h1] at hf
    generalize i - samples.length = j at hy hf
    match j with
    | 0 =>
      simp only [List.getElem?_cons_zero, Option.some.injEq] at hy hf
      rw [← hy]
      exact hx hf
    | j + 1 => simp at hy

/-- A sample that is not flattened. -/
theorem marked_plain {p : Params α} (h0 : 0 ≤ p.split) {data : List (List α)} {st : St α L} {flags : List Bool}
    (h : Marked p data st flags) (hp : p.plain st.fc st.nfc = true) (pad : L) {r d : List α} (hd : d ∈ data) (hr : r <:+ d)
    (labs : List L) : Marked p data (plainStep p pad st r labs).1 (flags ++ [false]) := by
  have hc := count_add flags
  have hpl := plain_true h0 hp
  rw [h.fc, h.nfc, hc] at hpl
  refine ⟨?_, ?_, ?_, ?_⟩
  · simp only [plainStep, St.made]
    rw [← List.append_assoc, List.map_append]
    exact marks_snoc h.ok fun _ => ⟨d, hd, (List.take_prefix _ _).isInfix.trans hr.isInfix⟩
  · simp [plainStep, h.fc]
  · simp [plainStep, h.nfc]
  · refine share_snoc h.share ?_ ?_
    · have := (h.share flags.length le_rfl).1
      rw [List.take_length] at this
      simp only [List.count_append, List.count_singleton]
      push_cast
      simp
      linarith
    · simp only [List.count_append, List.count_singleton]
      simpa using hpl

/-- A flattened sample is complete. -/
theorem marked_emit {p : Params α} (h0 : 0 ≤ p.split) (h1 : p.split ≤ 1) {data : List (List α)} {st : St α L} {flags : List Bool}
    (h : Marked p data st flags) (hp : p.plain st.fc st.nfc = false) (pad : L) :
    Marked p data (emit p pad st) (flags ++ [true]) := by
  have hc := count_add flags
  have hpl := plain_false hp
  rw [h.fc, h.nfc, hc] at hpl
  refine ⟨?_, ?_, ?_, ?_⟩
  · simp only [emit, St.made]
    rw [← List.append_assoc, List.map_append]
    exact marks_snoc h.ok fun h => nomatch h
  · simp [emit, h.fc]
  · simp [emit, h.nfc]
  · refine share_snoc h.share ?_ ?_
    · simp only [List.count_append, List.count_singleton]
      simp
      linarith
    · have := (h.share flags.length le_rfl).2
      rw [List.take_length] at this
      have hl : p.split * (flags.length : ℚ) ≤ flags.count true + 1 := by linarith
      simp only [List.count_append, List.count_singleton]
      simpa using hl

theorem marked_congr {p : Params α} {data : List (List α)} {st st' : St α L} {flags : List Bool} (h : Marked p data st flags)
    (hs : st'.made = st.made) (hf : st'.fc = st.fc) (hn : st'.nfc = st.nfc) : Marked p data st' flags :=
  ⟨by rw [hs]; exact h.ok, by rw [hf]; exact h.fc, by rw [hn]; exact h.nfc, h.share⟩

theorem marked_full {p : Params α} (h0 : 0 ≤ p.split) (h1 : p.split ≤ 1) {data : List (List α)} {st : St α L} {flags : List Bool}
    (h : Marked p data st flags) (hp : p.plain st.fc st.nfc = false) (pad : L) :
    ∃ fl, Marked p data (emitIfFull p pad st) fl := by
  unfold emitIfFull
  split
  · exact ⟨_, marked_emit h0 h1 h hp pad⟩
  · exact ⟨_, h⟩

theorem opened_same (p : Params α) (dflt : L) (st : St α L) :
    (opened p dflt st).made = st.made ∧ (opened p dflt st).fc = st.fc ∧ (opened p dflt st).nfc = st.nfc := by
  unfold opened
  split <;> exact ⟨rfl, rfl, rfl⟩

theorem addPiece_same (st : St α L) (r : List α) (labs : List L) (n : ℕ) :
    (addPiece st r labs n).made = st.made ∧ (addPiece st r labs n).fc = st.fc ∧ (addPiece st r labs n).nfc = st.nfc := by
  unfold addPiece
  split <;> exact ⟨rfl, rfl, rfl⟩

theorem marked_flat {p : Params α} (h0 : 0 ≤ p.split) (h1 : p.split ≤ 1) {data : List (List α)} {st : St α L} {flags : List Bool}
    (h : Marked p data st flags) (hp : p.plain st.fc st.nfc = false) (pad dflt : L) (r : List α) (labs : List L) :
    ∃ fl, Marked p data (flatStep p pad dflt st r labs).1 fl := by
  obtain ⟨o1, o2, o3⟩ := opened_same p dflt st
  have ho : Marked p data (opened p dflt st) flags := marked_congr h o1 o2 o3
  have hpo : p.plain (opened p dflt st).fc (opened p dflt st).nfc = false := by rw [o2, o3]; exact hp
  have hadd : ∀ n : ℕ, ∃ fl, Marked p data (emitIfFull p pad (addPiece (opened p dflt st) r labs n)) fl := by
    intro n
    obtain ⟨a1, a2, a3⟩ := addPiece_same (opened p dflt st) r labs n
    exact marked_full h0 h1 (marked_congr ho a1 a2 a3) (by rw [a2, a3]; exact hpo) pad
  simp only [flatStep]
  split
  · split
    · split
      · exact ⟨_, marked_emit h0 h1 (st := { opened p dflt st with
          len := (opened p dflt st).len - p.sep.length, ents := dropEnd p.sep.length (opened p dflt st).ents })
          (marked_congr ho rfl rfl rfl) hpo pad⟩
      · exact hadd _
    · exact hadd _
  · exact hadd _

theorem marked_step {p : Params α} (h0 : 0 ≤ p.split) (h1 : p.split ≤ 1) {data : List (List α)} {st : St α L} {flags : List Bool}
    (h : Marked p data st flags) (pad dflt : L) {r d : List α} (hd : d ∈ data) (hr : r <:+ d) (labs : List L) :
    ∃ fl, Marked p data (step p pad dflt st r labs).1 fl := by
  unfold step
  split
  next hp => exact ⟨_, marked_plain h0 h hp pad hd hr labs⟩
  next hp => exact marked_flat h0 h1 h (by simpa using hp) pad dflt r labs

theorem yield_same (size : ℕ) (st : St α L) :
    (yieldBatch size st).made = st.made ∧ (yieldBatch size st).fc = st.fc ∧ (yieldBatch size st).nfc = st.nfc := by
  unfold yieldBatch
  split
  · refine ⟨?_, rfl, rfl⟩
    simp [St.made]
  · exact ⟨rfl, rfl, rfl⟩

theorem marked_place {p : Params α} (h0 : 0 ≤ p.split) (h1 : p.split ≤ 1) {data : List (List α)} (pad dflt : L) (size : ℕ)
    {d : List α} (hd : d ∈ data) : ∀ (fuel : ℕ) (st st' : St α L) (r : List α) (labs : List L) (flags : List Bool),
      Marked p data st flags → r <:+ d → place p pad dflt size fuel st r labs = some st' → ∃ fl, Marked p data st' fl := by
  intro fuel
  induction fuel with
  | zero =>
    intro st st' r labs flags h _ hp
    match r with
    | [] =>
      simp only [place, Option.some.injEq] at hp
      exact ⟨flags, hp ▸ h⟩
    | _ :: _ => simp [place] at hp
  | succ n ih =>
    intro st st' r labs flags h hr hp
    match r with
    | [] =>
      simp only [place, Option.some.injEq] at hp
      exact ⟨flags, hp ▸ h⟩
    | c :: r =>
      simp only [place] at hp
      obtain ⟨fl, hf⟩ := marked_step h0 h1 h pad dflt hd hr labs
      obtain ⟨y1, y2, y3⟩ := yield_same size (step p pad dflt st (c :: r) labs).1
      exact ih _ st' _ _ fl (marked_congr hf y1 y2 y3) ((List.drop_suffix _ _).trans hr) hp

theorem marked_placeAll {p : Params α} (h0 : 0 ≤ p.split) (h1 : p.split ≤ 1) {data : List (List α)} (pad dflt : L) (size : ℕ) :
    ∀ (ds : List (List α × List L)) (st st' : St α L) (flags : List Bool), (∀ x ∈ ds, x.1 ∈ data) →
      Marked p data st flags → placeAll p pad dflt size st ds = some st' → ∃ fl, Marked p data st' fl := by
  intro ds
  induction ds with
  | nil =>
    intro st st' flags _ h hp
    simp only [placeAll, Option.some.injEq] at hp
    exact ⟨flags, hp ▸ h⟩
  | cons x ds ih =>
    intro st st' flags hx h hp
    obtain ⟨r, labs⟩ := x
    simp only [placeAll] at hp
    split at hp
    · cases hp
    next st1 hst =>
      obtain ⟨fl, hf⟩ := marked_place h0 h1 pad dflt size (hx (r, labs) List.mem_cons_self) _ _ _ _ _ flags h
        (List.suffix_refl _) hst
      exact ih st1 st' fl (fun y hy => hx y (List.mem_cons_of_mem _ hy)) hf hp

theorem marked_init {p : Params α} (h0 : 0 ≤ p.split) (data : List (List α)) : Marked p data (St.init : St α L) [] := by
  refine ⟨⟨rfl, fun i x h => ?_⟩, rfl, rfl, fun k hk => ?_⟩
  · simp [St.made, St.init] at h
  · have hk : k = 0 := by simpa using hk
    subst hk
    simp only [List.take_nil, List.count_nil, Nat.cast_zero, mul_zero, zero_add, zero_sub, mul_neg, mul_one]
    exact ⟨zero_le_one, by linarith⟩

end Verif.CharProcess
