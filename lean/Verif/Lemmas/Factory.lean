import Mathlib.Tactic.SplitIfs
import Mathlib.Tactic.Cases
import Mathlib.Data.List.Basic
import Verif.Spec.Factory

/-!
# Lemmas about making profilers
-/

namespace Verif.Factory

open Verif Verif.Spec.Factory

variable {L ρ α β : Type} (lib : Lib L ρ α β)

theorem kindOf_name (k : Kind) : kindOf (nameOf k) = .ok k := by cases k <;> rfl

theorem kindOf_ok {t : String} {k : Kind} (h : kindOf t = .ok k) : t = nameOf k := by
  unfold kindOf at h
  split_ifs at h with h1 h2 h3 <;> cases h <;> assumption

theorem infer_fits {d : Data α} {k : Kind} (h : Fits d k) : (infer d).bind kindOf = .ok k := by
  cases h with
  | tableReader k e t r h => cases k <;> first | exact absurd rfl h | rfl
  | textReader k e t r h => cases k <;> first | exact absurd rfl h | rfl
  | _ => rfl

theorem infer_unfit {d : Data α} (h : ¬∃ k, Fits d k) : (infer d).bind kindOf = .error .valueError := by
  cases d with
  | missing => rfl
  | raw r =>
    obtain ⟨f, n, c⟩ := r
    cases f with
    | text => exact absurd ⟨_, .text n c⟩ h
    | list => exact absurd ⟨_, .list n c⟩ h
    | series => exact absurd ⟨_, .series n c⟩ h
    | frame => exact absurd ⟨_, .frame n c⟩ h
    | graph => exact absurd ⟨_, .graph n c⟩ h
    | other => rfl
  | reader k s e t r =>
    cases k with
    | graph => exact absurd ⟨_, .graphReader s e t r⟩ h
    | text => cases s with
      | true => exact absurd ⟨_, .tableReader .text e t r (by simp)⟩ h
      | false => exact absurd ⟨_, .textReader .text e t r (by simp)⟩ h
    | table => cases s with
      | true => exact absurd ⟨_, .tableReader .table e t r (by simp)⟩ h
      | false => exact absurd ⟨_, .textReader .table e t r (by simp)⟩ h

theorem assign_refused {k : Kind} {o : Opts L ρ} (h : LabelerRefused lib.load k o) : assignLabeler lib k o = .error .valueError := by
  obtain ⟨h1, h2, h3⟩ := h
  simp [assignLabeler, h1, h2, h3]

theorem assign_labeled {k : Kind} {o : Opts L ρ} (h : ¬LabelerRefused lib.load k o) :
    ∃ o', assignLabeler lib k o = .ok o' ∧ Labeled lib.load k o o' ∧ assignLabeler lib k o' = .ok o' := by
  obtain ⟨en, dp, ob, rs⟩ := o
  unfold LabelerRefused at h
  unfold assignLabeler Labeled
  cases en with
  | false => exact ⟨_, rfl, by simp, rfl⟩
  | true =>
    cases ob with
    | some l => exact ⟨_, rfl, by simp, rfl⟩
    | none =>
      cases hl : lib.load k dp with
      | ok l => exact ⟨⟨true, dp, some l, rs⟩, by simp, by simp, rfl⟩
      | error e =>
        have he : e ≠ .valueError := by rintro rfl; exact h ⟨rfl, rfl, hl⟩
        refine ⟨⟨false, dp, none, rs⟩, ?_, by simp [he], rfl⟩
        cases e <;> first | exact absurd rfl he | simp [hl]

theorem resolve_given {k : Kind} {o : OptArg} {r : ℕ} (hg : Given o k r) (h : Heap L ρ) : resolve lib k o h = .ok (r, h) := by
  cases o <;> cases k <;> simp only [Given] at hg <;> first | (subst hg; rfl) | exact hg.elim

theorem resolve_none {k : Kind} {o : OptArg} (hn : NotGiven o) (h : Heap L ρ) :
    resolve lib k o h = .ok (h.length, h ++ [lib.defaults k]) := by
  cases o with
  | absent => rfl
  | other b => cases b <;> first | rfl | cases hn
  | _ => exact hn.elim

theorem resolve_heap {k : Kind} {o : OptArg} {h h' : Heap L ρ} {r : ℕ} (hr : resolve lib k o h = .ok (r, h')) :
    (Given o k r ∧ h' = h) ∨ (NotGiven o ∧ r = h.length ∧ h' = h ++ [lib.defaults k]) := by
  cases o with
  | absent => cases hr; exact Or.inr ⟨trivial, rfl, rfl⟩
  | other b => cases b with
    | true => cases k <;> cases hr
    | false => cases hr; exact Or.inr ⟨rfl, rfl, rfl⟩
  | full s u => cases k <;> cases hr <;> exact Or.inl ⟨rfl, rfl⟩
  | structured s => cases k <;> cases hr <;> exact Or.inl ⟨rfl, rfl⟩
  | unstructured s => cases k <;> cases hr <;> exact Or.inl ⟨rfl, rfl⟩

/-- The constructor when nothing is wrong. -/
theorem construct_ok {k : Kind} {d : Data α} {spu : Option ℕ} {m : MinTrue} {o : OptArg} {h h1 : Heap L ρ} {r : ℕ} {opts : Opts L ρ}
    (hr : resolve lib k o h = .ok (r, h1)) (ht : ∀ s e t x, k = .structured → d ≠ .reader .text s e t x) (hm : IntOrNone m)
    (ho : h1[r]? = some opts) (hv : lib.valid opts = true) :
    construct lib k d spu m o h = match assignLabeler lib k opts with
      | .error e => (.error e, h1)
      | .ok opts' => (.ok ⟨k, r, spu, m, none, none, lib.fresh k opts'⟩, h1.set r opts') := by
  have hcm : checkMin m = .ok () := by cases m <;> first | rfl | exact hm.elim
  have hat : at? h1 r = .ok opts := by unfold at?; rw [ho]
  unfold construct
  rw [hr]
  dsimp only
  split
  · exact absurd rfl (ht _ _ _ _ rfl)
  · rw [hcm, hat]
    dsimp only
    rw [if_pos hv]
    cases assignLabeler lib k opts <;> rfl

/-- The heap after the constructor: as it was after the options were found, but for their labeler. -/
theorem construct_heap {k : Kind} {d : Data α} {spu : Option ℕ} {m : MinTrue} {o : OptArg} {h : Heap L ρ} :
    (construct lib k d spu m o h).2 = h ∨ ∃ r h1, resolve lib k o h = .ok (r, h1) ∧
      ((construct lib k d spu m o h).2 = h1 ∨ ∃ opts, (construct lib k d spu m o h).2 = h1.set r opts) := by
  unfold construct
  cases hr : resolve lib k o h with
  | error e => exact Or.inl rfl
  | ok x =>
    obtain ⟨r, h1⟩ := x
    refine Or.inr ⟨r, h1, rfl, ?_⟩
    dsimp only
    split
    · exact Or.inl rfl
    · split
      · exact Or.inl rfl
      · split
        · exact Or.inl rfl
        · split_ifs
          · split
            · exact Or.inl rfl
            · exact Or.inr ⟨_, rfl⟩
          · exact Or.inl rfl

theorem feed_heap (d : Data α) (x : Except Err (Prof β) × Heap L ρ) : (feed lib d x).2 = x.2 := by
  obtain ⟨p, h⟩ := x
  unfold feed
  cases p with
  | error e => rfl
  | ok p =>
    cases d with
    | missing => rfl
    | raw r => dsimp only; cases at? h p.opts <;> rfl
    | reader k s e t r => dsimp only; cases at? h p.opts <;> rfl

theorem profiler_heap {d : Data α} {spu : Option ℕ} {m : MinTrue} {o : OptArg} {t : TypeArg} {h : Heap L ρ} :
    (profiler lib d spu m o t h).2 = h ∨ ∃ k r h1, resolve lib k o h = .ok (r, h1) ∧
      ((profiler lib d spu m o t h).2 = h1 ∨ ∃ opts, (profiler lib d spu m o t h).2 = h1.set r opts) := by
  unfold profiler
  split
  · exact Or.inl rfl
  · rename_i k _
    cases k with
    | graph => exact Or.inl rfl
    | structured =>
      show (feed lib d _).2 = h ∨ ∃ k r h1, resolve lib k o h = .ok (r, h1) ∧ ((feed lib d _).2 = h1 ∨ ∃ opts, (feed lib d _).2 = h1.set r opts)
      rw [feed_heap]
      rcases construct_heap lib (k := .structured) (d := d) (spu := spu) (m := m) (o := o) (h := h) with e | ⟨r, h1, hr, hh⟩
      · exact Or.inl e
      · exact Or.inr ⟨.structured, r, h1, hr, hh⟩
    | unstructured =>
      show (feed lib d _).2 = h ∨ ∃ k r h1, resolve lib k o h = .ok (r, h1) ∧ ((feed lib d _).2 = h1 ∨ ∃ opts, (feed lib d _).2 = h1.set r opts)
      rw [feed_heap]
      rcases construct_heap lib (k := .unstructured) (d := d) (spu := spu) (m := m) (o := o) (h := h) with e | ⟨r, h1, hr, hh⟩
      · exact Or.inl e
      · exact Or.inr ⟨.unstructured, r, h1, hr, hh⟩

theorem step_frame {h : Heap L ρ} {st : Step L ρ α} {r : ℕ} (hlt : r < h.length) (ht : ¬Touches r st) :
    (heapAfter lib h st)[r]? = h[r]? ∧ h.length ≤ (heapAfter lib h st).length := by
  cases st with
  | change s f =>
    simp only [Touches] at ht
    constructor
    · show (h.modify s f)[r]? = h[r]?
      rw [List.getElem?_modify]
      have hne : ¬s = r := fun e => ht e.symm
      simp [hne]
    · simp [heapAfter]
  | make d spu m o t =>
    show (profiler lib d spu m o t h).2[r]? = h[r]? ∧ h.length ≤ (profiler lib d spu m o t h).2.length
    rcases profiler_heap lib (d := d) (spu := spu) (m := m) (o := o) (t := t) (h := h) with e | ⟨k, s, h1, hr, hh⟩
    · rw [e]; exact ⟨rfl, Nat.le_refl _⟩
    · have key : s ≠ r ∧ h1[r]? = h[r]? ∧ h.length ≤ h1.length := by
        rcases resolve_heap lib hr with ⟨hg, rfl⟩ | ⟨_, rfl, rfl⟩
        · refine ⟨?_, rfl, Nat.le_refl _⟩
          rintro rfl
          cases o with
          | absent => exact hg
          | other b => exact hg
          | full a b => cases k with
            | graph => exact hg
            | structured => exact ht (Or.inl hg)
            | unstructured => exact ht (Or.inr hg)
          | structured a => cases k with
            | structured => exact ht hg
            | _ => exact hg
          | unstructured a => cases k with
            | unstructured => exact ht hg
            | _ => exact hg
        · exact ⟨by omega, by rw [List.getElem?_append_left hlt], by simp⟩
      rcases hh with e | ⟨opts, e⟩
      · rw [e]; exact key.2
      · rw [e]
        refine ⟨?_, by simpa using key.2.2⟩
        rw [List.getElem?_set_ne key.1]
        exact key.2.1

theorem run_frame {r : ℕ} (steps : List (Step L ρ α)) : ∀ {h : Heap L ρ}, r < h.length → (∀ s ∈ steps, ¬Touches r s) →
    (run lib h steps)[r]? = h[r]? := by
  induction steps with
  | nil => intro h _ _; rfl
  | cons s steps ih =>
    intro h hlt ht
    have hs := step_frame lib hlt (ht s List.mem_cons_self)
    show (run lib (heapAfter lib h s) steps)[r]? = _
    rw [ih (Nat.lt_of_lt_of_le hlt hs.2) fun s hm => ht s (List.mem_cons_of_mem _ hm), hs.1]

theorem profiler_some {t : String} {k : Kind} (hk : kindOf t = .ok k) (d : Data α) (spu : Option ℕ) (m : MinTrue) (o : OptArg) (h : Heap L ρ) :
    profiler lib d spu m o (some t) h = make lib k d spu m o h := by
  unfold profiler
  simp only [hk]

theorem profiler_inferred {k : Kind} {d : Data α} (hk : (infer d).bind kindOf = .ok k) (spu : Option ℕ) (m : MinTrue) (o : OptArg) (h : Heap L ρ) :
    profiler lib d spu m o none h = make lib k d spu m o h := by
  unfold profiler
  simp only [hk]

theorem profiler_named {k : Kind} (hk : k ≠ .graph) (d : Data α) (spu : Option ℕ) (m : MinTrue) (o : OptArg) (h : Heap L ρ) :
    profiler lib d spu m o (some (nameOf k)) h = feed lib d (construct lib k d spu m o h) := by
  rw [profiler_some lib (kindOf_name k)]
  cases k with
  | graph => exact absurd rfl hk
  | _ => rfl

end Verif.Factory
