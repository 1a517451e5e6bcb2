import Mathlib.Data.List.Perm.Basic
import Verif.Spec.Mergeable

/-!
# C119: which profiles can be merged and compared

For all profiles, classes, names and orders of merging.
-/

namespace Verif.Props.Mergeable

open Verif Verif.Mergeable Verif.Spec.Mergeable

variable {Λ S σ δ : Type} [DecidableEq Λ] [DecidableEq S]

theorem same_iff (a b : Name) : a.same b = true ↔ a = b ∧ a ≠ .nan := by
  cases a <;> cases b <;> simp [Name.same]

theorem instance_base (c : Cls) (k : Kind) : isInstance c ⟨k, []⟩ = true ↔ c.kind = k := by simp [isInstance]

theorem labeler_iff (a b : Profile Λ S σ) :
    (SameLabeler a b → SameVotes a b → checkLabeler a b = .ok ()) ∧ (¬SameLabeler a b → checkLabeler a b = .error .attributeError) ∧
    (SameLabeler a b → ¬SameVotes a b → checkLabeler a b = .error .valueError) := by
  unfold SameLabeler SameVotes checkLabeler
  cases a.cls.kind <;> by_cases h1 : a.labeler = b.labeler <;> by_cases h2 : a.maxSize = b.maxSize <;> by_cases h3 : a.settings = b.settings <;>
    simp [h1, h2, h3]

omit [DecidableEq Λ] [DecidableEq S] in
theorem column_iff (a b : Profile Λ S σ) :
    (SameColumn a b → checkColumn a b = .ok ()) ∧ (¬SameColumn a b → checkColumn a b = .error .valueError) := by
  have hi : ((a.index.isNone && b.index.isNone) || (a.index.isSome && a.index = b.index)) = true ↔ a.index = b.index := by
    cases a.index <;> cases b.index <;> simp
  have hn := same_iff a.name b.name
  unfold SameColumn checkColumn
  by_cases h1 : a.name = b.name ∧ a.name ≠ .nan
  · have h1' := hn.2 h1
    have h1n : b.name ≠ .nan := h1.1 ▸ h1.2
    by_cases h2 : a.index = b.index
    · have h2' := hi.2 h2
      cases a.cls.kind <;> simp only [h1', h2', if_true] <;> simp [h1, h1n, h2]
    · have h2' : ((a.index.isNone && b.index.isNone) || (a.index.isSome && a.index = b.index)) = false := by
        rw [← Bool.not_eq_true, hi]; exact h2
      cases a.cls.kind <;> simp only [h1', h2', if_true] <;> simp [h1, h1n, h2]
  · have h1' : a.name.same b.name = false := by rw [← Bool.not_eq_true, hn]; exact h1
    cases a.cls.kind <;> simp only [h1'] <;> simp [h1]

/-- Profiles are merged exactly if they are of one kind, label and vote alike and are of the same column, and what they calculated can be merged.
The sum is a profile of that kind and column, of the class of the package, with the labeler and the settings of the first. The first thing that
does not fit decides about the exception. -/
theorem C119_add (merge : Kind → σ → σ → Except Err σ) (a b : Profile Λ S σ) :
    (Compatible a b → add merge a b = (merge a.cls.kind a.body b.body).map fun m => ⟨⟨a.cls.kind, []⟩, a.name, a.index, a.labeler, a.maxSize, a.settings, m⟩) ∧
    (a.cls.kind ≠ b.cls.kind → add merge a b = .error .typeError) ∧
    (a.cls.kind = b.cls.kind → ¬SameLabeler a b → add merge a b = .error .attributeError) ∧
    (a.cls.kind = b.cls.kind → SameLabeler a b → ¬(SameVotes a b ∧ SameColumn a b) → add merge a b = .error .valueError) := by
  obtain ⟨l1, l2, l3⟩ := labeler_iff a b
  obtain ⟨c1, c2⟩ := column_iff a b
  have hi := instance_base b.cls a.cls.kind
  unfold add
  refine ⟨fun ⟨h1, h2, h3, h4⟩ => ?_, fun h => ?_, fun h1 h2 => ?_, fun h1 h2 h3 => ?_⟩
  · rw [if_pos (hi.2 h1.symm), l1 h2 h3, c1 h4]
  · rw [if_neg fun hx => h (hi.1 hx).symm]
  · rw [if_pos (hi.2 h1.symm), l2 h2]
  · rw [if_pos (hi.2 h1.symm)]
    by_cases hv : SameVotes a b
    · rw [l1 h2 hv, c2 fun hc => h3 ⟨hv, hc⟩]
    · rw [l3 h2 hv]

omit [DecidableEq Λ] [DecidableEq S] in
theorem compatible_symm {a b : Profile Λ S σ} (h : Compatible a b) : Compatible b a := by
  obtain ⟨h1, ⟨h2, h3⟩, h4, h5, h6⟩ := h
  unfold Compatible SameLabeler SameVotes SameColumn
  rw [← h1]
  exact ⟨rfl, ⟨fun x => (h2 x).symm, fun x => (h3 x).symm⟩, fun x => (h4 x).symm,
    fun x => ⟨(h5 x).1.symm, (h5 x).1 ▸ (h5 x).2⟩, fun x y => (h6 x y).symm⟩

omit [DecidableEq Λ] [DecidableEq S] in
theorem compatible_trans {a b c : Profile Λ S σ} (h : Compatible a b) (g : Compatible b c) : Compatible a c := by
  obtain ⟨h1, ⟨h2, h3⟩, h4, h5, h6⟩ := h
  obtain ⟨g1, ⟨g2, g3⟩, g4, g5, g6⟩ := g
  unfold Compatible SameLabeler SameVotes SameColumn
  unfold SameVotes at g4
  rw [← h1] at g1 g2 g3 g4 g5 g6
  exact ⟨g1, ⟨fun x => (h2 x).trans (g2 x), fun x => (h3 x).trans (g3 x)⟩, fun x => (h4 x).trans (g4 x),
    fun x => ⟨(h5 x).1.trans (g5 x).1, (h5 x).2⟩, fun x y => (h6 x y).trans (g6 x y)⟩

omit [DecidableEq Λ] [DecidableEq S] in
theorem compatible_self {a : Profile Λ S σ} (h : Named a) : Compatible a a :=
  ⟨rfl, ⟨fun _ => rfl, fun _ => rfl⟩, fun _ => rfl, fun x => ⟨rfl, h x⟩, fun _ _ => rfl⟩

omit [DecidableEq Λ] [DecidableEq S] in
/-- Compatible profiles with other calculations and another class of that kind are compatible. -/
theorem compatible_remade {a b : Profile Λ S σ} (h : Compatible a b) (p : List String) (m : σ) :
    Compatible a ⟨⟨b.cls.kind, p⟩, b.name, b.index, b.labeler, b.maxSize, b.settings, m⟩ := h

/-- Which of two profiles comes first does not decide whether they can be merged, nor the exception. -/
theorem C119_symmetric (merge : Kind → σ → σ → Except Err σ) (hm : ∀ k x y, ∃ m, merge k x y = .ok m) (a b : Profile Λ S σ) :
    ((∃ c, add merge a b = .ok c) ↔ ∃ c, add merge b a = .ok c) ∧ ∀ e, add merge a b = .error e ↔ add merge b a = .error e := by
  have key : ∀ a b : Profile Λ S σ, ¬Compatible a b → ∃ e, add merge a b = .error e ∧ add merge b a = .error e := by
    intro a b hn
    obtain ⟨-, a2, a3, a4⟩ := C119_add merge a b
    obtain ⟨-, b2, b3, b4⟩ := C119_add merge b a
    by_cases hk : a.cls.kind = b.cls.kind
    · have hl : SameLabeler a b ↔ SameLabeler b a := by
        unfold SameLabeler; rw [hk]; exact ⟨fun h => ⟨fun x => (h.1 x).symm, fun x => (h.2 x).symm⟩, fun h => ⟨fun x => (h.1 x).symm, fun x => (h.2 x).symm⟩⟩
      by_cases h : SameLabeler a b
      · refine ⟨_, a4 hk h fun hx => hn ⟨hk, h, hx⟩, b4 hk.symm (hl.1 h) fun hx => hn (compatible_symm ⟨hk.symm, hl.1 h, hx⟩)⟩
      · exact ⟨_, a3 hk h, b3 hk.symm fun hx => h (hl.2 hx)⟩
    · exact ⟨_, a2 hk, b2 fun hx => hk hx.symm⟩
  have good : ∀ a b : Profile Λ S σ, Compatible a b → ∃ c, add merge a b = .ok c := by
    intro a b h
    obtain ⟨m, hx⟩ := hm a.cls.kind a.body b.body
    rw [(C119_add merge a b).1 h, hx]
    exact ⟨_, rfl⟩
  by_cases h : Compatible a b
  · obtain ⟨c, hc⟩ := good a b h
    obtain ⟨d, hd⟩ := good b a (compatible_symm h)
    rw [hc, hd]
    exact ⟨⟨fun _ => ⟨d, rfl⟩, fun _ => ⟨c, rfl⟩⟩, fun e => ⟨fun x => (by cases x), fun x => (by cases x)⟩⟩
  · obtain ⟨e, h1, h2⟩ := key a b h
    rw [h1, h2]
    exact ⟨⟨fun ⟨c, hc⟩ => (by cases hc), fun ⟨c, hc⟩ => (by cases hc)⟩, fun e => Iff.rfl⟩

/-- The sum of profiles is compatible with each of them, and there is none if two are not compatible. -/
theorem sum_iff (merge : Kind → σ → σ → Except Err σ) (hm : ∀ k x y, ∃ m, merge k x y = .ok m) (t : Tree (Profile Λ S σ))
    (hn : ∀ a ∈ leaves t, Named a) :
    (∀ c, sum merge t = .ok c → Named c ∧ ∀ a ∈ leaves t, Compatible a c) ∧
    ((∀ a ∈ leaves t, ∀ b ∈ leaves t, Compatible a b) → ∃ c, sum merge t = .ok c) := by
  induction t with
  | leaf a =>
    have ha := hn a (by simp [leaves])
    refine ⟨fun c hc => ?_, fun _ => ⟨a, rfl⟩⟩
    cases hc
    exact ⟨ha, fun b hb => by simp only [leaves, List.mem_singleton] at hb; subst hb; exact compatible_self ha⟩
  | node l r il ir =>
    obtain ⟨l1, l2⟩ := il fun a ha => hn a (by simp [leaves, ha])
    obtain ⟨r1, r2⟩ := ir fun a ha => hn a (by simp [leaves, ha])
    have ne : ∀ t : Tree (Profile Λ S σ), ∃ a, a ∈ leaves t := by
      intro t
      induction t with
      | leaf a => exact ⟨a, by simp [leaves]⟩
      | node l r il _ => obtain ⟨a, ha⟩ := il; exact ⟨a, by simp [leaves, ha]⟩
    refine ⟨fun c hc => ?_, fun h => ?_⟩
    · unfold sum at hc
      cases hl : sum merge l with
      | error e => rw [hl] at hc; cases hc
      | ok x =>
        cases hr : sum merge r with
        | error e => rw [hl, hr] at hc; cases hc
        | ok y =>
          rw [hl, hr] at hc
          simp only at hc
          obtain ⟨nx, cx⟩ := l1 x hl
          obtain ⟨-, cy⟩ := r1 y hr
          obtain ⟨a1, a2, a3, a4⟩ := C119_add merge x y
          have hxy : Compatible x y := by
            refine Classical.byContradiction fun hh => ?_
            by_cases hk : x.cls.kind = y.cls.kind
            · by_cases hs : SameLabeler x y
              · rw [a4 hk hs fun hx => hh ⟨hk, hs, hx⟩] at hc; cases hc
              · rw [a3 hk hs] at hc; cases hc
            · rw [a2 hk] at hc; cases hc
          rw [a1 hxy] at hc
          obtain ⟨m, hmm⟩ := hm x.cls.kind x.body y.body
          rw [hmm] at hc
          simp only [Except.map, Except.ok.injEq] at hc
          subst hc
          refine ⟨nx, fun a ha => ?_⟩
          simp only [leaves, List.mem_append] at ha
          rcases ha with ha | ha
          · exact compatible_remade (cx a ha) [] m
          · exact compatible_remade (compatible_trans (cy a ha) (compatible_symm hxy)) [] m
    · obtain ⟨x, hx⟩ := l2 fun a ha b hb => h a (by simp [leaves, ha]) b (by simp [leaves, hb])
      obtain ⟨y, hy⟩ := r2 fun a ha b hb => h a (by simp [leaves, ha]) b (by simp [leaves, hb])
      obtain ⟨a, ha⟩ := ne l
      obtain ⟨b, hb⟩ := ne r
      have hxy : Compatible x y := compatible_trans (compatible_symm ((l1 x hx).2 a ha))
        (compatible_trans (h a (by simp [leaves, ha]) b (by simp [leaves, hb])) ((r1 y hy).2 b hb))
      obtain ⟨m, hmm⟩ := hm x.cls.kind x.body y.body
      unfold sum
      rw [hx, hy]
      simp only
      rw [(C119_add merge x y).1 hxy, hmm]
      exact ⟨_, rfl⟩

/-- Any number of profiles can be merged, in whatever order, exactly if any two of them go together. -/
theorem C119_sum (merge : Kind → σ → σ → Except Err σ) (hm : ∀ k x y, ∃ m, merge k x y = .ok m) (t : Tree (Profile Λ S σ))
    (hn : ∀ a ∈ leaves t, Named a) :
    ((∃ c, sum merge t = .ok c) ↔ ∀ a ∈ leaves t, ∀ b ∈ leaves t, Compatible a b) ∧
    ∀ u, (leaves u).Perm (leaves t) → ((∃ c, sum merge u = .ok c) ↔ ∃ c, sum merge t = .ok c) := by
  have key : ∀ t : Tree (Profile Λ S σ), (∀ a ∈ leaves t, Named a) →
      ((∃ c, sum merge t = .ok c) ↔ ∀ a ∈ leaves t, ∀ b ∈ leaves t, Compatible a b) := by
    intro t hn
    obtain ⟨h1, h2⟩ := sum_iff merge hm t hn
    exact ⟨fun ⟨c, hc⟩ a ha b hb => compatible_trans ((h1 c hc).2 a ha) (compatible_symm ((h1 c hc).2 b hb)), h2⟩
  refine ⟨key t hn, fun u hu => ?_⟩
  rw [key t hn, key u fun a ha => hn a (hu.mem_iff.1 ha)]
  simp only [hu.mem_iff]

omit [DecidableEq Λ] [DecidableEq S] in
/-- Profiles are compared exactly if the second is an instance of the class of the first; for two of the classes of the package this is so in
both directions or in none. -/
theorem C119_diff (compare : Kind → σ → σ → Except Err δ) (a b : Profile Λ S σ) :
    (a.cls.kind = b.cls.kind → a.cls.path <+: b.cls.path → diff compare a b = compare a.cls.kind a.body b.body) ∧
    (¬(a.cls.kind = b.cls.kind ∧ a.cls.path <+: b.cls.path) → diff compare a b = .error .typeError) ∧
    (a.cls.path = [] → b.cls.path = [] → (diff compare a b = .error .typeError ∧ diff compare b a = .error .typeError) ∨
      (diff compare a b = compare a.cls.kind a.body b.body ∧ diff compare b a = compare a.cls.kind b.body a.body)) := by
  have hi : ∀ a b : Profile Λ S σ, isInstance b.cls a.cls = true ↔ a.cls.kind = b.cls.kind ∧ a.cls.path <+: b.cls.path := by
    intro a b
    simp [isInstance, eq_comm (a := b.cls.kind)]
  have d1 : ∀ a b : Profile Λ S σ, a.cls.kind = b.cls.kind → a.cls.path <+: b.cls.path → diff compare a b = compare a.cls.kind a.body b.body := by
    intro a b h1 h2
    unfold diff
    rw [if_pos ((hi a b).2 ⟨h1, h2⟩)]
  have d2 : ∀ a b : Profile Λ S σ, ¬(a.cls.kind = b.cls.kind ∧ a.cls.path <+: b.cls.path) → diff compare a b = .error .typeError := by
    intro a b h
    unfold diff
    rw [if_neg fun hx => h ((hi a b).1 hx)]
  refine ⟨d1 a b, d2 a b, fun h1 h2 => ?_⟩
  by_cases hk : a.cls.kind = b.cls.kind
  · refine Or.inr ⟨d1 a b hk (by rw [h1, h2]; exact List.prefix_refl _), ?_⟩
    rw [d1 b a hk.symm (by rw [h1, h2]; exact List.prefix_refl _), hk]
  · exact Or.inl ⟨d2 a b fun h => hk h.1, d2 b a fun h => hk h.1.symm⟩

/-- A profile for examples; calculations are numbers, added. -/
def sample (k : Kind) (p : List String) (n : Name) (l : ℕ) (x : ℕ) : Profile ℕ ℕ ℕ := ⟨⟨k, p⟩, n, none, l, none, 0, x⟩

def plus : Kind → ℕ → ℕ → Except Err ℕ := fun _ x y => .ok (x + y)

example : sum plus (.node (.leaf (sample .int [] (.text "a") 0 1)) (.node (.leaf (sample .int ["Mine"] (.text "a") 0 2)) (.leaf (sample .int [] (.text "a") 5 3)))) =
    .ok (sample .int [] (.text "a") 0 6) ∧
    add plus (sample .int [] (.text "a") 0 1) (sample .float [] (.text "a") 0 1) = .error .typeError ∧
    add plus (sample .int [] (.text "a") 0 1) (sample .int [] (.text "b") 0 1) = .error .valueError ∧
    add plus (sample .labeler [] (.text "a") 0 1) (sample .labeler [] (.text "b") 1 1) = .error .attributeError ∧
    (∀ k x y, ∃ m, plus k x y = .ok m) ∧ Named (sample .int [] (.text "a") 0 1) :=
  ⟨by decide, by decide, by decide, by decide, fun _ x y => ⟨x + y, rfl⟩, fun _ => (by decide)⟩

/-- **Full statement fails.** Profiles of a column that is named NaN cannot be merged, not even one with itself. -/
theorem C119_nan_fails (merge : Kind → σ → σ → Except Err σ) (a : Profile Λ S σ) (hk : a.cls.kind ≠ .entities) (hn : a.name = .nan) :
    add merge a a = .error .valueError := by
  refine (C119_add merge a a).2.2.2 rfl ⟨fun _ => rfl, fun _ => rfl⟩ fun h => ?_
  exact (h.2.1 hk).2 hn

/-- **Full statement fails.** The sum of two profiles of a class of the user is none of that class: the profiles can be compared with each other
but not with their sum. -/
theorem C119_class_fails (compare : Kind → ℕ → ℕ → Except Err ℕ) (hc : ∀ k x y, ∃ d, compare k x y = .ok d) :
    ∃ a b c : Profile ℕ ℕ ℕ, add plus a b = .ok c ∧ (∃ d, diff compare a b = .ok d) ∧ diff compare a c = .error .typeError ∧
      ∃ d, diff compare c a = .ok d := by
  refine ⟨sample .int ["Mine"] (.text "a") 0 1, sample .int ["Mine"] (.text "a") 0 2, sample .int [] (.text "a") 0 3, by decide, ?_, ?_, ?_⟩
  · rw [(C119_diff compare (sample .int ["Mine"] (.text "a") 0 1) (sample .int ["Mine"] (.text "a") 0 2)).1 rfl (List.prefix_refl _)]
    exact hc _ _ _
  · exact (C119_diff compare _ _).2.1 fun h => by simp [sample] at h
  · rw [(C119_diff compare (sample .int [] (.text "a") 0 3) (sample .int ["Mine"] (.text "a") 0 1)).1 rfl (by simp [sample])]
    exact hc _ _ _

end Verif.Props.Mergeable
