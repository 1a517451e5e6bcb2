import Mathlib.Order.MinMax
import Mathlib.Tactic.SplitIfs
import Mathlib.Tactic.Push
import Mathlib.Data.List.Pairwise
import Mathlib.Order.Basic
import Verif.Spec.Order

namespace Verif.Order

open Verif Verif.OrderSpec

variable {α : Type} [LinearOrder α]

/-! ## Lists -/

theorem asc_sub {l m : List α} (h : Asc m) (hs : l.Sublist m) : Asc l := h.sublist hs
theorem desc_sub {l m : List α} (h : Desc m) (hs : l.Sublist m) : Desc l := h.sublist hs

theorem const_of_asc_desc {l : List α} (h1 : Asc l) (h2 : Desc l) : Const l := by
  unfold Asc Desc at *
  induction l with
  | nil => intro x hx; simp at hx
  | cons a l ih =>
    rw [List.pairwise_cons] at h1 h2
    have hall : ∀ x ∈ l, a = x := fun x hx => le_antisymm (h1.1 x hx) (h2.1 x hx)
    intro x hx y hy
    rcases List.mem_cons.1 hx with rfl | hx
    · rcases List.mem_cons.1 hy with rfl | hy
      · rfl
      · exact hall y hy
    · rcases List.mem_cons.1 hy with hy | hy
      · rw [hy, hall x hx]
      · rw [← hall x hx, hall y hy]

theorem asc_of_const {l : List α} (h : Const l) : Asc l := by
  unfold Asc
  rw [List.pairwise_iff_forall_sublist]
  intro a b hab
  exact (h a (hab.subset (by simp)) b (hab.subset (by simp))).le

theorem desc_of_const {l : List α} (h : Const l) : Desc l := by
  unfold Desc
  rw [List.pairwise_iff_forall_sublist]
  intro a b hab
  exact (h a (hab.subset (by simp)) b (hab.subset (by simp))).ge

omit [LinearOrder α] in
theorem const_sub {l m : List α} (h : Const m) (hs : l.Sublist m) : Const l :=
  fun x hx y hy => h x (hs.subset hx) y (hs.subset hy)

theorem asc_append {l m : List α} : Asc (l ++ m) ↔ Asc l ∧ Asc m ∧ ∀ a ∈ l, ∀ b ∈ m, a ≤ b := by
  unfold Asc; exact List.pairwise_append

theorem desc_append {l m : List α} : Desc (l ++ m) ↔ Desc l ∧ Desc m ∧ ∀ a ∈ l, ∀ b ∈ m, b ≤ a := by
  unfold Desc; exact List.pairwise_append

/-! ## One batch -/

/-- What the loop knows after the values `p` with last value `x`. -/
def Good (p : List α) (x : α) : Option Kind → Prop
  | none => Const p ∧ x ∈ p
  | some .ascending => Asc p ∧ ¬ Const p ∧ IsMax x p
  | some .descending => Desc p ∧ ¬ Const p ∧ IsMin x p
  | _ => False

theorem orderLoop_good (o : Option Kind) (x : α) (p vs : List α) (h : Good p x o) :
    Good (p ++ vs) (orderLoop o x vs).2 (orderLoop o x vs).1 ∨
      ((orderLoop o x vs).1 = some .random ∧ ¬ Asc (p ++ vs) ∧ ¬ Desc (p ++ vs)) := by
  induction vs generalizing o x p with
  | nil => left; simpa [orderLoop] using h
  | cons v vs ih =>
    have hassoc : p ++ v :: vs = (p ++ [v]) ++ vs := by simp
    have hsub : (p ++ [v]).Sublist (p ++ v :: vs) := by rw [hassoc]; exact List.sublist_append_left _ _
    match o, h with
    | none, h =>
      obtain ⟨hc, hx⟩ := h
      have hall : ∀ y ∈ p, y = x := fun y hy => hc y hy x hx
      rw [orderLoop]
      simp only [reduceCtorEq, and_false, if_false, and_true]
      by_cases h1 : v < x
      · rw [if_pos h1, hassoc]
        apply ih
        refine ⟨desc_append.2 ⟨desc_of_const hc, by simp [Desc], ?_⟩, ?_, ?_⟩
        · intro a ha b hb; simp at hb; subst hb; rw [hall a ha]; exact h1.le
        · intro hcc; exact h1.ne (hcc v (by simp) x (by simp [hx]))
        · refine ⟨by simp, ?_⟩
          intro y hy
          rcases List.mem_append.1 hy with hy | hy
          · rw [hall y hy]; exact h1.le
          · simp at hy; exact hy.ge
      · rw [if_neg h1]
        by_cases h2 : x < v
        · rw [if_pos h2, hassoc]
          apply ih
          refine ⟨asc_append.2 ⟨asc_of_const hc, by simp [Asc], ?_⟩, ?_, ?_⟩
          · intro a ha b hb; simp at hb; subst hb; rw [hall a ha]; exact h2.le
          · intro hcc; exact h2.ne (hcc x (by simp [hx]) v (by simp))
          · refine ⟨by simp, ?_⟩
            intro y hy
            rcases List.mem_append.1 hy with hy | hy
            · rw [hall y hy]; exact h2.le
            · simp at hy; exact hy.le
        · rw [if_neg h2, hassoc]
          apply ih
          have hv : v = x := le_antisymm (not_lt.1 h2) (not_lt.1 h1)
          refine ⟨?_, by simp⟩
          intro a ha b hb
          have ha' : a = x := by
            rcases List.mem_append.1 ha with ha | ha
            · exact hall a ha
            · simp at ha; rw [ha, hv]
          have hb' : b = x := by
            rcases List.mem_append.1 hb with hb | hb
            · exact hall b hb
            · simp at hb; rw [hb, hv]
          rw [ha', hb']
    | some .ascending, h =>
      obtain ⟨ha, hnc, hx, hmax⟩ := h
      rw [orderLoop]
      simp only [reduceCtorEq, and_false, if_false, and_true, Option.some.injEq]
      by_cases h1 : v < x
      · rw [if_pos h1]
        right
        refine ⟨rfl, ?_, ?_⟩
        · intro hasc
          have := (asc_append.1 (asc_sub hasc hsub)).2.2 x hx v (by simp)
          exact absurd h1 (not_lt.2 this)
        · intro hd
          exact hnc (const_of_asc_desc ha (desc_sub hd (List.sublist_append_left _ _)))
      · rw [if_neg h1, hassoc]
        apply ih
        have h1 := not_lt.1 h1
        refine ⟨asc_append.2 ⟨ha, by simp [Asc], ?_⟩, ?_, by simp, ?_⟩
        · intro a ha b hb; simp at hb; subst hb; exact (hmax a ha).trans h1
        · intro hcc; exact hnc (const_sub hcc (List.sublist_append_left _ _))
        · intro y hy
          rcases List.mem_append.1 hy with hy | hy
          · exact (hmax y hy).trans h1
          · simp at hy; exact hy.le
    | some .descending, h =>
      obtain ⟨ha, hnc, hx, hmin⟩ := h
      rw [orderLoop]
      simp only [reduceCtorEq, and_false, if_false, and_true, Option.some.injEq]
      by_cases h1 : x < v
      · rw [if_pos h1]
        right
        refine ⟨rfl, ?_, ?_⟩
        · intro hd
          exact hnc (const_of_asc_desc (asc_sub hd (List.sublist_append_left _ _)) ha)
        · intro hasc
          have := (desc_append.1 (desc_sub hasc hsub)).2.2 x hx v (by simp)
          exact absurd h1 (not_lt.2 this)
      · rw [if_neg h1, hassoc]
        apply ih
        have h1 := not_lt.1 h1
        refine ⟨desc_append.2 ⟨ha, by simp [Desc], ?_⟩, ?_, by simp, ?_⟩
        · intro a ha b hb; simp at hb; subst hb; exact h1.trans (hmin a ha)
        · intro hcc; exact hnc (const_sub hcc (List.sublist_append_left _ _))
        · intro y hy
          rcases List.mem_append.1 hy with hy | hy
          · exact h1.trans (hmin y hy)
          · simp at hy; exact hy.ge

/-! ## The invariant -/

/-- What a profile guarantees about the batches `bs`. -/
structure Inv (i : Info α) (bs : List (List α)) : Prop where
  ascending : i.order = .ascending → (∀ b ∈ bs, Asc b) ∧ (∃ b ∈ bs, ¬ Const b) ∧
    IsMin i.first bs.flatten ∧ IsMax i.last bs.flatten ∧ i.first < i.last
  descending : i.order = .descending → (∀ b ∈ bs, Desc b) ∧ (∃ b ∈ bs, ¬ Const b) ∧
    i.first ∈ bs.flatten ∧ i.last ∈ bs.flatten ∧ i.last < i.first
  constant : i.order = .constant → (∀ b ∈ bs, Const b) ∧
    IsMin i.first bs.flatten ∧ IsMax i.last bs.flatten ∧ (i.piecewise = true ↔ i.first ≠ i.last)
  random : i.order = .random → ¬ Asc bs.flatten ∧ ¬ Desc bs.flatten

theorem dataOrder_inv (v : α) (vs : List α) : Inv (dataOrder v vs) [v :: vs] := by
  have hflat : [v :: vs].flatten = v :: vs := by simp
  have h0 : orderLoop (none : Option Kind) v (v :: vs) = orderLoop none v vs := by
    rw [orderLoop]; simp
  have hg := orderLoop_good none v [v] vs ⟨by intro x hx y hy; simp at hx hy; rw [hx, hy], by simp⟩
  rw [List.singleton_append] at hg
  have hfirst : (dataOrder v vs).first = v := rfl
  have hord : (dataOrder v vs).order = (orderLoop none v vs).1.getD .constant := by unfold dataOrder; rw [h0]
  have hlast : (dataOrder v vs).last = (orderLoop none v vs).2 := by unfold dataOrder; rw [h0]
  have hpw : (dataOrder v vs).piecewise = false := rfl
  generalize orderLoop (none : Option Kind) v vs = r at hg hord hlast
  obtain ⟨o, x⟩ := r
  simp only at hg hord hlast
  have headmin : Asc (v :: vs) → IsMin v (v :: vs) := by
    intro h
    refine ⟨by simp, ?_⟩
    intro y hy
    rcases List.mem_cons.1 hy with rfl | hy
    · exact le_refl _
    · exact (List.pairwise_cons.1 h).1 y hy
  have headmax : Desc (v :: vs) → IsMax v (v :: vs) := by
    intro h
    refine ⟨by simp, ?_⟩
    intro y hy
    rcases List.mem_cons.1 hy with rfl | hy
    · exact le_refl _
    · exact (List.pairwise_cons.1 h).1 y hy
  constructor
  · intro ho
    rw [hord] at ho
    rcases hg with hg | ⟨hg, _⟩
    · match o, hg, ho with
      | some .ascending, hg, _ =>
        obtain ⟨ha, hnc, hmax⟩ := hg
        rw [hflat, hfirst, hlast]
        have hmin := headmin ha
        refine ⟨by simpa using ha, ⟨_, List.mem_singleton.2 rfl, hnc⟩, hmin, hmax, ?_⟩
        refine lt_of_le_of_ne (hmin.2 x hmax.1) ?_
        rintro rfl
        apply hnc
        intro a ha' b hb
        rw [le_antisymm (hmax.2 a ha') (hmin.2 a ha'), le_antisymm (hmax.2 b hb) (hmin.2 b hb)]
      | none, _, ho => simp at ho
      | some .descending, _, ho => simp at ho
    · rw [hg] at ho; simp at ho
  · intro ho
    rw [hord] at ho
    rcases hg with hg | ⟨hg, _⟩
    · match o, hg, ho with
      | some .descending, hg, _ =>
        obtain ⟨ha, hnc, hmin⟩ := hg
        rw [hflat, hfirst, hlast]
        have hmax := headmax ha
        refine ⟨by simpa using ha, ⟨_, List.mem_singleton.2 rfl, hnc⟩, hmax.1, hmin.1, ?_⟩
        refine lt_of_le_of_ne (hmin.2 v hmax.1) ?_
        rintro rfl
        apply hnc
        intro a ha' b hb
        rw [le_antisymm (hmax.2 a ha') (hmin.2 a ha'), le_antisymm (hmax.2 b hb) (hmin.2 b hb)]
      | none, _, ho => simp at ho
      | some .ascending, _, ho => simp at ho
    · rw [hg] at ho; simp at ho
  · intro ho
    rw [hord] at ho
    rcases hg with hg | ⟨hg, _⟩
    · match o, hg, ho with
      | none, hg, _ =>
        obtain ⟨hc, hx⟩ := hg
        have hxv : x = v := hc x hx v (by simp)
        rw [hflat, hfirst, hlast, hxv, hpw]
        refine ⟨by simpa using hc, ⟨by simp, fun y hy => (hc v (by simp) y hy).le⟩,
          ⟨by simp, fun y hy => (hc y hy v (by simp)).le⟩, by simp⟩
      | some .ascending, _, ho => simp at ho
      | some .descending, _, ho => simp at ho
    · rw [hg] at ho; simp at ho
  · intro ho
    rw [hord] at ho
    rw [hflat]
    rcases hg with hg | ⟨_, hg⟩
    · match o, hg, ho with
      | none, _, ho => simp at ho
      | some .ascending, _, ho => simp at ho
      | some .descending, _, ho => simp at ho
    · exact hg

/-- Every non-random profile has endpoints among its data. -/
theorem Inv.mem {i : Info α} {bs : List (List α)} (h : Inv i bs) (hr : i.order ≠ .random) :
    i.first ∈ bs.flatten ∧ i.last ∈ bs.flatten := by
  cases hk : i.order with
  | ascending => have := h.ascending hk; exact ⟨this.2.2.1.1, this.2.2.2.1.1⟩
  | descending => have := h.descending hk; exact ⟨this.2.2.1, this.2.2.2.1⟩
  | constant => have := h.constant hk; exact ⟨this.2.1.1, this.2.2.1.1⟩
  | random => exact absurd hk hr

theorem eq_of_min_max {a b : α} (h : min a b = max a b) : a = b :=
  le_antisymm ((le_max_left a b).trans (h ▸ min_le_right a b)) ((le_max_right a b).trans (h ▸ min_le_left a b))

/-- Ranges that follow each other do not intersect, unless both are the same single point. -/
theorem not_intersecting {f1 l1 f2 l2 : α} (h : max f1 l1 ≤ min f2 l2 ∨ max f2 l2 ≤ min f1 l1)
    (hd : f1 ≠ l1 ∨ f2 ≠ l2) : isIntersecting f1 l1 f2 l2 = false := by
  have a1 : min f1 l1 ≤ max f1 l1 := min_le_max
  have a2 : min f2 l2 ≤ max f2 l2 := min_le_max
  unfold isIntersecting
  simp only [decide_eq_false_iff_not]
  rintro (⟨h1, h2⟩ | ⟨h1, h2⟩ | ⟨h1, h2⟩ | ⟨h1, h2⟩ | ⟨h1, h2⟩)
  · rcases h with h | h
    · exact absurd (h1.trans_le (a1.trans h)) (lt_irrefl _)
    · exact absurd (h2.trans_le h) (lt_irrefl _)
  · rcases h with h | h
    · exact absurd (h1.trans_le h) (lt_irrefl _)
    · exact absurd (h2.trans_le (h.trans a1)) (lt_irrefl _)
  · rcases h with h | h
    · exact absurd (h2.trans_le h) (lt_irrefl _)
    · exact absurd (h1.trans_le (a2.trans h)) (lt_irrefl _)
  · rcases h with h | h
    · exact absurd (h2.trans_le (h.trans a2)) (lt_irrefl _)
    · exact absurd (h1.trans_le h) (lt_irrefl _)
  · have e1 : min f1 l1 = max f1 l1 := by
      rcases h with h | h
      · exact le_antisymm a1 (by rw [h1]; exact h)
      · exact le_antisymm a1 (by rw [h2]; exact h)
    have e2 : min f2 l2 = max f2 l2 := by rw [← h1, ← h2, e1]
    rcases hd with hd | hd
    · exact hd (eq_of_min_max e1)
    · exact hd (eq_of_min_max e2)

/-- Data in order means ranges that follow each other. -/
theorem asc_ranges {i j : Info α} {bs cs : List (List α)} (hi : Inv i bs) (hj : Inv j cs) (ri : i.order ≠ .random)
    (rj : j.order ≠ .random) (h : Asc (bs.flatten ++ cs.flatten)) : max i.first i.last ≤ min j.first j.last := by
  have h3 := (asc_append.1 h).2.2
  have mi := hi.mem ri
  have mj := hj.mem rj
  exact max_le (le_min (h3 _ mi.1 _ mj.1) (h3 _ mi.1 _ mj.2)) (le_min (h3 _ mi.2 _ mj.1) (h3 _ mi.2 _ mj.2))

theorem desc_ranges {i j : Info α} {bs cs : List (List α)} (hi : Inv i bs) (hj : Inv j cs) (ri : i.order ≠ .random)
    (rj : j.order ≠ .random) (h : Desc (bs.flatten ++ cs.flatten)) : max j.first j.last ≤ min i.first i.last := by
  have h3 := (desc_append.1 h).2.2
  have mi := hi.mem ri
  have mj := hj.mem rj
  exact max_le (le_min (h3 _ mi.1 _ mj.1) (h3 _ mi.2 _ mj.1)) (le_min (h3 _ mi.1 _ mj.2) (h3 _ mi.2 _ mj.2))

theorem isMin_append {x y : α} {l m : List α} (h1 : IsMin x l) (h2 : IsMin y m) : IsMin (min x y) (l ++ m) := by
  refine ⟨?_, ?_⟩
  · rcases min_choice x y with h | h <;> rw [h]
    · exact List.mem_append_left _ h1.1
    · exact List.mem_append_right _ h2.1
  · intro z hz
    rcases List.mem_append.1 hz with hz | hz
    · exact (min_le_left _ _).trans (h1.2 z hz)
    · exact (min_le_right _ _).trans (h2.2 z hz)

theorem isMax_append {x y : α} {l m : List α} (h1 : IsMax x l) (h2 : IsMax y m) : IsMax (max x y) (l ++ m) := by
  refine ⟨?_, ?_⟩
  · rcases max_choice x y with h | h <;> rw [h]
    · exact List.mem_append_left _ h1.1
    · exact List.mem_append_right _ h2.1
  · intro z hz
    rcases List.mem_append.1 hz with hz | hz
    · exact (h1.2 z hz).trans (le_max_left _ _)
    · exact (h2.2 z hz).trans (le_max_right _ _)

/-- Endpoints of a non-descending, non-random profile. -/
theorem Inv.minmax {i : Info α} {bs : List (List α)} (h : Inv i bs)
    (hr : i.order = .ascending ∨ i.order = .constant) : IsMin i.first bs.flatten ∧ IsMax i.last bs.flatten := by
  rcases hr with hk | hk
  · have := h.ascending hk; exact ⟨this.2.2.1, this.2.2.2.1⟩
  · have := h.constant hk; exact ⟨this.2.1, this.2.2.1⟩

omit [LinearOrder α] in
theorem flatten_sub {b : List α} {bs : List (List α)} (h : b ∈ bs) : b.Sublist bs.flatten :=
  List.sublist_flatten_of_mem h

theorem not_asc_of {i : Info α} {bs : List (List α)} (h : Inv i bs) (hk : i.order = .descending) : ¬ Asc bs.flatten := by
  obtain ⟨hd, ⟨b, hb, hnc⟩, _⟩ := h.descending hk
  intro ha
  exact hnc (const_of_asc_desc (asc_sub ha (flatten_sub hb)) (hd b hb))

theorem not_desc_of {i : Info α} {bs : List (List α)} (h : Inv i bs) (hk : i.order = .ascending) : ¬ Desc bs.flatten := by
  obtain ⟨hd, ⟨b, hb, hnc⟩, _⟩ := h.ascending hk
  intro ha
  exact hnc (const_of_asc_desc (hd b hb) (desc_sub ha (flatten_sub hb)))

/-- Which kinds can produce which. -/
theorem mergeKind_cases (k1 k2 : Kind) (p1 p2 n e f : Bool) :
    (mergeKind k1 k2 p1 p2 n e f = .ascending →
      (k1 = .ascending ∧ k2 = .ascending) ∨ (k1 = .ascending ∧ k2 = .constant) ∨ (k1 = .constant ∧ k2 = .ascending)) ∧
    (mergeKind k1 k2 p1 p2 n e f = .descending →
      (k1 = .descending ∧ k2 = .descending) ∨ (k1 = .descending ∧ k2 = .constant) ∨ (k1 = .constant ∧ k2 = .descending)) ∧
    (mergeKind k1 k2 p1 p2 n e f = .constant → k1 = .constant ∧ k2 = .constant) ∧
    (mergeKind k1 k2 p1 p2 n e f = .random →
      k1 = .random ∨ k2 = .random ∨ (k1 = .ascending ∧ k2 = .descending) ∨ (k1 = .descending ∧ k2 = .ascending) ∨
      (n = true ∧ (k1 ≠ .constant ∨ k2 ≠ .constant))) := by
  revert p1 p2 n e f
  cases k1 <;> cases k2 <;> intro p1 p2 n e f <;> cases p1 <;> cases p2 <;> cases n <;> cases e <;> cases f <;>
    decide

theorem mergeInfo_inv {i j : Info α} {bs cs : List (List α)} (hi : Inv i bs) (hj : Inv j cs) :
    Inv (mergeInfo i j) (bs ++ cs) := by
  have hk := mergeKind_cases i.order j.order i.piecewise j.piecewise (isIntersecting i.first i.last j.first j.last)
    (isEnveloping i.first i.last j.first j.last) (isEnveloping j.first j.last i.first i.last)
  have hord : (mergeInfo i j).order = mergeKind i.order j.order i.piecewise j.piecewise
    (isIntersecting i.first i.last j.first j.last)
    (isEnveloping i.first i.last j.first j.last) (isEnveloping j.first j.last i.first i.last) := rfl
  have hfst : (mergeInfo i j).first = (mergeEnds (mergeInfo i j).order i.first i.last j.first j.last).1 := rfl
  have hlst : (mergeInfo i j).last = (mergeEnds (mergeInfo i j).order i.first i.last j.first j.last).2 := rfl
  have hpw : (mergeInfo i j).piecewise = !(((mergeInfo i j).order = .constant &&
    decide ((mergeInfo i j).first = (mergeInfo i j).last)) || (mergeInfo i j).order = .random) := rfl
  obtain ⟨ka, kd, kc, kr⟩ := hk
  rw [← hord] at ka kd kc kr
  have hnint : (isIntersecting i.first i.last j.first j.last = true) → i.order ≠ .random → j.order ≠ .random →
      (i.order ≠ .constant ∨ j.order ≠ .constant) →
      ¬ Asc (bs.flatten ++ cs.flatten) ∧ ¬ Desc (bs.flatten ++ cs.flatten) := by
    intro hint ri rj hnc
    have hd : i.first ≠ i.last ∨ j.first ≠ j.last := by
      rcases hnc with h | h
      · left
        cases hk : i.order with
        | ascending => exact (hi.ascending hk).2.2.2.2.ne
        | descending => exact (hi.descending hk).2.2.2.2.ne'
        | constant => exact absurd hk h
        | random => exact absurd hk ri
      · right
        cases hk : j.order with
        | ascending => exact (hj.ascending hk).2.2.2.2.ne
        | descending => exact (hj.descending hk).2.2.2.2.ne'
        | constant => exact absurd hk h
        | random => exact absurd hk rj
    constructor
    · intro ha
      have := not_intersecting (Or.inl (asc_ranges hi hj ri rj ha)) hd
      rw [this] at hint; simp at hint
    · intro ha
      have := not_intersecting (Or.inr (desc_ranges hi hj ri rj ha)) hd
      rw [this] at hint; simp at hint
  generalize mergeInfo i j = m at *
  constructor <;> rw [List.flatten_append]
  · intro ho
    rw [ho] at hfst hlst
    simp only [mergeEnds] at hfst hlst
    rw [hfst, hlst]
    rcases ka ho with ⟨h1, h2⟩ | ⟨h1, h2⟩ | ⟨h1, h2⟩
    · have a := hi.ascending h1
      have b := hj.ascending h2
      refine ⟨?_, ?_, isMin_append a.2.2.1 b.2.2.1, isMax_append a.2.2.2.1 b.2.2.2.1, ?_⟩
      · intro x hx; rcases List.mem_append.1 hx with hx | hx
        · exact a.1 x hx
        · exact b.1 x hx
      · obtain ⟨x, hx, hnx⟩ := a.2.1
        exact ⟨x, List.mem_append_left _ hx, hnx⟩
      · exact (min_le_left _ _).trans_lt (a.2.2.2.2.trans_le (le_max_left _ _))
    · have a := hi.ascending h1
      have b := hj.constant h2
      refine ⟨?_, ?_, isMin_append a.2.2.1 b.2.1, isMax_append a.2.2.2.1 b.2.2.1, ?_⟩
      · intro x hx; rcases List.mem_append.1 hx with hx | hx
        · exact a.1 x hx
        · exact asc_of_const (b.1 x hx)
      · obtain ⟨x, hx, hnx⟩ := a.2.1
        exact ⟨x, List.mem_append_left _ hx, hnx⟩
      · exact (min_le_left _ _).trans_lt (a.2.2.2.2.trans_le (le_max_left _ _))
    · have a := hi.constant h1
      have b := hj.ascending h2
      refine ⟨?_, ?_, isMin_append a.2.1 b.2.2.1, isMax_append a.2.2.1 b.2.2.2.1, ?_⟩
      · intro x hx; rcases List.mem_append.1 hx with hx | hx
        · exact asc_of_const (a.1 x hx)
        · exact b.1 x hx
      · obtain ⟨x, hx, hnx⟩ := b.2.1
        exact ⟨x, List.mem_append_right _ hx, hnx⟩
      · exact (min_le_right _ _).trans_lt (b.2.2.2.2.trans_le (le_max_right _ _))
  · intro ho
    rw [ho] at hfst hlst
    simp only [mergeEnds] at hfst hlst
    have hri : i.order ≠ .random := by rcases kd ho with ⟨h, _⟩ | ⟨h, _⟩ | ⟨h, _⟩ <;> rw [h] <;> decide
    have hrj : j.order ≠ .random := by rcases kd ho with ⟨_, h⟩ | ⟨_, h⟩ | ⟨_, h⟩ <;> rw [h] <;> decide
    have mi := hi.mem hri
    have mj := hj.mem hrj
    have hf : m.first ∈ bs.flatten ++ cs.flatten := by
      rw [hfst]
      rcases max_choice i.first j.first with h | h <;> rw [h]
      · exact List.mem_append_left _ mi.1
      · exact List.mem_append_right _ mj.1
    have hl : m.last ∈ bs.flatten ++ cs.flatten := by
      rw [hlst]
      rcases min_choice i.last j.last with h | h <;> rw [h]
      · exact List.mem_append_left _ mi.2
      · exact List.mem_append_right _ mj.2
    rcases kd ho with ⟨h1, h2⟩ | ⟨h1, h2⟩ | ⟨h1, h2⟩
    · have a := hi.descending h1
      have b := hj.descending h2
      refine ⟨?_, ?_, hf, hl, ?_⟩
      · intro x hx; rcases List.mem_append.1 hx with hx | hx
        · exact a.1 x hx
        · exact b.1 x hx
      · obtain ⟨x, hx, hnx⟩ := a.2.1
        exact ⟨x, List.mem_append_left _ hx, hnx⟩
      · rw [hfst, hlst]
        exact (min_le_left _ _).trans_lt (a.2.2.2.2.trans_le (le_max_left _ _))
    · have a := hi.descending h1
      have b := hj.constant h2
      refine ⟨?_, ?_, hf, hl, ?_⟩
      · intro x hx; rcases List.mem_append.1 hx with hx | hx
        · exact a.1 x hx
        · exact desc_of_const (b.1 x hx)
      · obtain ⟨x, hx, hnx⟩ := a.2.1
        exact ⟨x, List.mem_append_left _ hx, hnx⟩
      · rw [hfst, hlst]
        exact (min_le_left _ _).trans_lt (a.2.2.2.2.trans_le (le_max_left _ _))
    · have a := hi.constant h1
      have b := hj.descending h2
      refine ⟨?_, ?_, hf, hl, ?_⟩
      · intro x hx; rcases List.mem_append.1 hx with hx | hx
        · exact desc_of_const (a.1 x hx)
        · exact b.1 x hx
      · obtain ⟨x, hx, hnx⟩ := b.2.1
        exact ⟨x, List.mem_append_right _ hx, hnx⟩
      · rw [hfst, hlst]
        exact (min_le_right _ _).trans_lt (b.2.2.2.2.trans_le (le_max_right _ _))
  · intro ho
    obtain ⟨h1, h2⟩ := kc ho
    have a := hi.constant h1
    have b := hj.constant h2
    have hle1 : i.first ≤ i.last := a.2.1.2 _ a.2.2.1.1
    have hle2 : j.first ≤ j.last := b.2.1.2 _ b.2.2.1.1
    rw [ho] at hfst hlst
    simp only [mergeEnds] at hfst hlst
    have e1 : min (min (min i.first j.first) i.last) j.last = min i.first j.first := by
      rw [min_eq_left ((min_le_left _ _).trans hle1), min_eq_left ((min_le_right _ _).trans hle2)]
    have e2 : max (max (max i.first j.first) i.last) j.last = max i.last j.last := by
      apply le_antisymm
      · exact max_le (max_le (max_le (hle1.trans (le_max_left _ _)) (hle2.trans (le_max_right _ _))) (le_max_left _ _))
          (le_max_right _ _)
      · exact max_le ((le_max_right _ _).trans (le_max_left _ _)) (le_max_right _ _)
    rw [e1] at hfst
    rw [e2] at hlst
    refine ⟨?_, ?_, ?_, ?_⟩
    · intro x hx; rcases List.mem_append.1 hx with hx | hx
      · exact a.1 x hx
      · exact b.1 x hx
    · rw [hfst]; exact isMin_append a.2.1 b.2.1
    · rw [hlst]; exact isMax_append a.2.2.1 b.2.2.1
    · rw [hpw, ho]; simp
  · intro ho
    rcases kr ho with h | h | ⟨h1, h2⟩ | ⟨h1, h2⟩ | ⟨hn, hc⟩
    · have := hi.random h
      exact ⟨fun ha => this.1 (asc_append.1 ha).1, fun ha => this.2 (desc_append.1 ha).1⟩
    · have := hj.random h
      exact ⟨fun ha => this.1 (asc_append.1 ha).2.1, fun ha => this.2 (desc_append.1 ha).2.1⟩
    · exact ⟨fun ha => not_asc_of hj h2 (asc_append.1 ha).2.1, fun ha => not_desc_of hi h1 (desc_append.1 ha).1⟩
    · exact ⟨fun ha => not_asc_of hi h1 (asc_append.1 ha).1, fun ha => not_desc_of hj h2 (desc_append.1 ha).2.1⟩
    · by_cases ri : i.order = .random
      · have := hi.random ri
        exact ⟨fun ha => this.1 (asc_append.1 ha).1, fun ha => this.2 (desc_append.1 ha).1⟩
      · by_cases rj : j.order = .random
        · have := hj.random rj
          exact ⟨fun ha => this.1 (asc_append.1 ha).2.1, fun ha => this.2 (desc_append.1 ha).2.1⟩
        · exact hnint hn ri rj hc

/-- All histories satisfy the invariant; nothing was seen exactly when nothing is stored. -/
theorem run_inv (h : History α) :
    (run h = none ∧ seen h = []) ∨ ∃ i, run h = some i ∧ Inv i (batches h) ∧ seen h ≠ [] := by
  induction h with
  | new => left; exact ⟨rfl, rfl⟩
  | update h b ih =>
    have hseen : seen (.update h b) = seen h ++ b := by simp [seen, batches]
    match b with
    | [] =>
      rcases ih with ⟨h1, h2⟩ | ⟨i, h1, h2, h3⟩
      · left; exact ⟨by simp [run, update, h1], by rw [hseen, h2]; rfl⟩
      · right
        refine ⟨i, by simp [run, update, h1], ?_, by rw [hseen]; simpa using h3⟩
        have hf : (batches h ++ [[]]).flatten = (batches h).flatten := by simp
        simp only [batches]
        constructor
        · intro ho
          have := h2.ascending ho
          rw [hf]
          refine ⟨?_, ?_, this.2.2⟩
          · intro x hx; rcases List.mem_append.1 hx with hx | hx
            · exact this.1 x hx
            · simp at hx; subst hx; simp [Asc]
          · obtain ⟨x, hx, hn⟩ := this.2.1; exact ⟨x, List.mem_append_left _ hx, hn⟩
        · intro ho
          have := h2.descending ho
          rw [hf]
          refine ⟨?_, ?_, this.2.2⟩
          · intro x hx; rcases List.mem_append.1 hx with hx | hx
            · exact this.1 x hx
            · simp at hx; subst hx; simp [Desc]
          · obtain ⟨x, hx, hn⟩ := this.2.1; exact ⟨x, List.mem_append_left _ hx, hn⟩
        · intro ho
          have := h2.constant ho
          rw [hf]
          refine ⟨?_, this.2⟩
          intro x hx; rcases List.mem_append.1 hx with hx | hx
          · exact this.1 x hx
          · simp at hx; subst hx; intro x hx; simp at hx
        · intro ho; rw [hf]; exact h2.random ho
    | v :: vs =>
      right
      have hne : seen (.update h (v :: vs)) ≠ [] := by rw [hseen]; simp
      rcases ih with ⟨h1, h2⟩ | ⟨i, h1, h2, h3⟩
      · refine ⟨dataOrder v vs, by simp [run, update, h1, merge], ?_, hne⟩
        have hd := dataOrder_inv v vs
        have hf : (batches h ++ [v :: vs]).flatten = [v :: vs].flatten := by
          have : (batches h).flatten = [] := h2
          rw [List.flatten_append, this]; rfl
        have hempty : ∀ x ∈ batches h, x = [] := by
          intro x hx
          have := (flatten_sub hx)
          rw [show (batches h).flatten = [] from h2] at this
          exact List.sublist_nil.1 this
        simp only [batches]
        constructor
        · intro ho
          have := hd.ascending ho
          rw [hf]
          refine ⟨?_, ?_, this.2.2⟩
          · intro x hx; rcases List.mem_append.1 hx with hx | hx
            · rw [hempty x hx]; simp [Asc]
            · exact this.1 x hx
          · obtain ⟨x, hx, hn⟩ := this.2.1; exact ⟨x, List.mem_append_right _ hx, hn⟩
        · intro ho
          have := hd.descending ho
          rw [hf]
          refine ⟨?_, ?_, this.2.2⟩
          · intro x hx; rcases List.mem_append.1 hx with hx | hx
            · rw [hempty x hx]; simp [Desc]
            · exact this.1 x hx
          · obtain ⟨x, hx, hn⟩ := this.2.1; exact ⟨x, List.mem_append_right _ hx, hn⟩
        · intro ho
          have := hd.constant ho
          rw [hf]
          refine ⟨?_, this.2⟩
          intro x hx; rcases List.mem_append.1 hx with hx | hx
          · rw [hempty x hx]; intro x hx; simp at hx
          · exact this.1 x hx
        · intro ho; rw [hf]; exact hd.random ho
      · by_cases hr : i.order = .random
        · refine ⟨i, by simp [run, update, h1, hr], ?_, hne⟩
          have hran := h2.random hr
          simp only [batches]
          constructor
          · intro ho; rw [hr] at ho; simp at ho
          · intro ho; rw [hr] at ho; simp at ho
          · intro ho; rw [hr] at ho; simp at ho
          · intro _
            rw [List.flatten_append]
            exact ⟨fun ha => hran.1 (asc_append.1 ha).1, fun ha => hran.2 (desc_append.1 ha).1⟩
        · refine ⟨mergeInfo i (dataOrder v vs), by simp [run, update, h1, merge, hr], ?_, hne⟩
          exact mergeInfo_inv h2 (dataOrder_inv v vs)
  | merge g h ihg ihh =>
    have hseen : seen (.merge g h) = seen g ++ seen h := by simp [seen, batches]
    have emptyleft : ∀ {i : Info α} {bs cs : List (List α)}, Inv i cs → bs.flatten = [] → Inv i (bs ++ cs) := by
      intro i bs cs hd h2
      have hf : (bs ++ cs).flatten = cs.flatten := by rw [List.flatten_append, h2]; rfl
      have hempty : ∀ x ∈ bs, x = [] := by
        intro x hx
        have := (flatten_sub hx)
        rw [h2] at this
        exact List.sublist_nil.1 this
      constructor
      · intro ho
        have := hd.ascending ho
        rw [hf]
        refine ⟨?_, ?_, this.2.2⟩
        · intro x hx; rcases List.mem_append.1 hx with hx | hx
          · rw [hempty x hx]; simp [Asc]
          · exact this.1 x hx
        · obtain ⟨x, hx, hn⟩ := this.2.1; exact ⟨x, List.mem_append_right _ hx, hn⟩
      · intro ho
        have := hd.descending ho
        rw [hf]
        refine ⟨?_, ?_, this.2.2⟩
        · intro x hx; rcases List.mem_append.1 hx with hx | hx
          · rw [hempty x hx]; simp [Desc]
          · exact this.1 x hx
        · obtain ⟨x, hx, hn⟩ := this.2.1; exact ⟨x, List.mem_append_right _ hx, hn⟩
      · intro ho
        have := hd.constant ho
        rw [hf]
        refine ⟨?_, this.2⟩
        intro x hx; rcases List.mem_append.1 hx with hx | hx
        · rw [hempty x hx]; intro x hx; simp at hx
        · exact this.1 x hx
      · intro ho; rw [hf]; exact hd.random ho
    have emptyright : ∀ {i : Info α} {bs cs : List (List α)}, Inv i bs → cs.flatten = [] → Inv i (bs ++ cs) := by
      intro i bs cs hd h2
      have hf : (bs ++ cs).flatten = bs.flatten := by rw [List.flatten_append, h2, List.append_nil]
      have hempty : ∀ x ∈ cs, x = [] := by
        intro x hx
        have := (flatten_sub hx)
        rw [h2] at this
        exact List.sublist_nil.1 this
      constructor
      · intro ho
        have := hd.ascending ho
        rw [hf]
        refine ⟨?_, ?_, this.2.2⟩
        · intro x hx; rcases List.mem_append.1 hx with hx | hx
          · exact this.1 x hx
          · rw [hempty x hx]; simp [Asc]
        · obtain ⟨x, hx, hn⟩ := this.2.1; exact ⟨x, List.mem_append_left _ hx, hn⟩
      · intro ho
        have := hd.descending ho
        rw [hf]
        refine ⟨?_, ?_, this.2.2⟩
        · intro x hx; rcases List.mem_append.1 hx with hx | hx
          · exact this.1 x hx
          · rw [hempty x hx]; simp [Desc]
        · obtain ⟨x, hx, hn⟩ := this.2.1; exact ⟨x, List.mem_append_left _ hx, hn⟩
      · intro ho
        have := hd.constant ho
        rw [hf]
        refine ⟨?_, this.2⟩
        intro x hx; rcases List.mem_append.1 hx with hx | hx
        · exact this.1 x hx
        · rw [hempty x hx]; intro x hx; simp at hx
      · intro ho; rw [hf]; exact hd.random ho
    rcases ihg with ⟨g1, g2⟩ | ⟨i, g1, g2, g3⟩
    · rcases ihh with ⟨h1, h2⟩ | ⟨j, h1, h2, h3⟩
      · left; exact ⟨by simp [run, g1, h1, merge], by rw [hseen, g2, h2]; rfl⟩
      · right
        exact ⟨j, by simp [run, g1, h1, merge], emptyleft h2 g2, by rw [hseen]; simp [h3]⟩
    · rcases ihh with ⟨h1, h2⟩ | ⟨j, h1, h2, h3⟩
      · right
        exact ⟨i, by simp [run, g1, h1, merge], emptyright g2 h2, by rw [hseen]; simp [g3]⟩
      · right
        exact ⟨mergeInfo i j, by simp [run, g1, h1, merge], mergeInfo_inv g2 h2, by rw [hseen]; simp [g3]⟩

theorem isIntersecting_comm (f1 l1 f2 l2 : α) : isIntersecting f1 l1 f2 l2 = isIntersecting f2 l2 f1 l1 := by
  unfold isIntersecting
  simp only [decide_eq_decide]
  constructor
  · rintro (h | h | h | h | ⟨h1, h2⟩)
    · exact Or.inr (Or.inr (Or.inl h))
    · exact Or.inr (Or.inr (Or.inr (Or.inl h)))
    · exact Or.inl h
    · exact Or.inr (Or.inl h)
    · exact Or.inr (Or.inr (Or.inr (Or.inr ⟨h1.symm, h2.symm⟩)))
  · rintro (h | h | h | h | ⟨h1, h2⟩)
    · exact Or.inr (Or.inr (Or.inl h))
    · exact Or.inr (Or.inr (Or.inr (Or.inl h)))
    · exact Or.inl h
    · exact Or.inr (Or.inl h)
    · exact Or.inr (Or.inr (Or.inr (Or.inr ⟨h1.symm, h2.symm⟩)))

theorem mergeKind_comm (k1 k2 : Kind) (p1 p2 n e f : Bool) : mergeKind k1 k2 p1 p2 n e f = mergeKind k2 k1 p2 p1 n f e := by
  revert p1 p2 n e f
  cases k1 <;> cases k2 <;> intro p1 p2 n e f <;> cases p1 <;> cases p2 <;> cases n <;> cases e <;> cases f <;> rfl

theorem mergeEnds_comm (k : Kind) (f1 l1 f2 l2 : α) : mergeEnds k f1 l1 f2 l2 = mergeEnds k f2 l2 f1 l1 := by
  cases k <;> simp only [mergeEnds, min_comm, max_comm, min_left_comm, max_left_comm]

theorem mergeInfo_comm (a b : Info α) : mergeInfo a b = mergeInfo b a := by
  unfold mergeInfo
  rw [mergeKind_comm, isIntersecting_comm]
  dsimp only
  rw [mergeEnds_comm]

end Verif.Order
