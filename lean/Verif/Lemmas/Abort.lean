import Verif.Spec.Abort
import Mathlib.Data.List.Nodup
import Mathlib.Data.List.Perm.Basic
import Mathlib.Data.List.Perm.Subperm
import Mathlib.Data.List.TakeWhile

/-! Lemmas for `Verif.Props.Abort`. -/

namespace Verif.Abort

open Verif Verif.Spec.Abort

variable {β : Type}

theorem stages_eq (o : Opts) (names : List String) : stages o names = order o names := by
  simp [stages, order]

/-- The steps that are done. -/
def doneOf (raises : Stage → Bool) (l : List Stage) : List Stage := l.takeWhile fun s => !(raises s && !decide (s = .total))

theorem perform_eq (raises : Stage → Bool) (b : Batch β) (l : List Stage) : ∀ p : Prof β,
    perform raises b p l = ((doneOf raises l).foldl (effect b) p, decide (doneOf raises l = l)) := by
  induction l with
  | nil => intro p; simp [perform, doneOf]
  | cons s ss ih =>
    intro p
    unfold perform
    by_cases h : (raises s && !decide (s = .total)) = true
    · rw [if_pos h]
      have : doneOf raises (s :: ss) = [] := by simp only [doneOf, List.takeWhile_cons, h]; rfl
      rw [this]
      simp
    · rw [if_neg h, ih]
      have hf : (raises s && !decide (s = .total)) = false := by simpa using h
      have : doneOf raises (s :: ss) = s :: doneOf raises ss := by simp only [doneOf, List.takeWhile_cons, hf]; rfl
      rw [this]
      simp

theorem mem_doneOf (raises : Stage → Bool) (l : List Stage) (s : Stage) : s ∈ doneOf raises l ↔ Reached raises l s := by
  have test : ∀ t : Stage, (!(raises t && !decide (t = .total))) = true ↔ (t ≠ .total → raises t = false) := by
    intro t
    by_cases h : t = .total <;> simp [h]
  induction l with
  | nil => simp [doneOf, Reached]
  | cons a l ih =>
    unfold doneOf at ih ⊢
    rw [List.takeWhile_cons]
    by_cases h : (!(raises a && !decide (a = .total))) = true
    · rw [if_pos h, List.mem_cons, show _ ↔ _ from ih]
      constructor
      · rintro (rfl | ⟨pre, post, rfl, hp⟩)
        · exact ⟨[], l, rfl, by simpa using (test s).mp h⟩
        · refine ⟨a :: pre, post, rfl, ?_⟩
          intro t ht
          rcases List.mem_cons.mp ht with rfl | ht
          · exact (test _).mp h
          · exact hp t ht
      · rintro ⟨pre, post, e, hp⟩
        cases pre with
        | nil => simp at e; exact Or.inl e.1.symm
        | cons a' pre =>
          simp at e
          exact Or.inr ⟨pre, post, e.2, fun t ht => hp t (by simp at ht ⊢; tauto)⟩
    · rw [if_neg h]
      constructor
      · intro hm; cases hm
      · rintro ⟨pre, post, e, hp⟩
        exfalso
        apply h
        rw [test]
        refine hp a ?_
        cases pre with
        | nil => simp at e; simp [e.1]
        | cons a' pre => simp at e; simp [e.1]

/-- A column after some steps. -/
def after (d : β) (l : List Stage) (n : String) (c : Col β) : Col β :=
  ⟨c.counted ++ List.replicate (l.count (.clean n)) d, c.parts.mapIdx fun k x => x ++ List.replicate (l.count (.part n k)) d⟩

theorem foldl_effect (b : Batch β) (l : List Stage) : ∀ p : Prof β,
    l.foldl (effect b) p =
      ⟨p.cols.map fun x => (x.1, after b.data l x.1 x.2), p.total + b.rows * l.count .total,
        p.corr ++ List.replicate (l.count .corr) b.data, p.rowStats ++ List.replicate (l.count .rows) b.data,
        p.nullRep ++ List.replicate (l.count .nullRep) b.data, p.fileType⟩ := by
  induction l with
  | nil =>
    intro p
    have e : ∀ l : List (List β), l.mapIdx (fun _ x => x) = l := fun l => by
      apply List.ext_getElem?
      intro j
      simp [List.getElem?_mapIdx]
    simp [after, e]
  | cons s l ih =>
    intro p
    rw [List.foldl_cons, ih]
    cases s with
    | clean n =>
      simp only [effect, onCol, List.map_map, List.count_cons]
      simp only [Prof.mk.injEq, beq_iff_eq, reduceCtorEq, if_false, Nat.add_zero, and_true]
      apply List.map_congr_left
      rintro ⟨m, c⟩ _
      by_cases e : m = n
      · subst e
        simp [after, List.replicate_succ]
      · simp [after, e, Ne.symm e]
    | part n k =>
      simp only [effect, onCol, List.map_map, List.count_cons]
      simp only [Prof.mk.injEq, beq_iff_eq, reduceCtorEq, if_false, Nat.add_zero, and_true]
      apply List.map_congr_left
      rintro ⟨m, c⟩ _
      by_cases e : m = n
      · subst e
        simp only [Function.comp, if_true, after, List.count_cons, beq_iff_eq, reduceCtorEq, if_false, Nat.add_zero, Prod.mk.injEq,
          Col.mk.injEq, true_and]
        apply List.ext_getElem?
        intro j
        simp only [List.getElem?_mapIdx, List.getElem?_modify]
        cases hj : c.parts[j]? with
        | none => rfl
        | some x =>
          by_cases ej : k = j
          · subst ej
            simp [List.replicate_succ]
          · simp [ej]
      · simp [after, e, Ne.symm e]
    | corr => simp [effect, after, List.replicate_succ]
    | chi2 => simp [effect, after]
    | total => simp [effect, after, Nat.mul_add, Nat.add_comm, Nat.add_left_comm, Nat.add_assoc]
    | rows => simp [effect, after, List.replicate_succ]
    | nullRep => simp [effect, after, List.replicate_succ]

theorem nodup_order (o : Opts) {names : List String} (h : names.Nodup) : (order o names).Nodup := by
  have h1 : (names.map fun n => Stage.clean n).Nodup := h.map (fun a b e => by cases e; rfl)
  have h2 : (names.flatMap fun n => (List.range o.parts).map fun k => Stage.part n k).Nodup := by
    rw [List.nodup_flatMap]
    refine ⟨fun n _ => List.nodup_range.map (fun a b e => by cases e; rfl), ?_⟩
    refine h.imp ?_
    intro a b hab s ha hb
    simp only [List.mem_map] at ha hb
    obtain ⟨_, _, rfl⟩ := ha
    obtain ⟨_, _, e⟩ := hb
    cases e
    exact hab rfl
  have h3 : ((if o.corr then [Stage.corr] else []) ++ (if o.chi2 then [Stage.chi2] else []) ++ [Stage.total] ++ (if o.rows then [Stage.rows] else []) ++
      (if o.nullRep then [Stage.nullRep] else [])).Nodup := by
    cases o.corr <;> cases o.chi2 <;> cases o.rows <;> cases o.nullRep <;> decide
  have e : order o names = (names.map fun n => Stage.clean n) ++
      ((names.flatMap fun n => (List.range o.parts).map fun k => Stage.part n k) ++
      ((if o.corr then [Stage.corr] else []) ++ (if o.chi2 then [Stage.chi2] else []) ++ [Stage.total] ++ (if o.rows then [Stage.rows] else []) ++
      (if o.nullRep then [Stage.nullRep] else []))) := by simp [order]
  have tail : ∀ s ∈ ((if o.corr then [Stage.corr] else []) ++ (if o.chi2 then [Stage.chi2] else []) ++ [Stage.total] ++ (if o.rows then [Stage.rows] else []) ++
      (if o.nullRep then [Stage.nullRep] else [])), (∀ n, s ≠ .clean n) ∧ ∀ n k, s ≠ .part n k := by
    cases o.corr <;> cases o.chi2 <;> cases o.rows <;> cases o.nullRep <;> simp
  rw [e, List.nodup_append, List.nodup_append]
  refine ⟨h1, ⟨h2, h3, ?_⟩, ?_⟩
  · intro a ha b hb hab
    subst hab
    simp only [List.mem_flatMap, List.mem_map] at ha
    obtain ⟨n, _, k, _, rfl⟩ := ha
    exact (tail _ hb).2 n k rfl
  · intro a ha b hb hab
    subst hab
    simp only [List.mem_map] at ha
    obtain ⟨n, _, rfl⟩ := ha
    rcases List.mem_append.mp hb with hb | hb
    · simp at hb
    · exact (tail _ hb).1 n rfl

theorem count_doneOf (raises : Stage → Bool) (o : Opts) {names : List String} (h : names.Nodup) (s : Stage) :
    (Reached raises (order o names) s → (doneOf raises (order o names)).count s = 1) ∧
    (¬ Reached raises (order o names) s → (doneOf raises (order o names)).count s = 0) := by
  have hn : (doneOf raises (order o names)).Nodup := (nodup_order o h).sublist (List.takeWhile_sublist _)
  rw [← mem_doneOf]
  exact ⟨fun hm => List.count_eq_one_of_mem hn hm, fun hm => List.count_eq_zero_of_not_mem hm⟩

theorem gets_replicate (raises : Stage → Bool) (o : Opts) {names : List String} (h : names.Nodup) (s : Stage) (l : List β) (d : β) :
    Gets (Reached raises (order o names) s) l (l ++ List.replicate ((doneOf raises (order o names)).count s) d) d := by
  obtain ⟨a, b⟩ := count_doneOf raises o h s
  exact ⟨fun hr => by rw [a hr]; rfl, fun hr => by rw [b hr]; simp⟩

theorem fits_of {p : Prof β} {names : List String} (h : p.cols = [] ∨ names.Perm (p.cols.map Prod.fst)) : fits p names = true := by
  rcases h with h | h
  · simp [fits, h]
  · have e : names.length = p.cols.length := by simpa using h.length_eq
    have : (names.all fun n => (p.cols.map Prod.fst).contains n) = true := by
      rw [List.all_eq_true]
      intro n hn
      simpa using h.mem_iff.mp hn
    unfold fits
    rw [this]
    simp [e]

theorem perm_of_fits {p : Prof β} {names : List String} (hn : names.Nodup) (h0 : names ≠ []) (h : fits p names = true) :
    p.cols = [] ∨ names.Perm (p.cols.map Prod.fst) := by
  unfold fits at h
  simp only [Bool.or_eq_true, List.isEmpty_iff, Bool.and_eq_true, decide_eq_true_eq, List.all_eq_true] at h
  rcases h with (h | h) | ⟨hl, ha⟩
  · exact Or.inl h
  · exact absurd h h0
  · right
    have hs : names ⊆ p.cols.map Prod.fst := fun n hm => by simpa using ha n hm
    exact (List.subperm_of_subset hn hs).perm_of_length_le (by simp [hl])

/-- The profile on which the steps work, and what they make of it. -/
theorem update_eq (o : Opts) (raises : Stage → Bool) (p : Prof β) (b : Batch β) (hr : b.rows ≠ 0) (hf : fits p b.names = true) :
    update o raises p (.batch b) =
      if doneOf raises (order o b.names) = order o b.names then
        ({ (doneOf raises (order o b.names)).foldl (effect b) (setUp o p b.names) with fileType := some b.data }, .done)
      else ((doneOf raises (order o b.names)).foldl (effect b) (setUp o p b.names), .failed) := by
  unfold update
  simp only [hr, hf, if_false, Bool.not_true, perform_eq, stages_eq]
  by_cases h : doneOf raises (order o b.names) = order o b.names
  · simp [h]
  · simp [h]

theorem all_done_iff (raises : Stage → Bool) (l : List Stage) :
    doneOf raises l = l ↔ ∀ s ∈ l, s ≠ .total → raises s = false := by
  unfold doneOf
  rw [List.takeWhile_eq_self_iff]
  constructor
  · intro h s hs ht
    simpa [ht] using h s hs
  · intro h s hs
    by_cases ht : s = .total
    · simp [ht]
    · simp [h s hs ht]

theorem sound_setUp (o : Opts) {p : Prof β} (hp : Sound o p) {names : List String} (hn : names.Nodup) : Sound o (setUp o p names) := by
  unfold setUp
  split
  · refine ⟨by simpa [Function.comp_def] using hn, ?_⟩
    intro x hx
    simp only [List.mem_map] at hx
    obtain ⟨n, _, rfl⟩ := hx
    simp
  · exact hp

theorem sound_update (o : Opts) (raises : Stage → Bool) {p : Prof β} (hp : Sound o p) (i : Input β)
    (hi : ∀ b, i = .batch b → b.rows ≠ 0 → b.names.Nodup) : Sound o (update o raises p i).1 := by
  cases i with
  | other => exact hp
  | badMin => exact hp
  | batch b =>
    by_cases hr : b.rows = 0
    · simpa [update, hr] using hp
    · by_cases hf : fits p b.names = true
      · rw [update_eq o raises p b hr hf]
        have hs := sound_setUp o hp (hi b rfl hr)
        rw [foldl_effect]
        have : Sound o (⟨(setUp o p b.names).cols.map fun x => (x.1, after b.data (doneOf raises (order o b.names)) x.1 x.2), 0, [], [], [],
            none⟩ : Prof β) := by
          refine ⟨by simpa [Function.comp_def] using hs.1, ?_⟩
          intro x hx
          simp only [List.mem_map] at hx
          obtain ⟨y, hy, rfl⟩ := hx
          simpa [after] using hs.2 y hy
        split <;> exact this
      · simpa [update, hr, hf] using hp

theorem mem_order (o : Opts) (names : List String) :
    (∀ n, Stage.clean n ∈ order o names ↔ n ∈ names) ∧ (∀ n k, Stage.part n k ∈ order o names ↔ n ∈ names ∧ k < o.parts) ∧
    (Stage.total ∈ order o names) ∧ (Stage.corr ∈ order o names ↔ o.corr = true) ∧ (Stage.chi2 ∈ order o names ↔ o.chi2 = true) ∧
    (Stage.rows ∈ order o names ↔ o.rows = true) ∧ (Stage.nullRep ∈ order o names ↔ o.nullRep = true) := by
  unfold order
  cases o.corr <;> cases o.chi2 <;> cases o.rows <;> cases o.nullRep <;> simp

theorem count_order (o : Opts) {names : List String} (h : names.Nodup) (s : Stage) :
    (s ∈ order o names → (order o names).count s = 1) ∧ (s ∉ order o names → (order o names).count s = 0) :=
  ⟨fun hm => List.count_eq_one_of_mem (nodup_order o h) hm, fun hm => List.count_eq_zero_of_not_mem hm⟩

/-- A list that grows if something is calculated. -/
def grow (e : Bool) (l : List β) (d : β) : List β := if e then l ++ [d] else l

/-- An update without exceptions. -/
theorem update_done (o : Opts) (raises : Stage → Bool) {p : Prof β} (hp : Sound o p) {b : Batch β} (hb : Proper b)
    (hf : fits p b.names = true) (hr : ∀ s ∈ order o b.names, s ≠ .total → raises s = false) :
    update o raises p (.batch b) =
      (⟨(setUp o p b.names).cols.map fun x => (x.1, ⟨x.2.counted ++ [b.data], x.2.parts.map (· ++ [b.data])⟩), p.total + b.rows,
        grow o.corr p.corr b.data, grow o.rows p.rowStats b.data, grow o.nullRep p.nullRep b.data, some b.data⟩, .done) := by
  obtain ⟨h0, hn, hrow⟩ := hb
  have hd := (all_done_iff raises (order o b.names)).mpr hr
  rw [update_eq o raises p b hrow hf, if_pos hd, hd, foldl_effect]
  obtain ⟨m1, m2, m3, m4, m5, m6, m7⟩ := mem_order o b.names
  have hset := sound_setUp o hp hn
  have keys : ∀ x ∈ (setUp o p b.names).cols, x.1 ∈ b.names := by
    intro x hx
    rcases perm_of_fits hn h0 hf with he | hperm
    · simp only [setUp, he, List.isEmpty_nil, if_true, List.mem_map] at hx
      obtain ⟨n, hn', rfl⟩ := hx
      exact hn'
    · have : (setUp o p b.names).cols = p.cols := by
        unfold setUp
        split
        · rename_i he
          have : p.cols = [] := by simpa using he
          rw [this] at hperm
          exact absurd (by simpa using hperm) h0
        · rfl
      rw [this] at hx
      exact hperm.mem_iff.mpr (List.mem_map.mpr ⟨x, hx, rfl⟩)
  have opt : ∀ (e : Bool) (s : Stage), (s ∈ order o b.names ↔ e = true) → ∀ l : List β,
      l ++ List.replicate ((order o b.names).count s) b.data = grow e l b.data := by
    intro e s hs l
    cases e with
    | true => rw [(count_order o hn s).1 (hs.mpr rfl)]; rfl
    | false => rw [(count_order o hn s).2 (by simp [hs])]; simp [grow]
  have same : (setUp o p b.names).total = p.total ∧ (setUp o p b.names).corr = p.corr ∧ (setUp o p b.names).rowStats = p.rowStats ∧
      (setUp o p b.names).nullRep = p.nullRep := by
    unfold setUp
    split <;> exact ⟨rfl, rfl, rfl, rfl⟩
  obtain ⟨s1, s2, s3, s4⟩ := same
  rw [s1, s2, s3, s4, opt o.corr .corr m4, opt o.rows .rows m6, opt o.nullRep .nullRep m7, (count_order o hn .total).1 m3]
  simp only [Nat.mul_one, Prod.mk.injEq, Prof.mk.injEq, and_true]
  apply List.map_congr_left
  intro x hx
  have hk := keys x hx
  have hlen := hset.2 x hx
  simp only [after, Prod.mk.injEq, Col.mk.injEq, true_and]
  refine ⟨by rw [(count_order o hn _).1 ((m1 x.1).mpr hk)]; rfl, ?_⟩
  apply List.ext_getElem?
  intro k
  rw [List.getElem?_mapIdx, List.getElem?_map]
  cases hx' : x.2.parts[k]? with
  | none => rfl
  | some l =>
    have hlt : k < o.parts := by
      rw [← hlen]
      by_contra hc
      rw [List.getElem?_eq_none (by omega)] at hx'
      cases hx'
    simp [(count_order o hn _).1 ((m2 x.1 k).mpr ⟨hk, hlt⟩)]

end Verif.Abort
