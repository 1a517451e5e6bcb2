import Verif.Model.Training
import Verif.Spec.Training
import Mathlib.Data.List.Perm.Basic
import Mathlib.Data.List.Perm.Subperm
import Mathlib.Data.List.Nodup
import Mathlib.Tactic.SplitIfs

/-!
# Training samples (C63)
-/

namespace Verif.Training

open Verif Verif.Spec.Training

variable {X Y : Type}

theorem take_zip (x : List X) (y : List Y) (hl : x.length = y.length) (p : List ℕ) :
    (take x p).zip (take y p) = take (x.zip y) p ∧ (take x p).length = (take y p).length := by
  unfold take
  induction p with
  | nil => exact ⟨rfl, rfl⟩
  | cons i p ih =>
    rw [List.filterMap_cons, List.filterMap_cons, List.filterMap_cons]
    by_cases hi : i < x.length
    · have hz : (x.zip y)[i]? = some (x[i], y[i]'(by omega)) := by
        rw [List.getElem?_zip_eq_some]
        exact ⟨List.getElem?_eq_getElem _, List.getElem?_eq_getElem _⟩
      rw [hz, List.getElem?_eq_getElem hi, List.getElem?_eq_getElem (show i < y.length by omega)]
      exact ⟨by rw [List.zip_cons_cons, ih.1], by simpa using ih.2⟩
    · rw [List.getElem?_eq_none (by omega), List.getElem?_eq_none (by omega),
        List.getElem?_eq_none (by rw [List.length_zip]; omega)]
      exact ih

theorem take_range (a : List X) (k : ℕ) (h : k ≤ a.length) : take a (List.range k) = a.take k := by
  unfold take
  induction k with
  | zero => rfl
  | succ k ih =>
    rw [List.range_succ, List.filterMap_append, ih (by omega), List.take_succ, List.filterMap_cons, List.filterMap_nil]
    rw [List.getElem?_eq_getElem (by omega)]
    rfl

theorem perm_range {n : ℕ} {p : List ℕ} (h : IsPerm n p) : p.Perm (List.range n) :=
  (List.perm_ext_iff_of_nodup h.1 List.nodup_range).mpr fun i => by rw [h.2, List.mem_range]

theorem take_perm (a : List X) (k : ℕ) (hk : k ≤ a.length) (p : List ℕ) (h : IsPerm k p) : (take a p).Perm (a.take k) := by
  rw [← take_range a k hk]
  exact (perm_range h).filterMap _

theorem take_all (a : List X) (p : List ℕ) (h : IsPerm a.length p) : (take a p).Perm a := by
  have := take_perm a a.length (Nat.le_refl _) p h
  rwa [List.take_length] at this

/-- Every epoch trains with the same pairs of sample and label, and validates with the same. -/
theorem epochs_same (split : Split) (c : ℕ) (x : List X) (y : List Y) (hl : x.length = y.length) (hc : c ≤ x.length)
    (perms : List (List ℕ)) (hp : ∀ p ∈ perms, IsPerm c p) (e : Epoch X Y) (he : e ∈ epochs split c x y perms) :
    e.1.1.length = e.1.2.length ∧ (e.1.1.zip e.1.2).Perm ((x.zip y).take c) ∧ e.2 = validation split c x y := by
  unfold epochs at he
  rcases List.mem_cons.mp he with rfl | he
  · refine ⟨by simp [hl], ?_, rfl⟩
    rw [List.zip_eq_zipWith, ← List.take_zipWith, ← List.zip_eq_zipWith]
  · obtain ⟨p, hpm, rfl⟩ := List.mem_map.mp he
    obtain ⟨h1, h2⟩ := take_zip x y hl p
    refine ⟨h2, ?_, rfl⟩
    dsimp only
    rw [h1]
    exact take_perm _ c (by rw [List.length_zip]; omega) p (hp p hpm)

/-- What `fit` rejects. -/
theorem C63_errors (x : List X) (y : List Y) (split : Split) (keep : ℕ) (first : List ℕ) (perms : Option (List (List ℕ))) :
    fit x y split keep first perms = .error .valueError ↔ x = [] ∨ x.length ≠ y.length ∨ split = .bad := by
  unfold fit
  split_ifs with h1 h2 h3
  · refine ⟨fun _ => ?_, fun _ => rfl⟩
    by_cases hx : x = []
    · exact .inl hx
    · have h4 : x.length ≠ 0 := fun h => hx (List.length_eq_zero_iff.mp h)
      right; left; omega
  · simp [h2]
  · simp [h3]
  · have hx : x ≠ [] := by rintro rfl; exact h1 (.inl rfl)
    refine ⟨fun h => ?_, fun h => ?_⟩
    · cases perms <;> exact nomatch h
    · rcases h with h | h | h
      · exact absurd h hx
      · exact absurd h h2
      · exact absurd h h3

/-- With a validation split and at least two samples to train with, every epoch divides the pairs of sample and label into training
and validation, the same way in all epochs; no validation pair is ever trained with. -/
theorem C63_split_partial (x : List X) (y : List Y) (keep : ℕ) (first : List ℕ) (perms : List (List ℕ)) (es : List (Epoch X Y))
    (hk : keep ≤ x.length) (h2 : 2 ≤ keep) (hf : IsPerm x.length first) (hp : ∀ p ∈ perms, IsPerm keep p)
    (h : fit x y .positive keep first (some perms) = .ok es) :
    es.length = perms.length + 1 ∧ ∃ (train : List (X × Y)) (vx : List X) (vy : List Y),
      train.length = keep ∧ vx.length = vy.length ∧ (train ++ vx.zip vy).Perm (x.zip y) ∧
      ∀ e ∈ es, e.2 = some (vx, vy) ∧ e.1.1.length = e.1.2.length ∧ (e.1.1.zip e.1.2).Perm train := by
  unfold fit at h
  split_ifs at h with h1 h3
  injection h with h
  have hl : x.length = y.length := by omega
  obtain ⟨hz, hzl⟩ := take_zip x y hl first
  have hc : splitIndex keep = keep := by unfold splitIndex; omega
  have hxl : (take x first).length = x.length := (take_all x first hf).length_eq
  rw [hc] at h
  subst h
  refine ⟨by simp [epochs], ((take x first).zip (take y first)).take keep, (take x first).drop keep, (take y first).drop keep,
    ?_, ?_, ?_, fun e he => ?_⟩
  · rw [List.length_take, List.length_zip]; omega
  · rw [List.length_drop, List.length_drop, hzl]
  · have hd : ((take x first).drop keep).zip ((take y first).drop keep) = ((take x first).zip (take y first)).drop keep := by
      rw [List.zip_eq_zipWith, List.zip_eq_zipWith, List.drop_zipWith]
    rw [hd, List.take_append_drop, hz]
    exact take_all _ _ (by rw [List.length_zip, ← hl, Nat.min_self]; exact hf)
  · obtain ⟨g1, g2, g3⟩ := epochs_same .positive keep _ _ hzl (by omega) perms hp e he
    refine ⟨?_, g1, g2⟩
    rw [g3]
    unfold validation
    rw [if_neg]
    rintro (hh | hh)
    · exact nomatch hh
    · omega

example : fit ["a", "b", "c"] [1, 2, 3] .positive 2 [2, 0, 1] (some [[1, 0]])
    = .ok [((["c", "a"], [3, 1]), some (["b"], [2])), ((["a", "c"], [1, 3]), some (["b"], [2]))] := by rfl

/-- Without a validation split, every epoch trains with all pairs. -/
theorem C63_all (x : List X) (y : List Y) (first : List ℕ) (perms : List (List ℕ)) (es : List (Epoch X Y))
    (hf : IsPerm x.length first) (hp : ∀ p ∈ perms, IsPerm x.length p)
    (h : fit x y .zero x.length first (some perms) = .ok es) :
    es.length = perms.length + 1 ∧ ∀ e ∈ es, e.2 = none ∧ e.1.1.length = e.1.2.length ∧ (e.1.1.zip e.1.2).Perm (x.zip y) := by
  unfold fit at h
  split_ifs at h with h1 h3
  injection h with h
  have hl : x.length = y.length := by omega
  obtain ⟨hz, hzl⟩ := take_zip x y hl first
  have hc : splitIndex x.length = x.length := by unfold splitIndex; omega
  have hxl : (take x first).length = x.length := (take_all x first hf).length_eq
  rw [hc] at h
  subst h
  refine ⟨by simp [epochs], fun e he => ?_⟩
  obtain ⟨g1, g2, g3⟩ := epochs_same .zero x.length _ _ hzl (by omega) perms hp e he
  refine ⟨?_, g1, ?_⟩
  · rw [g3]; unfold validation; rw [if_pos (.inl rfl)]
  · rw [hz, List.take_of_length_le (by
      rw [← hz, List.length_zip]; omega)] at g2
    exact g2.trans (take_all _ _ (by rw [List.length_zip, ← hl, Nat.min_self]; exact hf))

/-- If only one sample is left to train with, there is no validation, and the others are lost. -/
theorem C63_split_fails : ∃ (x : List String) (y : List ℕ), fit x y .positive 1 [0, 1, 2] (some [])
    = .ok [((["a"], [1]), none)] ∧ x = ["a", "b", "c"] ∧ y = [1, 2, 3] :=
  ⟨_, _, rfl, rfl, rfl⟩

/-- However small the share to train with, one pair is left to train with, the same in all epochs. -/
theorem C63_single_fails (x : List X) (y : List Y) (keep : ℕ) (first : List ℕ) (perms : List (List ℕ)) (es : List (Epoch X Y))
    (hk : keep ≤ 1) (hf : IsPerm x.length first) (hp : ∀ p ∈ perms, IsPerm 1 p)
    (h : fit x y .positive keep first (some perms) = .ok es) :
    es.length = perms.length + 1 ∧ ∃ a b, (a, b) ∈ x.zip y ∧ ∀ e ∈ es, e = (([a], [b]), none) := by
  unfold fit at h
  split_ifs at h with h1 h3
  injection h with h
  have hl : x.length = y.length := by omega
  obtain ⟨hz, hzl⟩ := take_zip x y hl first
  have hc : splitIndex keep = 1 := by unfold splitIndex; omega
  have hxl : (take x first).length = x.length := (take_all x first hf).length_eq
  have hzp : (take (x.zip y) first).Perm (x.zip y) := take_all _ _ (by rw [List.length_zip, ← hl, Nat.min_self]; exact hf)
  rw [hc] at h
  subst h
  have hlen : 1 ≤ (take x first).length := by omega
  refine ⟨by simp [epochs], ?_⟩
  rcases hzz : (take x first).zip (take y first) with _ | ⟨⟨a, b⟩, rest⟩
  · have : ((take x first).zip (take y first)).length = 0 := by rw [hzz]; rfl
    rw [List.length_zip] at this
    omega
  · refine ⟨a, b, hzp.subset (by rw [← hz, hzz]; exact List.mem_cons_self), fun e he => ?_⟩
    obtain ⟨g1, g2, g3⟩ := epochs_same .positive 1 _ _ hzl hlen perms hp e he
    rw [hzz, List.take_succ_cons, List.take_zero, List.perm_singleton] at g2
    have hv : e.2 = none := by rw [g3]; unfold validation; rw [if_pos (.inr (by omega))]
    obtain ⟨⟨e1, e2⟩, e3⟩ := e
    dsimp only at g1 g2 hv
    subst hv
    rcases e1 with _ | ⟨c, _ | ⟨c', e1⟩⟩ <;> rcases e2 with _ | ⟨d, _ | ⟨d', e2⟩⟩ <;> simp_all

example : fit ["a", "b", "c"] [1, 2, 3] .positive 0 [2, 0, 1] (some [[0]])
    = .ok [((["c"], [3]), none), ((["c"], [3]), none)] := by rfl

/-- A table is trained with every cell labelled by its column. -/
theorem C63_table {N C : Type} [DecidableEq N] [DecidableEq C] (columns : List (N × List C)) (c : C) (name : N) :
    (melt columns).count (c, name) = ((columns.filter fun col => col.1 = name).map fun col => col.2.count c).sum := by
  unfold melt
  induction columns with
  | nil => rfl
  | cons col columns ih =>
    rw [List.flatMap_cons, List.count_append, ih, List.filter_cons]
    split_ifs with h
    · have hn : col.1 = name := by simpa using h
      rw [List.map_cons, List.sum_cons]
      congr 1
      rw [List.count_eq_countP, List.countP_map, List.count_eq_countP]
      refine List.countP_congr fun a _ => ?_
      simp [hn]
    · have hn : col.1 ≠ name := by simpa using h
      rw [List.count_eq_zero_of_not_mem, Nat.zero_add]
      intro hm
      obtain ⟨a, -, ha⟩ := List.mem_map.mp hm
      injection ha with _ ha
      exact hn ha

example : melt [("id", [1, 2]), ("n", [3, 2])] = [(1, "id"), (2, "id"), (3, "n"), (2, "n")] := by rfl

end Verif.Training
