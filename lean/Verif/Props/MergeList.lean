import Verif.Lemmas.MergeList

/-! # C27: merging a list of profiles -/

namespace Verif.MergeList

open Verif

variable {α β L : Type}

/-- **C27** The pool does not matter: if every task finishes once, `starmap` returns the results in
argument order. -/
theorem C27_pool_order_irrelevant (f : α → β) (args : List α) (order : List ℕ)
    (h : order.Perm (List.range args.length)) :
    starmap order (args.map fun a => Except.ok (f a)) = .ok (args.map f) := by
  have := starmap_ok (args.map f) order (by simpa using h)
  rw [← this, List.map_map]; rfl

/-- **C27** `merge_profile_list` on a non-empty list terminates; if it returns a profile, that profile
is (up to the labeler put back) the `+` of all the profiles, each used exactly once and in order,
under some bracketing, whatever order the pool's workers finish in and even when `+` may raise. -/
theorem C27_merge_each_once (add : α → α → Except Err α) (remove : α → α × L)
    (restore : α → L → α) (sched : ℕ → List ℕ) (l : List α) (hl : l ≠ [])
    (hs : FairSchedule sched l.length 0 l.length) :
    mergeProfileList add remove restore sched l.length l ≠ none ∧
    ∀ p, mergeProfileList add remove restore sched l.length l = some (.ok p) →
      ∃ (t : Bracket α) (v : α), t.leaves = l.map (fun q => (remove q).1) ∧ t.Value add v ∧
        p = restore v (remove (l.getLast hl)).2 := by
  have hlen : (l.map fun q => (remove q).1).length = l.length := by simp
  constructor
  · unfold mergeProfileList
    have := rounds_terminates_any add sched l.length 0 (l.map fun q => (remove q).1)
      (by rw [hlen]; exact hs) (by omega)
    simp only
    split
    · contradiction
    · simp
    · split <;> simp
  · intro p hp
    unfold mergeProfileList at hp
    simp only at hp
    split at hp
    · simp at hp
    · simp at hp
    · rename_i l' hr
      obtain ⟨⟨ts, h1, h2⟩, hle, hne⟩ := rounds_forest add sched l.length 0 _ l'
        (l.map fun q => (remove q).1) (by rw [hlen]; exact hs) (forest_self add _) hr
      match l', h1 with
      | [], _ => exact absurd rfl (hne (by simpa using hl))
      | [v], h1 =>
        cases h1 with
        | cons hv hnil =>
          cases hnil
          rename_i t
          refine ⟨t, v, by simpa using h2, hv, ?_⟩
          rw [List.getLast?_map, List.getLast?_eq_getLast_of_ne_nil hl] at hp
          simp at hp
          exact hp.symm
      | _ :: _ :: _, _ => simp at hle

/-- **C27** For an associative `+` that does not raise, the result is the left-to-right sum. -/
theorem C27_merge_is_fold (f : α → α → α) (hassoc : ∀ a b c, f (f a b) c = f a (f b c))
    (remove : α → α × L) (restore : α → L → α) (sched : ℕ → List ℕ) (a : α) (l : List α)
    (hs : FairSchedule sched (l.length + 1) 0 (l.length + 1)) :
    mergeProfileList (fun x y => .ok (f x y)) remove restore sched (l.length + 1) (a :: l) =
      some (.ok (restore ((l.map fun q => (remove q).1).foldl f (remove a).1)
        (remove ((a :: l).getLast (by simp))).2)) := by
  obtain ⟨hterm, hval⟩ := C27_merge_each_once (fun x y => .ok (f x y)) remove restore sched (a :: l)
    (by simp) hs
  obtain ⟨l', hr⟩ := rounds_terminates f sched (l.length + 1) 0
    ((a :: l).map fun q => (remove q).1) (by simpa using hs) (by simp)
  obtain ⟨p, hp⟩ : ∃ p, mergeProfileList (fun x y => .ok (f x y)) remove restore sched (l.length + 1)
      (a :: l) = some (.ok p) := by
    obtain ⟨_, _, hne⟩ := rounds_forest _ sched _ 0 _ l' _ (by simpa using hs)
      (forest_self _ _) hr
    unfold mergeProfileList
    simp only [hr]
    cases l' with
    | nil => exact absurd rfl (hne (by simp))
    | cons v _ =>
      rw [List.getLast?_map, List.getLast?_eq_getLast_of_ne_nil (by simp)]
      exact ⟨_, rfl⟩
  obtain ⟨t, v, h1, h2, h3⟩ := hval p hp
  obtain ⟨a', l'', e, rfl⟩ := value_foldl f hassoc t v h2
  rw [h1, List.map_cons] at e
  obtain ⟨rfl, rfl⟩ := List.cons.inj e
  rw [hp, h3]

/-- An empty list raises `IndexError`. -/
theorem C27_empty (add : α → α → Except Err α) (remove : α → α × L) (restore : α → L → α)
    (sched : ℕ → List ℕ) (fuel : ℕ) :
    mergeProfileList add remove restore sched fuel [] = some (.error .indexError) := by
  unfold mergeProfileList
  cases fuel <;> simp [rounds]

/-- A run with five profiles where the pool finishes its tasks out of order. -/
example : FairSchedule (fun r => [[2, 0, 1], [1, 0], [0]][r]!) 5 0 5 := by
  simp only [FairSchedule]
  decide

example : mergeProfileList (fun x y => .ok (x ++ y)) (fun p => (p, ())) (fun p _ => p)
    (fun r => [[2, 0, 1], [1, 0], [0]][r]!) 5 ["a", "b", "c", "d", "e"] =
    some (.ok "abcde") := by
  refine (C27_merge_is_fold (fun x y : String => x ++ y) (fun _ _ _ => String.append_assoc) _ _ _
    "a" ["b", "c", "d", "e"] ?_).trans rfl
  simp only [List.length_cons, List.length_nil, FairSchedule]; decide

end Verif.MergeList
