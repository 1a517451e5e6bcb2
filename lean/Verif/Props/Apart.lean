import Verif.Lemmas.Apart

/-!
# C109: profiles stay apart after they are merged

Histories of any length make profiles, update, merge and set options in any order. With full hashing of rows each profile reports on the
rows it was given. With sketches it does not: the left operand of a merge and the result keep one sketch. Options are always shared.
-/

namespace Verif.Props.Apart

open Verif.Apart Verif.Spec.Apart

variable {ρ η β ω : Type}

/-- Whatever is done and however rows are hashed, a profile counts its own rows, and the objects filled by updates hold what its own rows
add, in order. -/
theorem C109_contents (lib : Lib ρ η β) (ops : List (Op ρ ω)) (i : ℕ) (hll : Bool) (rows : List ρ)
    (h : (rowsGiven ops)[i]? = some (hll, rows)) :
    content (run lib ops) i = some (rows.flatMap lib.pieces) ∧ (unique lib (run lib ops) i).map Prod.snd = some rows.length := by
  obtain ⟨p, hp, g⟩ := lookup_prof (inv_run lib ops) h
  refine ⟨by simp only [content, hp, g.1]; exact g.2.2.1, ?_⟩
  rcases kind_of g with ⟨keys, _, _, hs, _⟩ | ⟨sk, _, hs⟩
  · simp [unique, hp, hs, g.2.1]
  · simp [unique, hp, hs, g.2.1]

/-- There are no other profiles. -/
theorem C109_count (lib : Lib ρ η β) (ops : List (Op ρ ω)) : (run lib ops).profs.length = (rowsGiven ops).length :=
  (inv_run lib ops).hp

/-- With full hashing: the number of different hashes of its own rows, and the number of its own rows. -/
theorem C109_full (lib : Lib ρ η β) (ops : List (Op ρ ω)) (i : ℕ) (rows : List ρ)
    (h : (rowsGiven ops)[i]? = some (false, rows)) :
    unique lib (run lib ops) i = some ((rows.map lib.hash).dedup.length, rows.length) := by
  obtain ⟨p, hp, g⟩ := lookup_prof (inv_run lib ops) h
  rcases kind_of g with ⟨keys, _, _, hs, hk⟩ | ⟨sk, hb, _⟩
  · simp [unique, hp, hs, g.2.1, keys_length hk]
  · cases hb

/-- So the ratio is never above one. -/
theorem C109_full_ratio (lib : Lib ρ η β) (ops : List (Op ρ ω)) (i : ℕ) (rows : List ρ)
    (h : (rowsGiven ops)[i]? = some (false, rows)) :
    ∃ n m, unique lib (run lib ops) i = some (n, m) ∧ n ≤ m :=
  ⟨_, _, C109_full lib ops i rows h, by
    simpa using (List.dedup_sublist (rows.map lib.hash)).length_le⟩

/-- With sketches: if no profile is used again after it was the left operand of a merge, every other profile has the sketch of its own
rows. Missing: profiles that were left operands. -/
theorem C109_hll_partial (lib : Lib ρ η β) (law : MergeLaw lib) (ops : List (Op ρ ω)) (once : OnceLeft ops) (i : ℕ) (rows : List ρ)
    (h : (rowsGiven ops)[i]? = some (true, rows)) (hi : ¬ Spent i ops) :
    unique lib (run lib ops) i = some (lib.card (rows.foldl lib.add lib.empty), rows.length) := by
  obtain ⟨p, hp, g⟩ := lookup_prof (inv_run lib ops) h
  have := (own_run law ops once).sketch i p _ hp h rfl hi
  simp [unique, hp, this, g.2.1]

/-- The left operand of a merge and the result have one sketch ever after: whatever follows, they report the same number of different
rows. -/
theorem C109_hll_shared (lib : Lib ρ η β) (pre post : List (Op ρ ω)) (i j : ℕ) (a b : List ρ)
    (hi : (rowsGiven pre)[i]? = some (true, a)) (hj : (rowsGiven pre)[j]? = some (true, b)) :
    (unique lib (run lib (pre ++ .merge i j :: post)) i).map Prod.fst =
      (unique lib (run lib (pre ++ .merge i j :: post)) (rowsGiven pre).length).map Prod.fst ∧
    (unique lib (run lib (pre ++ .merge i j :: post)) i).isSome := by
  have inv := inv_run lib pre
  obtain ⟨p, hp, gp⟩ := lookup_prof inv hi
  obtain ⟨q, hq, gq⟩ := lookup_prof inv hj
  obtain ⟨sa, ha⟩ := gp.2.2.2.2 rfl
  obtain ⟨sb, hb⟩ := gq.2.2.2.2 rfl
  have e : run lib (pre ++ .merge i j :: post) = post.foldl (step lib) (merge lib (run lib pre) i j) := by simp [run, step]
  have hi' : (merge lib (run lib pre) i j).profs[i]? = some p := by
    simp only [merge, hp, hq, ha, hb]; exact append_some hp
  have hk' : ∃ r, (merge lib (run lib pre) i j).profs[(rowsGiven pre).length]? = some r ∧ r.store = p.store := by
    simp only [merge, hp, hq, ha, hb]; exact ⟨_, snoc_self inv.hp, rfl⟩
  obtain ⟨r, hr, er⟩ := hk'
  obtain ⟨p1, h1, e1, _⟩ := foldl_addresses lib post _ hi'
  obtain ⟨r1, h2, e2, _⟩ := foldl_addresses lib post _ hr
  have inv' := inv_run lib (pre ++ .merge i j :: post)
  rw [e] at inv' ⊢
  obtain ⟨x, hx, gx⟩ := inv'.good i p1 h1
  rcases kind_of gx with ⟨keys, _, _, hs, _⟩ | ⟨sk, _, hs⟩
  · have hs' := hs
    rw [show p1.store = r1.store by rw [e1, e2, er]] at hs'
    simp [unique, h1, h2, hs, hs']
  · have hs' := hs
    rw [show p1.store = r1.store by rw [e1, e2, er]] at hs'
    simp [unique, h1, h2, hs, hs']

/-- Options: profiles of one family have one option object, and setting options of one profile changes those of its family and of no
other profile. -/
theorem C109_options (lib : Lib ρ η β) (ops : List (Op ρ ω)) (i k : ℕ) (f g : Bool × ℕ)
    (hf : (families ops)[i]? = some f) (hg : (families ops)[k]? = some g) (o : ω) :
    (f.2 = g.2 → optionsOf (run lib ops) i = optionsOf (run lib ops) k ∧ optionsOf (run lib (ops ++ [.set k o])) i = some o) ∧
    (f.2 ≠ g.2 → optionsOf (run lib (ops ++ [.set k o])) i = optionsOf (run lib ops) i) := by
  have h := (fam_run lib ops).1
  have find : ∀ {n : ℕ} {x : Bool × ℕ}, (families ops)[n]? = some x → ∃ p, (run lib ops).profs[n]? = some p := by
    intro n x hx
    have hn : n < (run lib ops).profs.length := by rw [h.len]; exact lt_of_some hx
    exact ⟨_, List.getElem?_eq_getElem hn⟩
  obtain ⟨p, hp⟩ := find hf
  obtain ⟨q, hq⟩ := find hg
  have hs := h.same i k p q f g hp hq hf hg
  have hb := (h.bound k q g hq hg).1
  have e : run lib (ops ++ [.set k o]) = setOptions (run lib ops) k o := by simp [run, step]
  rw [e]
  constructor
  · intro hfg
    have := hs.mpr hfg
    refine ⟨by simp [optionsOf, hp, hq, this], ?_⟩
    simp only [optionsOf, setOptions, hq, hp, this, List.getElem?_set, if_true]
    rw [if_pos hb]
  · intro hfg
    have hne : q.opts ≠ p.opts := fun he => hfg (hs.mp he.symm)
    simp [optionsOf, setOptions, hq, hp, hne]

/-- Sketches that forget nothing, so that what goes wrong is not for lack of precision. -/
def perfect : Lib ℕ (List ℕ) ℕ :=
  ⟨id, [], fun s r => insertKey s r, fun a b => b.foldl insertKey a, List.length, fun r => [r]⟩

theorem perfect_fold (b : List ℕ) : ∀ s t : List ℕ, t.Nodup → s.Nodup →
    (b.foldl insertKey t).foldl insertKey s = b.foldl insertKey (t.foldl insertKey s) := by
  induction b with
  | nil => intro s t _ _; rfl
  | cons k ks ih =>
    intro s t ht hs
    rw [List.foldl_cons, List.foldl_cons, ih s _ (nodup_insertKey ht) hs]
    congr 1
    by_cases hk : k ∈ t
    · have hk' : k ∈ t.foldl insertKey s := ((foldl_insertKey t hs).2 k).mpr (Or.inr hk)
      rw [insertKey, if_pos hk, insertKey, if_pos hk']
    · rw [insertKey, if_neg hk, List.foldl_append]
      rfl

theorem perfect_law : MergeLaw perfect := by
  intro a b
  simp only [perfect, List.foldl_append]
  exact perfect_fold b _ [] (by simp) (foldl_insertKey a (by simp)).1

/-- The claim without restriction is false: after `p + q` the left operand `p` of one row reports two different rows, a ratio above one,
and after an update of the sum it reports three. -/
theorem C109_hll_fails :
    ¬ ∀ (lib : Lib ℕ (List ℕ) ℕ), MergeLaw lib → ∀ (ops : List (Op ℕ Unit)) (i : ℕ) (rows : List ℕ),
      (rowsGiven ops)[i]? = some (true, rows) →
      unique lib (run lib ops) i = some (lib.card (rows.foldl lib.add lib.empty), rows.length) := by
  intro h
  have := h perfect perfect_law [.make true (), .make true (), .update 0 [1], .update 1 [2], .merge 0 1] 0 [1] (by decide +kernel)
  exact absurd this (by decide +kernel)

/-- Updating the sum changes what the left operand reports, although the operand was given nothing. -/
theorem C109_hll_later_fails :
    ¬ ∀ (lib : Lib ℕ (List ℕ) ℕ), MergeLaw lib → ∀ (ops : List (Op ℕ Unit)) (i k : ℕ) (rows : List ℕ), i ≠ k →
      unique lib (run lib (ops ++ [.update k rows])) i = unique lib (run lib ops) i := by
  intro h
  have := h perfect perfect_law [.make true (), .make true (), .update 0 [1], .update 1 [2], .merge 0 1] 0 2 [3] (by decide)
  exact absurd this (by decide +kernel)

/-- Setting options of a sum changes those of its left operand. -/
theorem C109_options_fails :
    ¬ ∀ (lib : Lib ℕ (List ℕ) ℕ) (ops : List (Op ℕ ℕ)) (i k o : ℕ), i ≠ k →
      optionsOf (run lib (ops ++ [.set k o])) i = optionsOf (run lib ops) i := by
  intro h
  have := h perfect [.make false 5, .make false 6, .merge 0 1] 0 2 7 (by decide)
  exact absurd this (by decide +kernel)

/-- Two profiles with full hashing, their sum, and updates of each of the three. -/
def story (hll : Bool) : List (Op ℕ ℕ) :=
  [.make hll 5, .make hll 6, .update 0 [1, 1, 2], .update 1 [2, 3], .merge 0 1, .update 2 [9], .update 1 [4, 4]]

example : (rowsGiven (story false))[0]? = some (false, [1, 1, 2]) ∧ unique perfect (run perfect (story false)) 0 = some (2, 3) := by
  decide +kernel

example : (rowsGiven (story false))[1]? = some (false, [2, 3, 4, 4]) ∧ unique perfect (run perfect (story false)) 1 = some (3, 4) := by
  decide +kernel

example : (rowsGiven (story false))[2]? = some (false, [1, 1, 2, 2, 3, 9]) ∧ unique perfect (run perfect (story false)) 2 = some (4, 6) ∧
    content (run perfect (story false)) 2 = some [1, 1, 2, 2, 3, 9] ∧ (run perfect (story false)).profs.length = 3 := by
  decide +kernel

example : (families (story false))[0]? = some (false, 0) ∧ (families (story false))[1]? = some (false, 1) ∧
    (families (story false))[2]? = some (false, 0) ∧ optionsOf (run perfect (story false)) 2 = some 5 := by
  decide +kernel

/-- The story with sketches uses its left operand once. -/
theorem story_once : OnceLeft (story true) := by
  intro pre op post h i hn ⟨j, hj⟩
  have key : ∀ n, n < 7 → (story true).take n = pre → (story true)[n]? = some op → False := by
    intro n hn7 ht ho
    subst ht
    obtain rfl | rfl | rfl | rfl | rfl | rfl | rfl : n = 0 ∨ n = 1 ∨ n = 2 ∨ n = 3 ∨ n = 4 ∨ n = 5 ∨ n = 6 := by omega
    all_goals simp [story] at hj ho
    all_goals subst ho; simp [Names] at hn; omega
  have hl : pre.length < 7 := by
    have := congrArg List.length h
    simp [story] at this
    omega
  exact key pre.length hl (by rw [h]; simp) (by rw [h]; simp)

example : OnceLeft (story true) ∧ (rowsGiven (story true))[2]? = some (true, [1, 1, 2, 2, 3, 9]) ∧ ¬ Spent 2 (story true) ∧
    unique perfect (run perfect (story true)) 2 = some (4, 6) := by
  refine ⟨story_once, by decide +kernel, ?_, by decide +kernel⟩
  rintro ⟨j, hj⟩
  simp [story] at hj

example : unique perfect (run perfect (story true)) 0 = some (4, 3) := by decide +kernel

end Verif.Props.Apart
