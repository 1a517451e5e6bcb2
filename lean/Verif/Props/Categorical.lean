import Verif.Lemmas.Categorical
import Verif.Lemmas.Sketch
import Verif.Lemmas.Psi
import Verif.Lemmas.Nested

/-! # C12-C15, C51-C53: categorical columns -/

namespace Verif.Categorical

open Verif Verif.CatSpec

variable {K : Type} [DecidableEq K]

/-! ## C12: counts are exact -/

/-- **C12** Whatever the sequence of updates and merges, a profile that has not stopped counts exactly: the count
of every value is its number of occurrences, values never seen have no entry (so no zero entries), no category
appears twice, the counts add up to the sample size, which is the number of values seen, and the unique count is
the number of different values. -/
theorem C12_counts_exact (h : History K) (hs : (run h).stopped = false) :
    (PyDict.keys (run h).cats).Nodup ∧
    (∀ k c, PyDict.get? (run h).cats k = some c ↔ c = (seen h).count k ∧ 0 < c) ∧
    ((run h).cats.map Prod.snd).sum = (seen h).length ∧
    (run h).sampleSize = (seen h).length ∧
    uniqueCount (run h) = distinct (seen h) ∧
    uniqueRatio (run h) = (distinct (seen h) : ℚ) / (seen h).length := by
  have he := run_exact h hs
  refine ⟨he.counts.wf, ?_, ?_, he.size, uniqueCount_unstopped _ _ hs he.counts,
    uniqueRatio_unstopped _ _ hs he.counts he.size⟩
  · intro k c
    rw [he.counts.get]
    split_ifs with hk
    · have : 0 < (seen h).count k := List.count_pos_iff.2 hk
      simp only [Option.some.injEq]
      constructor
      · rintro rfl; exact ⟨rfl, this⟩
      · rintro ⟨rfl, _⟩; rfl
    · simp only [reduceCtorEq, false_iff, not_and]
      rintro rfl
      simp [List.count_eq_zero.2 hk]
  · have hp := he.counts.perm.map Prod.snd
    rw [hp.sum_eq]
    have : (valueCounts (seen h)).map Prod.snd = (seen h).dedup.map fun k => (seen h).count k := by
      simp [valueCounts, List.map_map, Function.comp_def]
    rw [this, sum_count]

example : (run (.merge (.update (.update (.new ⟨none, none⟩ none) ["a", "b"]) ["a"])
    (.update (.new ⟨none, none⟩ none) ["b", "c", "b"])) : Cat String).cats = [("a", 2), ("b", 3), ("c", 1)] := by
  decide +kernel

/-- **C12** The counts do not depend on how the data was cut into batches, merged or ordered: two unstopped
profiles that saw the same values in whatever order agree on every count. -/
theorem C12_batch_independent (h1 h2 : History K) (hs1 : (run h1).stopped = false) (hs2 : (run h2).stopped = false)
    (hp : (seen h1).Perm (seen h2)) :
    (∀ k, PyDict.get? (run h1).cats k = PyDict.get? (run h2).cats k) ∧
    (run h1).cats.Perm (run h2).cats ∧
    (run h1).sampleSize = (run h2).sampleSize ∧ uniqueCount (run h1) = uniqueCount (run h2) := by
  have e1 := run_exact h1 hs1
  have e2 := run_exact h2 hs2
  have hget : ∀ k, PyDict.get? (run h1).cats k = PyDict.get? (run h2).cats k := by
    intro k
    rw [e1.counts.get, e2.counts.get, hp.count_eq]
    simp only [hp.mem_iff]
  have hperm : (run h1).cats.Perm (run h2).cats := by
    rw [List.perm_ext_iff_of_nodup e1.counts.nodup e2.counts.nodup]
    rintro ⟨k, v⟩
    rw [PyDict.mem_iff_get? e1.counts.wf, PyDict.mem_iff_get? e2.counts.wf, hget]
  refine ⟨hget, hperm, by rw [e1.size, e2.size, hp.length_eq], ?_⟩
  rw [uniqueCount_unstopped _ _ hs1 e1.counts, uniqueCount_unstopped _ _ hs2 e2.counts, ← e1.counts.length,
    ← e2.counts.length, hperm.length_eq]

example : (seen (.update (.update (.new ⟨none, none⟩ none) ["a", "b"]) ["a"]) : List String).Perm
    (seen (.merge (.update (.new ⟨none, none⟩ (some 3)) ["b"]) (.update (.new ⟨none, none⟩ none) ["a", "a"]))) := by
  decide

/-- A dictionary of numbers as a nested dictionary. -/
def asNested (d : PyDict String ℕ) : PyDict String (Nested.NV ℕ) := d.map fun kv => (kv.1, .leaf kv.2)

theorem asNested_get? (d : PyDict String ℕ) (k : String) :
    PyDict.get? (asNested d) k = (PyDict.get? d k).map Nested.NV.leaf := by
  induction d with
  | nil => rfl
  | cons p d ih =>
    obtain ⟨k', v⟩ := p
    show PyDict.get? ((k', Nested.NV.leaf v) :: asNested d) k = _
    rw [PyDict.get?_cons, PyDict.get?_cons]
    split
    · rfl
    · exact ih

/-- The addition of counts used here is `add_nested_dictionaries` as modelled in `Verif.Nested` (C24). -/
theorem C12_addition_is_nested_addition (d1 d2 : PyDict String ℕ) :
    Nested.addVal (.dict (asNested d1)) (.dict (asNested d2)) = .ok (.dict (asNested (addFlat d1 d2))) := by
  have hitems : ∀ d : PyDict String ℕ, Nested.addItems (asNested d) (asNested d2) =
      .ok (asNested (d.map fun kv => (kv.1, plusOpt kv.2 (PyDict.get? d2 kv.1)))) := by
    intro d
    induction d with
    | nil => rfl
    | cons p d ih =>
      obtain ⟨k, v⟩ := p
      show Nested.addItems ((k, Nested.NV.leaf v) :: asNested d) (asNested d2) = _
      rw [Nested.addItems_cons, asNested_get?, ih]
      cases hk : PyDict.get? d2 k with
      | none => simp [asNested, plusOpt, hk, bind, Except.bind]
      | some w => simp [asNested, plusOpt, hk, bind, Except.bind, Nested.addVal]
  rw [Nested.addVal, hitems]
  show (Except.ok (Nested.NV.dict _) : Except Err (Nested.NV ℕ)) = _
  congr 2
  unfold addFlat
  conv_rhs => unfold asNested
  rw [List.map_append]
  congr 1
  unfold asNested
  rw [List.filter_map]
  congr 1
  apply List.filter_congr
  intro kv _
  have : PyDict.has (asNested d1) kv.1 = PyDict.has d1 kv.1 := by
    unfold PyDict.has; rw [asNested_get?]; cases PyDict.get? d1 kv.1 <;> rfl
  simpa [asNested] using this

/-! ## C13: the stop condition -/

/-- **C13** A profile without a complete stop condition never stops, a profile only ever stops because some
options in its history asked for it on a part of the data it saw, and a stopped profile has no categories. -/
theorem C13_stops_only_when_asked (h : History K) (hs : (run h).stopped = true) :
    (∃ o ∈ optsIn h, ∃ s : List K, s.Sublist (seen h) ∧ ∃ m r, o.maxSample = some m ∧ o.ratio = some r ∧
      m ≤ s.length ∧ r ≤ (distinct s : ℚ) / s.length) ∧ (run h).cats = [] := by
  obtain ⟨o, ho, s, hs1, m, r, h1, h2, h3, h4⟩ := run_reason h hs
  obtain ⟨_, _, _, _, _, _, hc⟩ := run_snapshot h
  exact ⟨⟨o, ho, s, hs1, m, r, h1, h2, h3, h4⟩, hc hs⟩

example : (run (.update (.new ⟨some 3, some (1 / 2)⟩ none) ["a", "b", "a", "c"]) : Cat String).stopped = true := by
  decide +kernel

theorem C13_never_without_options (h : History K) (ho : ∀ o ∈ optsIn h, o.maxSample = none ∨ o.ratio = none) :
    (run h).stopped = false := by
  by_contra hs
  have hs : (run h).stopped = true := by simpa using hs
  obtain ⟨o, hmem, s, _, m, r, h1, h2, _⟩ := run_reason h hs
  rcases ho o hmem with h | h
  · rw [h] at h1; simp at h1
  · rw [h] at h2; simp at h2

example : ∀ o ∈ optsIn (.merge (.new ⟨some 3, none⟩ none) (.new ⟨none, some 0⟩ none) : History String),
    o.maxSample = none ∨ o.ratio = none := by decide

/-- **C13** A non-empty batch stops an unstopped profile exactly when its options ask for it on everything seen
so far including the batch; the profile then remembers the unique count and ratio of that data. Otherwise it keeps
counting and keeps its options. -/
theorem C13_update_stops_iff (h : History K) (b : List K) (hs : (run h).stopped = false) (hb : b ≠ []) :
    ((run (.update h b)).stopped = true ↔
      ∃ m r, (run h).opts.maxSample = some m ∧ (run h).opts.ratio = some r ∧ m ≤ (seen h ++ b).length ∧
        r ≤ (distinct (seen h ++ b) : ℚ) / (seen h ++ b).length) ∧
    (run (.update h b)).sampleSize = (seen h ++ b).length ∧
    uniqueCount (run (.update h b)) = distinct (seen h ++ b) ∧
    uniqueRatio (run (.update h b)) = (distinct (seen h ++ b) : ℚ) / (seen h ++ b).length ∧
    (run (.update h b)).opts = (run h).opts := by
  have he := run_exact h hs
  have hu := update_unstopped _ _ _ hs he hb
  have hc := checkStop_iff (run h).opts (seen h ++ b)
  have hcc := counts_addFlat he.counts (valueCounts_counts b)
  simp only [run]
  rw [hu]
  by_cases hk : checkStop (run h).opts (seen h ++ b).length (ratio (seen h ++ b)) = true
  · rw [if_pos hk]
    exact ⟨⟨fun _ => hc.1 hk, fun _ => rfl⟩, rfl, rfl, rfl, rfl⟩
  · rw [if_neg hk]
    refine ⟨⟨fun h => by simp at h, fun h => absurd (hc.2 h) hk⟩, rfl, ?_, ?_, rfl⟩
    · exact uniqueCount_unstopped _ _ rfl hcc
    · exact uniqueRatio_unstopped _ _ rfl hcc rfl

example : (run (.update (.update (.new ⟨some 3, some (1 / 2)⟩ none) ["a", "b"]) ["c"]) : Cat String).stopped = true ∧
    (run (.update (.update (.new ⟨some 4, some (1 / 2)⟩ none) ["a", "b"]) ["c"]) : Cat String).stopped = false := by
  decide +kernel

/-- **C13** Stopping is permanent: no update changes a stopped profile in any way, and every merge with one is
stopped. -/
theorem C13_stop_permanent (h h' : History K) (bs : List (List K)) (hs : (run h).stopped = true) :
    run (bs.foldl History.update h) = run h ∧
    (run (.merge h h')).stopped = true ∧ (run (.merge h' h)).stopped = true := by
  refine ⟨?_, ?_, ?_⟩
  · induction bs generalizing h with
    | nil => rfl
    | cons b bs ih =>
      have : run (.update h b) = run h := by simp only [run]; exact update_stopped _ _ hs
      rw [List.foldl_cons, ih _ (by rw [this]; exact hs), this]
  · simp only [run]; rw [merge_stopped _ _ (Or.inl hs)]
  · simp only [run]; rw [merge_stopped _ _ (Or.inr hs)]

example : (run ([["d"], ["e"]].foldl History.update (.update (.new ⟨some 3, some (1 / 2)⟩ none) ["a", "b", "c"]))
    : Cat String).sampleSize = 3 := by decide +kernel

/-! ## C14: merging -/

/-- **C14** Merging two unstopped profiles stops exactly when the options of the operand with fewer different
values (the right one on a tie) ask for it on the concatenated data; in any case size, unique count and unique
ratio are those of the concatenated data, and if it did not stop the counts are those of the concatenation
(`C12_counts_exact`). -/
theorem C14_merge_unstopped (h1 h2 : History K) (hs1 : (run h1).stopped = false) (hs2 : (run h2).stopped = false) :
    let o := if distinct (seen h1) < distinct (seen h2) then (run h1).opts else (run h2).opts
    let l := seen h1 ++ seen h2
    (run (.merge h1 h2)).opts = o ∧
    ((run (.merge h1 h2)).stopped = true ↔
      ∃ m r, o.maxSample = some m ∧ o.ratio = some r ∧ m ≤ l.length ∧ r ≤ (distinct l : ℚ) / l.length) ∧
    (run (.merge h1 h2)).sampleSize = l.length ∧
    uniqueCount (run (.merge h1 h2)) = distinct l ∧
    uniqueRatio (run (.merge h1 h2)) = (distinct l : ℚ) / l.length := by
  intro o l
  have e1 := run_exact h1 hs1
  have e2 := run_exact h2 hs2
  have hm := merge_unstopped _ _ _ _ hs1 hs2 e1 e2
  have hc := checkStop_iff o l
  have hcc := counts_addFlat e1.counts e2.counts
  simp only [run]
  rw [hm]
  dsimp only
  by_cases hk : checkStop o l.length (ratio l) = true
  · rw [if_pos hk]
    exact ⟨rfl, ⟨fun _ => hc.1 hk, fun _ => rfl⟩, rfl, rfl, rfl⟩
  · rw [if_neg hk]
    refine ⟨rfl, ⟨fun h => by simp at h, fun h => absurd (hc.2 h) hk⟩, rfl, ?_, ?_⟩
    · exact uniqueCount_unstopped _ _ rfl hcc
    · exact uniqueRatio_unstopped _ _ rfl hcc rfl

example : (run (.merge (.update (.new ⟨some 3, some (1 / 2)⟩ none) ["a"]) (.update (.new ⟨none, none⟩ none) ["b", "c"]))
    : Cat String).stopped = true := by decide +kernel

/-- **C14** (partial) If one operand stopped, the merge is stopped, has no categories, and reports the size, unique
count and unique ratio of the operand with the larger sample (the right one on a tie). Missing from the full claim:
these are not the numbers of the concatenation (`C14_stopped_size_fails`). -/
theorem C14_merge_stopped_partial (h1 h2 : History K) (hs : (run h1).stopped = true ∨ (run h2).stopped = true) :
    (run (.merge h1 h2)).stopped = true ∧ (run (.merge h1 h2)).cats = [] ∧
    ((run h2).sampleSize < (run h1).sampleSize →
      (run (.merge h1 h2)).sampleSize = (run h1).sampleSize ∧
      uniqueCount (run (.merge h1 h2)) = uniqueCount (run h1) ∧
      uniqueRatio (run (.merge h1 h2)) = uniqueRatio (run h1)) ∧
    ((run h1).sampleSize ≤ (run h2).sampleSize →
      (run (.merge h1 h2)).sampleSize = (run h2).sampleSize ∧
      uniqueCount (run (.merge h1 h2)) = uniqueCount (run h2) ∧
      uniqueRatio (run (.merge h1 h2)) = uniqueRatio (run h2)) := by
  simp only [run]
  rw [merge_stopped _ _ hs]
  dsimp only
  refine ⟨rfl, rfl, ?_, ?_⟩
  · intro h
    rw [if_pos h]
    exact ⟨rfl, rfl, rfl⟩
  · intro h
    rw [if_neg (Nat.not_lt.2 h)]
    exact ⟨rfl, rfl, rfl⟩

/-- A merge with a stopped operand forgets the smaller sample: 3 + 2 values give a sample size of 3. -/
theorem C14_stopped_size_fails : ∃ h1 h2 : History String,
    (run h1).stopped = true ∧ (run (.merge h1 h2)).sampleSize ≠ (run h1).sampleSize + (run h2).sampleSize :=
  ⟨.update (.new ⟨some 3, some (1 / 2)⟩ none) ["a", "b", "c"], .update (.new ⟨none, none⟩ none) ["a", "b"],
    by decide +kernel⟩

/-- A merge can be stopped although its reported size and ratio never satisfied anyone's stop condition: the
snapshot of the larger, unstopped operand is reported. -/
theorem C14_stopped_reason_lost_fails : ∃ h1 h2 : History String,
    (run (.merge h1 h2)).stopped = true ∧
    ∀ o ∈ optsIn (.merge h1 h2), checkStop o (run (.merge h1 h2)).sampleSize (uniqueRatio (run (.merge h1 h2))) = false :=
  ⟨.update (.new ⟨some 3, some (1 / 2)⟩ none) ["a", "b", "c"],
   .update (.new ⟨none, none⟩ none) ["a", "a", "a", "a", "a"], by decide +kernel⟩

/-- **C14** Merging is commutative and associative as far as counts are concerned, with a fresh profile as neutral
element, whenever no stop occurs. -/
theorem C14_merge_laws (a b c : History K)
    (h1 : (run (.merge a b)).stopped = false) (h1' : (run (.merge b a)).stopped = false)
    (h2 : (run (.merge (.merge a b) c)).stopped = false) (h2' : (run (.merge a (.merge b c))).stopped = false) :
    (∀ k, PyDict.get? (run (.merge a b)).cats k = PyDict.get? (run (.merge b a)).cats k) ∧
    (∀ k, PyDict.get? (run (.merge (.merge a b) c)).cats k = PyDict.get? (run (.merge a (.merge b c))).cats k) := by
  refine ⟨(C12_batch_independent _ _ h1 h1' ?_).1, (C12_batch_independent _ _ h2 h2' ?_).1⟩
  · simp only [seen]; exact List.perm_append_comm
  · simp only [seen, List.append_assoc]; exact List.Perm.refl _

example : ∃ a b c : History String, (run (.merge (.merge a b) c)).stopped = false ∧ seen (.merge (.merge a b) c) ≠ [] :=
  ⟨.update (.new ⟨none, none⟩ none) ["x"], .new ⟨none, none⟩ none, .update (.new ⟨none, none⟩ none) ["y"], by decide +kernel⟩

/-! ## C15: derived statistics -/

/-- **C15** At any point of any history, stopped or not, the reported sample size, unique count and unique ratio
are those of some part of the data seen (all of it unless stopped); in particular the ratio lies in [0, 1] and the
count does not exceed the size. -/
theorem C15_unique_ratio_range (h : History K) :
    (∃ s : List K, s.Sublist (seen h) ∧ ((run h).stopped = false → s = seen h) ∧
      (run h).sampleSize = s.length ∧ uniqueCount (run h) = distinct s ∧
      uniqueRatio (run h) = (distinct s : ℚ) / s.length) ∧
    0 ≤ uniqueRatio (run h) ∧ uniqueRatio (run h) ≤ 1 ∧ uniqueCount (run h) ≤ (run h).sampleSize := by
  obtain ⟨s, h1, h2, h3, h4, h5, _⟩ := run_snapshot h
  refine ⟨⟨s, h1, h2, h3, h4, h5⟩, ?_, ?_, ?_⟩
  · rw [h5]; exact (ratio_range s).1
  · rw [h5]; exact (ratio_range s).2
  · rw [h3, h4]; exact distinct_le_length s

/-- **C15** The Gini impurity is the probability that two values drawn independently from the data differ; it is in
[0, 1), and 0 exactly when there is only one different value. -/
theorem C15_gini (h : History K) (hs : (run h).stopped = false) (hl : seen h ≠ []) :
    ∃ g : ℚ, gini (run h) = some g ∧ g = (differingPairs (seen h) : ℚ) / ((seen h).length : ℚ) ^ 2 ∧
      0 ≤ g ∧ g < 1 ∧ (g = 0 ↔ distinct (seen h) ≤ 1) := by
  have he := run_exact h hs
  have hpos : 0 < (seen h).length := List.length_pos_iff.2 hl
  have hq : (0 : ℚ) < (seen h).length := by exact_mod_cast hpos
  have hle := differing_le (seen h)
  have hle' : (differingPairs (seen h) : ℚ) + (seen h).length ≤ ((seen h).length : ℚ) ^ 2 := by exact_mod_cast hle
  refine ⟨_, gini_exact _ _ he hl, rfl, by positivity, ?_, ?_⟩
  · rw [div_lt_one (by positivity)]; linarith
  · rw [div_eq_zero_iff, distinct_le_one_iff, ← differing_zero_iff]
    constructor
    · rintro (h | h)
      · exact_mod_cast h
      · exact absurd h (pow_pos hq 2).ne'
    · intro h; left; exact_mod_cast h

example : gini (run (.update (.new ⟨none, none⟩ none) ["a", "b", "a", "c"]) : Cat String) = some (5 / 8) := by
  decide +kernel

/-- **C15** Unalikeability is the share of ordered pairs of different positions that hold different values: it is in
[0, 1], 0 exactly when there is only one different value and 1 exactly when all values differ. -/
theorem C15_unalikeability (h : History K) (hs : (run h).stopped = false) (hl : 2 ≤ (seen h).length) :
    ∃ u : ℚ, unalikeability (run h) = some u ∧
      u = (differingPairs (seen h) : ℚ) / ((seen h).length * ((seen h).length - 1) : ℕ) ∧
      0 ≤ u ∧ u ≤ 1 ∧ (u = 0 ↔ distinct (seen h) ≤ 1) := by
  have he := run_exact h hs
  have hle := differing_le (seen h)
  have hcast : ((seen h).length : ℚ) ^ 2 - (seen h).length = ((seen h).length * ((seen h).length - 1) : ℕ) := by
    push_cast [Nat.cast_sub (show 1 ≤ (seen h).length by omega)]; ring
  have hpos : 0 < (seen h).length * ((seen h).length - 1) := Nat.mul_pos (by omega) (by omega)
  have hposq : (0 : ℚ) < ((seen h).length * ((seen h).length - 1) : ℕ) := by exact_mod_cast hpos
  refine ⟨_, unalikeability_exact _ _ he hl, by rw [hcast], ?_, ?_, ?_⟩
  · rw [hcast]; positivity
  · rw [hcast, div_le_one hposq]
    have hle' : (differingPairs (seen h) : ℚ) + (seen h).length ≤ ((seen h).length : ℚ) ^ 2 := by exact_mod_cast hle
    rw [← hcast]; linarith
  · rw [hcast, div_eq_zero_iff, distinct_le_one_iff, ← differing_zero_iff]
    constructor
    · rintro (h | h)
      · exact_mod_cast h
      · exfalso; linarith
    · intro h; left; exact_mod_cast h

example : unalikeability (run (.update (.new ⟨none, none⟩ none) ["a", "b", "a", "c"]) : Cat String) = some (5 / 6) := by
  decide +kernel

/-- **C15** Without data both statistics are absent; with one value unalikeability is 0. -/
theorem C15_small (h : History K) (hs : (run h).stopped = false) :
    (seen h = [] → gini (run h) = none ∧ unalikeability (run h) = none) ∧
    ((seen h).length = 1 → unalikeability (run h) = some 0) := by
  have he := run_exact h hs
  refine ⟨?_, ?_⟩
  · intro hl
    have : (run h).sampleSize = 0 := by rw [he.size, hl]; rfl
    simp [gini, unalikeability, this]
  · intro hl
    have : (run h).sampleSize = 1 := by rw [he.size, hl]
    simp [unalikeability, this]

/-- After a stop both properties still return numbers, which describe the emptied categories: they are 0 for every
stopped profile with data, however diverse the data was. (The report leaves them out, since a stopped column is
not a match: `C53_match`.) -/
theorem C15_stopped_zero_fails : ∃ h : History String, (run h).stopped = true ∧ gini (run h) = some 0 ∧
    unalikeability (run h) = some 0 ∧ 1 < distinct (seen h) :=
  ⟨.update (.new ⟨some 3, some (1 / 2)⟩ none) ["a", "b", "c"], by decide +kernel⟩

/-! ## C53: the categorical report -/

omit [DecidableEq K] in
theorem sortedDesc_perm (d : PyDict K ℕ) : (sortedDesc d).Perm d := List.perm_insertionSort _ _

omit [DecidableEq K] in
theorem sortedDesc_pairwise (d : PyDict K ℕ) : (sortedDesc d).Pairwise fun a b => b.2 ≤ a.2 := by
  have : Std.Total (fun a b : K × ℕ => b.2 ≤ a.2) := ⟨fun a b => Nat.le_total _ _⟩
  have : IsTrans (K × ℕ) (fun a b : K × ℕ => b.2 ≤ a.2) := ⟨fun a b c h1 h2 => Nat.le_trans h2 h1⟩
  exact List.pairwise_insertionSort _ _

/-- **C53** The reported category counts are true counts in descending order; there are `top_k` of them (all, if
`top_k` is absent or larger than the number of categories), none twice, and no value left out is more frequent than
a reported one. Categories with equal counts keep the order of the category dictionary. -/
theorem C53_top_k (h : History K) (hs : (run h).stopped = false) :
    (∀ k c, (k, c) ∈ reportedCounts (run h) → c = (seen h).count k ∧ 0 < c) ∧
    (reportedCounts (run h)).Pairwise (fun a b => b.2 ≤ a.2) ∧
    ((reportedCounts (run h)).map Prod.fst).Nodup ∧
    (reportedCounts (run h)).length = (match (run h).topK with
      | none => distinct (seen h)
      | some k => min k (distinct (seen h))) ∧
    (∀ k ∈ seen h, k ∉ (reportedCounts (run h)).map Prod.fst →
      ∀ p ∈ reportedCounts (run h), (seen h).count k ≤ p.2) ∧
    (∀ a b, a.2 = b.2 → [a, b].Sublist (run h).cats → [a, b].Sublist (sortedDesc (run h).cats)) := by
  have he := run_exact h hs
  have hperm := sortedDesc_perm (run h).cats
  have hpw := sortedDesc_pairwise (run h).cats
  have hsub : (reportedCounts (run h)).Sublist (sortedDesc (run h).cats) := by
    unfold reportedCounts sliceTo
    cases (run h).topK with
    | none => exact List.Sublist.refl _
    | some k => exact List.take_sublist _ _
  have hlen : (sortedDesc (run h).cats).length = distinct (seen h) := by
    rw [hperm.length_eq, he.counts.length]
  have hnd : ((sortedDesc (run h).cats).map Prod.fst).Nodup := by
    have := he.counts.wf
    unfold PyDict.WF PyDict.keys at this
    exact (hperm.map Prod.fst).nodup_iff.2 this
  refine ⟨?_, hpw.sublist hsub, hnd.sublist (hsub.map _), ?_, ?_, ?_⟩
  · intro k c hkc
    have hm := hperm.mem_iff.1 (hsub.subset hkc)
    obtain ⟨h1, h2⟩ := (he.counts.mem k c).1 hm
    exact ⟨h2, by rw [h2]; exact List.count_pos_iff.2 h1⟩
  · unfold reportedCounts sliceTo
    cases (run h).topK with
    | none => exact hlen
    | some k => simp [List.length_take, hlen]
  · intro k hk hnk p hp
    have hm : (k, (seen h).count k) ∈ sortedDesc (run h).cats :=
      hperm.mem_iff.2 ((he.counts.mem _ _).2 ⟨hk, rfl⟩)
    unfold reportedCounts sliceTo at hnk hp
    cases ht : (run h).topK with
    | none =>
      rw [ht] at hnk
      exact absurd (List.mem_map.2 ⟨_, hm, rfl⟩) hnk
    | some n =>
      rw [ht] at hnk hp
      simp only at hnk hp
      have hsplit := List.take_append_drop n (sortedDesc (run h).cats)
      rw [← hsplit, List.pairwise_append] at hpw
      rw [← hsplit, List.mem_append] at hm
      rcases hm with hm | hm
      · exact absurd (List.mem_map.2 ⟨_, hm, rfl⟩) hnk
      · exact hpw.2.2 p hp _ hm
  · intro a b hab hs'
    have : Std.Total (fun a b : K × ℕ => b.2 ≤ a.2) := ⟨fun a b => Nat.le_total _ _⟩
    have : IsTrans (K × ℕ) (fun a b : K × ℕ => b.2 ≤ a.2) := ⟨fun a b c h1 h2 => Nat.le_trans h2 h1⟩
    exact List.pair_sublist_insertionSort (r := fun a b : K × ℕ => b.2 ≤ a.2) (by rw [hab]) hs'

example : reportedCounts (run (.update (.new ⟨none, none⟩ (some 2)) ["a", "b", "b", "c", "b", "c"]) : Cat String) =
    [("b", 3), ("c", 2)] := by decide

/-- **C53** A column is reported as categorical iff it never stopped and it has at most 10 different values or at
most one different value per five values. -/
theorem C53_match (h : History K) :
    isMatch (run h) = true ↔ (run h).stopped = false ∧
      (distinct (seen h) ≤ 10 ∨ 5 * distinct (seen h) ≤ (seen h).length) := by
  by_cases hs : (run h).stopped = true
  · simp [isMatch, hs]
  · have hs : (run h).stopped = false := by simpa using hs
    have he := run_exact h hs
    unfold isMatch
    rw [hs, he.counts.length, uniqueRatio_unstopped _ _ hs he.counts he.size, he.size]
    simp only [Bool.false_eq_true, if_false, true_and]
    by_cases h10 : distinct (seen h) ≤ 10
    · simp [h10]
    · have hpos : 0 < (seen h).length := by have := distinct_le_length (seen h); omega
      have hq : (0 : ℚ) < (seen h).length := by exact_mod_cast hpos
      simp only [h10, if_false, false_or, Bool.and_eq_true, decide_eq_true_eq]
      unfold ratio
      rw [div_le_iff₀ hq]
      constructor
      · rintro ⟨_, h2⟩
        have : (5 * distinct (seen h) : ℚ) ≤ (seen h).length := by linarith
        exact_mod_cast this
      · intro h2
        refine ⟨hpos.ne', ?_⟩
        have : (5 * distinct (seen h) : ℚ) ≤ (seen h).length := by exact_mod_cast h2
        linarith

/-- Merging loses `top_k_categories`: both operands limit the report to one category, the merge reports both. -/
theorem C53_top_k_lost_by_merge_fails : ∃ h1 h2 : History String,
    (run h1).topK = some 1 ∧ (run h2).topK = some 1 ∧ 1 < (reportedCounts (run (.merge h1 h2))).length :=
  ⟨.update (.new ⟨none, none⟩ (some 1)) ["a"], .update (.new ⟨none, none⟩ (some 1)) ["b"], by decide +kernel⟩

/-! ## C51: sketch mode -/

variable (est : List K → K → ℕ)

/-- **C51** In sketch mode, whatever the sequence of updates and merges, and for every sketch that never
underestimates: the reported count of a value is never below its true count and never below a `1/m` share of the
data, every value that makes up at least a `1/m` share is reported, and the sample size is exact (`m` is the maximal
number of heavy hitters, the smaller one after merging). -/
theorem C51_heavy_hitters (hest : ∀ l k, l.count k ≤ est l k) (h : CmsHistory K) (hp : AllPos h) (c : CmsCat K)
    (hr : runCms est h = .ok c) :
    c.sampleSize = (seenCms h).length ∧ (PyDict.keys c.cats).Nodup ∧
    (∀ k v, PyDict.get? c.cats k = some v →
      (seenCms h).count k ≤ v ∧ ((seenCms h).length : ℚ) / c.maxHeavy ≤ v) ∧
    (∀ k ∈ seenCms h, ((seenCms h).length : ℚ) / c.maxHeavy ≤ (seenCms h).count k →
      ∃ v, PyDict.get? c.cats k = some v) := by
  have hs := runCms_sk est hest h hp c hr
  exact ⟨hs.size, hs.wf, hs.lower, hs.heavy⟩

/-- Estimates that are one too large for the value `1`. -/
def roughEst (l : List ℕ) (k : ℕ) : ℕ := l.count k + if k = 1 then 1 else 0

example : (∀ l k, l.count k ≤ roughEst l k) ∧
    (runCms roughEst (.update (.update (.new 2 (3, 8)) [1, 2, 3, 2]) [2, 4, 4, 2])).map (·.cats) =
      .ok [(1, 4), (2, 4)] := by
  refine ⟨fun l k => by unfold roughEst; omega, by decide +kernel⟩

/-- **C51** If the sketch is exact (no collisions), the report is exactly the set of values that make up at least a
`1/m` share, with their true counts, however the data was cut into batches; there are at most `m` of them. -/
theorem C51_exact_sketch (hest : ∀ l k, est l k = l.count k) (h : CmsHistory K) (hp : AllPos h) (c : CmsCat K)
    (hr : runCms est h = .ok c) :
    (∀ k v, PyDict.get? c.cats k = some v ↔
      k ∈ seenCms h ∧ v = (seenCms h).count k ∧ ((seenCms h).length : ℚ) / c.maxHeavy ≤ v) ∧
    c.cats.length ≤ c.maxHeavy := by
  have hs := runCms_sk est (fun l k => (hest l k).ge) h hp c hr
  have he := runCms_exact est hest h c hr
  have key : ∀ k v, PyDict.get? c.cats k = some v ↔
      k ∈ seenCms h ∧ v = (seenCms h).count k ∧ ((seenCms h).length : ℚ) / c.maxHeavy ≤ v := by
    intro k v
    constructor
    · intro hv
      have h1 := he.exact k v hv
      have h2 := (hs.lower k v hv).2
      refine ⟨?_, h1, h2⟩
      by_contra hk
      rw [h1, List.count_eq_zero.2 hk] at h2
      -- an entry with count zero needs no data at all, and then there is none
      have hlen : (seenCms h).length = 0 := by
        have hm : (0 : ℚ) < c.maxHeavy := by exact_mod_cast hs.pos
        rw [div_le_iff₀ hm] at h2
        have : ((seenCms h).length : ℚ) ≤ 0 := by simpa using h2
        have : (seenCms h).length ≤ 0 := by exact_mod_cast this
        omega
      have hnil : seenCms h = [] := List.eq_nil_of_length_eq_zero hlen
      have := no_entries est h hnil c hr
      rw [this] at hv; simp at hv
    · rintro ⟨hk, rfl, hthr⟩
      obtain ⟨v, hv⟩ := hs.heavy k hk hthr
      rw [hv, he.exact k v hv]
  refine ⟨key, ?_⟩
  by_cases hnil : c.cats = []
  · simp [hnil]
  -- the counts of the reported categories add up to at most the size
  have hsubset : ∀ k ∈ PyDict.keys c.cats, k ∈ seenCms h := by
    intro k hk
    obtain ⟨v, hv⟩ := (PyDict.mem_keys_iff _ _).1 hk
    exact ((key k v).1 hv).1
  have hsum : ((PyDict.keys c.cats).map fun k => (seenCms h).count k).sum ≤ (seenCms h).length := by
    rw [← sum_count (seenCms h)]
    have hsp : (PyDict.keys c.cats).Subperm (seenCms h).dedup :=
      List.subperm_of_subset hs.wf (fun k hk => List.mem_dedup.2 (hsubset k hk))
    obtain ⟨l', hl', hsub⟩ := hsp
    rw [← (hl'.map _).sum_eq]
    exact List.Sublist.sum_le_sum (hsub.map _) (by simp)
  have hm : (0 : ℚ) < c.maxHeavy := by exact_mod_cast hs.pos
  have hbig : (((PyDict.keys c.cats).length : ℕ) : ℚ) * (((seenCms h).length : ℚ) / c.maxHeavy) ≤ (seenCms h).length := by
    have h1 : ∀ ks : List K, (∀ k ∈ ks, ((seenCms h).length : ℚ) / c.maxHeavy ≤ (seenCms h).count k) →
        (ks.length : ℚ) * (((seenCms h).length : ℚ) / c.maxHeavy) ≤
          ((ks.map fun k => (seenCms h).count k).sum : ℕ) := by
      intro ks
      induction ks with
      | nil => simp
      | cons k ks ih =>
        intro hk
        have a := hk k (by simp)
        have b := ih (fun k' hk' => hk k' (List.mem_cons_of_mem _ hk'))
        simp only [List.length_cons, List.map_cons, List.sum_cons]
        push_cast at b ⊢
        linarith
    refine (h1 _ ?_).trans (by exact_mod_cast hsum)
    intro k hk
    obtain ⟨v, hv⟩ := (PyDict.mem_keys_iff _ _).1 hk
    obtain ⟨_, h2, h3⟩ := (key k v).1 hv
    rw [← h2]; exact h3
  have hlen : 0 < (seenCms h).length := by
    obtain ⟨p, hp'⟩ := List.exists_mem_of_ne_nil _ hnil
    have : p.1 ∈ PyDict.keys c.cats := List.mem_map.2 ⟨p, hp', rfl⟩
    exact List.length_pos_of_mem (hsubset _ this)
  have hlq : (0 : ℚ) < (seenCms h).length := by exact_mod_cast hlen
  have hfin : (((PyDict.keys c.cats).length : ℕ) : ℚ) ≤ c.maxHeavy := by
    rw [← mul_div_assoc, div_le_iff₀ hm, mul_comm ((seenCms h).length : ℚ)] at hbig
    exact le_of_mul_le_mul_right hbig hlq
  have : (PyDict.keys c.cats).length = c.cats.length := by simp [PyDict.keys]
  rw [this] at hfin
  exact_mod_cast hfin

example : (runCms (fun l k => l.count k) (.merge (.update (.update (.new 2 (3, 8)) [1, 2, 3, 2]) [2, 4, 4, 2])
    (.update (.new 3 (3, 8)) [5, 5])) : Except Err (CmsCat ℕ)).map (·.cats) = .ok [] ∧
    (runCms (fun l k => l.count k) (.merge (.update (.update (.new 4 (3, 8)) [1, 2, 3, 2]) [2, 4, 4, 2])
    (.update (.new 3 (3, 8)) [5, 5])) : Except Err (CmsCat ℕ)).map (·.cats) = .ok [(2, 4)] := by
  decide +kernel

/-- **C51** Exactly when a sequence of updates and merges goes through; otherwise it raises a `TypeError`. -/
theorem C51_works_iff (h : CmsHistory K) :
    ((∃ c, runCms est h = .ok c) ↔ Works h) ∧ (¬ Works h → runCms est h = .error .typeError) := by
  have key : (∃ c, runCms est h = .ok c) ↔ Works h := by
    induction h with
    | new m p => exact ⟨fun _ => trivial, fun _ => ⟨_, rfl⟩⟩
    | update h b ih =>
      rcases runCms_kept est h with ⟨c, hc, k⟩ | he
      · have hw : Works h := ih.1 ⟨c, hc⟩
        simp only [runCms, hc, bind, Except.bind, updateCms, Works, hw, true_and]
        by_cases hb : b = []
        · simp [hb]
        · rw [if_neg (by simpa using hb)]
          by_cases hm : Merged h
          · simp [k.merged hm, hm, hb]
          · simp only [k.fresh hm, hm, false_implies, iff_true]
            rcases mergeCms_ok_iff est (some (sketchSize h)) (sketchSize h) c.dims b (hitLoop est c b.length [] b ⟨[], []⟩).heavy
              b.length (hitLoop est c b.length [] b ⟨[], []⟩).missing c.inserted c.cats c.sampleSize c.maxHeavy with
              ⟨_, _, x, hx⟩ | ⟨hn, _⟩
            · rw [hx]; exact ⟨_, rfl⟩
            · exact absurd ⟨rfl, k.dims.symm⟩ hn
      · have hw : ¬ Works h := fun hw => by obtain ⟨c, hc⟩ := ih.2 hw; rw [he] at hc; cases hc
        simp [runCms, he, bind, Except.bind, Works, hw]
    | merge h1 h2 i1 i2 =>
      rcases runCms_kept est h1 with ⟨a, ha, ka⟩ | he
      · have w1 : Works h1 := i1.1 ⟨a, ha⟩
        rcases runCms_kept est h2 with ⟨b, hb, kb⟩ | he
        · have w2 : Works h2 := i2.1 ⟨b, hb⟩
          simp only [runCms, ha, hb, bind, Except.bind, addCms, Works, w1, w2, true_and]
          rcases mergeCms_ok_iff est a.params a.dims b.dims a.inserted a.cats a.sampleSize [] b.inserted b.cats b.sampleSize
            (min a.maxHeavy b.maxHeavy) with ⟨e1, e2, x, hx⟩ | ⟨hn, hx⟩
          · rw [hx]
            refine ⟨fun _ => ⟨fun hm => ?_, ?_⟩, fun _ => ⟨_, rfl⟩⟩
            · rw [ka.merged hm] at e1; cases e1
            · rw [← ka.dims, ← kb.dims, e2]
          · rw [hx]
            refine ⟨fun ⟨_, hc⟩ => (by cases hc), fun ⟨hm, hd⟩ => absurd ⟨?_, ?_⟩ hn⟩
            · rw [ka.fresh hm, ka.dims]
            · rw [ka.dims, kb.dims, hd]
        · have w2 : ¬ Works h2 := fun hw => by obtain ⟨c, hc⟩ := i2.2 hw; rw [he] at hc; cases hc
          simp [runCms, ha, he, bind, Except.bind, Works, w2]
      · have w1 : ¬ Works h1 := fun hw => by obtain ⟨c, hc⟩ := i1.2 hw; rw [he] at hc; cases hc
        simp [runCms, he, bind, Except.bind, Works, w1]
  refine ⟨key, fun hn => ?_⟩
  rcases runCms_kept est h with ⟨c, hc, _⟩ | he
  · exact absurd (key.1 ⟨c, hc⟩) hn
  · exact he

example : Works (.merge (.update (.new 2 (3, 8)) [1, 2]) (.update (.merge (.new 4 (3, 8)) (.new 2 (3, 8))) []) : CmsHistory ℕ) ∧
    ¬ Works (.merge (.new 2 (3, 8)) (.new 2 (3, 9)) : CmsHistory ℕ) :=
  ⟨⟨⟨trivial, fun h => h.elim⟩, ⟨⟨trivial, trivial, fun h => h, rfl⟩, fun _ => rfl⟩, fun h => h, rfl⟩,
    fun h => by simp [Works, sketchSize] at h⟩

/-- A merged profile in sketch mode has lost its sketch parameters: updating it, or merging it again as left
operand, raises. -/
theorem C51_merged_unusable_fails (a b x : CmsHistory K) (c : CmsCat K)
    (batch : List K) (hb : batch ≠ []) (hx : ∃ d, runCms est x = .ok d) (hr : runCms est (.merge a b) = .ok c) :
    runCms est (.update (.merge a b) batch) = .error .typeError ∧
    runCms est (.merge (.merge a b) x) = .error .typeError := by
  obtain ⟨d, hd⟩ := hx
  have hpar : c.params = none := by
    cases ha : runCms est a with
    | error e => simp [runCms, ha, bind, Except.bind] at hr
    | ok a' =>
      cases hb' : runCms est b with
      | error e => simp [runCms, ha, hb', bind, Except.bind] at hr
      | ok b' =>
        simp only [runCms, ha, hb', bind, Except.bind, addCms] at hr
        cases hm : mergeCms est a'.params a'.dims a'.inserted a'.cats a'.sampleSize [] b'.dims b'.inserted b'.cats b'.sampleSize
          (min a'.maxHeavy b'.maxHeavy) with
        | error e => rw [hm] at hr; simp at hr
        | ok r => rw [hm] at hr; simp only [Except.ok.injEq] at hr; rw [← hr]
  have hl : batch.length ≠ 0 := by simpa using hb
  refine ⟨?_, ?_⟩
  · rw [runCms, hr]
    show updateCms est c batch = _
    unfold updateCms
    rw [if_neg hl, hpar]
  · rw [runCms, hr, hd]
    show addCms est c d = _
    unfold addCms
    rw [hpar]
    rfl

example : (runCms (fun l k => l.count k) (.merge (.update (.new 2 (3, 8)) [1, 2]) (.new 2 (3, 8)))
    : Except Err (CmsCat ℕ)).map (·.params) = .ok none := by decide +kernel

end Verif.Categorical

namespace Verif.Psi

open Verif Verif.Categorical Verif.CatSpec Verif.PsiSpec

variable {K : Type} [DecidableEq K]

/-! ## C52: population stability index -/

/-- **C52** For two unstopped profiles that saw data, in whatever order the set of categories is enumerated, the
reported index is the sum over the shared values of (q - p) ln(q / p), where p and q are the relative frequencies. It
is never negative, and 0 exactly when every shared value has the same relative frequency in both columns. -/
theorem C52_psi (h1 h2 : History K) (hs1 : (run h1).stopped = false) (hs2 : (run h2).stopped = false)
    (n1 : seen h1 ≠ []) (n2 : seen h2 ≠ []) (order : List K)
    (ho : ∀ k, k ∈ order ↔ k ∈ seen h1 ∨ k ∈ seen h2) :
    ∃ x : ℝ, psi order (run h1).cats (run h1).sampleSize (run h2).cats (run h2).sampleSize = .ok (some x) ∧
      x = index (seen h1) (seen h2) ∧ 0 ≤ x ∧
      (x = 0 ↔ ∀ k, k ∈ seen h1 → k ∈ seen h2 → freq (seen h1) k = freq (seen h2) k) := by
  have e1 := run_exact h1 hs1
  have e2 := run_exact h2 hs2
  have hnn : ∀ k ∈ (seen h1).toFinset ∩ (seen h2).toFinset,
      0 ≤ (freq (seen h2) k - freq (seen h1) k) * Real.log (freq (seen h2) k / freq (seen h1) k) := by
    intro k hk
    simp only [Finset.mem_inter, List.mem_toFinset] at hk
    exact summand_nonneg (freq_pos hk.1) (freq_pos hk.2)
  refine ⟨index (seen h1) (seen h2), ?_, rfl, Finset.sum_nonneg hnn, ?_⟩
  · rw [e1.size, e2.size]
    exact psi_eq order _ _ _ _ e1.counts e2.counts ho n1 n2
  · unfold index
    rw [Finset.sum_eq_zero_iff_of_nonneg hnn]
    constructor
    · intro h k hk1 hk2
      have := h k (by simp [hk1, hk2])
      exact ((summand_zero_iff (freq_pos hk1) (freq_pos hk2)).1 this).symm
    · intro h k hk
      simp only [Finset.mem_inter, List.mem_toFinset] at hk
      exact (summand_zero_iff (freq_pos hk.1) (freq_pos hk.2)).2 (h k hk.1 hk.2).symm

example : ∃ h1 h2 : History String, (run h1).stopped = false ∧ (run h2).stopped = false ∧ seen h1 ≠ [] ∧ seen h2 ≠ [] ∧
    ∀ k, k ∈ ["a", "b"] ↔ k ∈ seen h1 ∨ k ∈ seen h2 :=
  ⟨.update (.new ⟨none, none⟩ none) ["a", "b"], .update (.new ⟨none, none⟩ none) ["b"], by decide, by decide, by decide,
    by decide, by simp [seen]⟩

/-- **C52** The index is symmetric. -/
theorem C52_symmetric (l1 l2 : List K) : index l1 l2 = index l2 l1 := by
  unfold index
  rw [Finset.inter_comm]
  apply Finset.sum_congr rfl
  intro k hk
  simp only [Finset.mem_inter, List.mem_toFinset] at hk
  have h1 := freq_pos hk.1
  have h2 := freq_pos hk.2
  rw [Real.log_div h1.ne' h2.ne', Real.log_div h2.ne' h1.ne']
  ring

/-- Columns with nothing in common have index 0, like identical ones: values missing from one side are ignored. -/
theorem C52_disjoint_zero_fails : ∃ l1 l2 : List String, l1 ≠ [] ∧ l2 ≠ [] ∧ (∀ k ∈ l1, k ∉ l2) ∧ index l1 l2 = 0 := by
  refine ⟨["a"], ["b"], by decide, by decide, by decide, ?_⟩
  unfold index
  have : (["a"] : List String).toFinset ∩ (["b"] : List String).toFinset = ∅ := by decide
  rw [this]; simp

/-- Comparing an empty column with one that has data raises a division by zero. -/
theorem C52_empty_raises_fails (h1 h2 : History K)
    (n1 : run h1 = init (run h1).opts (run h1).topK) (n2 : seen h2 ≠ []) (order : List K)
    (ho : ∀ k, k ∈ order ↔ k ∈ seen h2) :
    psi order (run h1).cats (run h1).sampleSize (run h2).cats (run h2).sampleSize = .error .zeroDivision := by
  have hc : (run h1).cats = [] := by rw [n1]; rfl
  have hz : (run h1).sampleSize = 0 := by rw [n1]; rfl
  rw [hc, hz]
  obtain ⟨x, hx⟩ := List.exists_mem_of_ne_nil _ n2
  have hget : PyDict.get? (pad order ([] : PyDict K ℕ)) x = some 0 := by
    rw [pad_get?]; simp [(ho x).2 hx]
  unfold psi
  cases hp : pad order ([] : PyDict K ℕ) with
  | nil => rw [hp] at hget; simp at hget
  | cons p rest =>
    obtain ⟨k, v⟩ := p
    rfl

end Verif.Psi
