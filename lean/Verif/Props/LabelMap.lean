import Verif.Lemmas.LabelMap

/-!
# The labels of a data labeler (C61)
-/

namespace Verif.LabelMap

open Verif Verif.Spec.LabelMap

variable {K : Type} [DecidableEq K]

/-- A list of different labels is numbered in order, and comes back from `labels`. -/
theorem C61_list_partial (zero : Bool) (ls : List K) (hne : ls ≠ []) (hnd : ls.Nodup) :
    ∃ m, setMapping zero (.list ls) = .ok m ∧ labels m = ls ∧
      ∀ (i : ℕ) k, ls[i]? = some k → (k, i + if zero then 0 else 1) ∈ m := by
  obtain ⟨s, hs⟩ : ∃ s, s = if zero then 0 else 1 := ⟨_, rfl⟩
  refine ⟨ofList s ls, ?_, ?_, ?_⟩
  · cases ls with
    | nil => exact absurd rfl hne
    | cons a l => rw [hs]; rfl
  all_goals
    have hof : ofList s ls = ls.zipIdx s := by
      unfold ofList
      refine ofPairs_nodup _ ?_
      rw [List.zipIdx_map_fst]
      exact hnd
    rw [hof]
  · have hrev : reverseMap (ls.zipIdx s) = (ls.zipIdx s).map fun x => (x.2, x.1) := by
      have := ofPairs_nodup ((ls.zipIdx s).map fun x => (x.2, x.1)) (by
        rw [List.map_map]
        have : ((fun x : ℕ × K => x.1) ∘ fun x : K × ℕ => (x.2, x.1)) = fun x => x.2 := rfl
        rw [this, List.zipIdx_map_snd]
        exact List.nodup_range')
      rw [List.foldl_map] at this
      exact this
    unfold labels sortedValues
    rw [hrev]
    have hsort : ((ls.zipIdx s).map fun x => (x.2, x.1)).Pairwise fun a b => a.1 < b.1 := by
      rw [List.pairwise_map]
      have : ((ls.zipIdx s).map (·.2)).Pairwise (· < ·) := by
        rw [List.zipIdx_map_snd]
        exact List.pairwise_lt_range'
      exact List.pairwise_map.mp this
    have := sorted_self hsort
    unfold sorted at this
    rw [this, List.map_map]
    exact List.zipIdx_map_fst s ls
  · intro i k hk
    rw [← hs]
    have : (ls.zipIdx s)[i]? = some (k, s + i) := by
      rw [List.getElem?_zipIdx, hk]; rfl
    rw [Nat.add_comm]
    exact List.mem_of_getElem? this

example : (setMapping false (.list ["a", "b", "c"])).toOption = some [("a", 1), ("b", 2), ("c", 3)] := by decide +kernel

/-- With repeated labels, later numbers replace earlier ones and fewer labels come back. -/
theorem C61_list_fails : ∃ ls : List String, (setMapping true (.list ls)).toOption.map labels ≠ some ls :=
  ⟨["a", "b", "a"], by decide +kernel⟩

/-- `labels` gives one name for every number in use, by rising numbers. -/
theorem C61_labels (m : PyDict K ℕ) : IsLabels m (labels m) := labels_spec m

/-- If no two labels share a number, every label is named. -/
theorem C61_all (m : PyDict K ℕ) (hinj : ∀ k k' id, (k, id) ∈ m → (k', id) ∈ m → k = k') (k : K) (id : ℕ) (h : (k, id) ∈ m) :
    k ∈ labels m := by
  obtain ⟨ids, -, h2, h3, h4⟩ := C61_labels m
  obtain ⟨i, hi⟩ := List.mem_iff_getElem?.mp ((h4 id).2 ⟨k, h⟩)
  have hlt := (List.getElem?_eq_some_iff.mp hi).1
  have hg : (labels m)[i]? = some ((labels m)[i]'(by omega)) := List.getElem?_eq_getElem _
  have := h3 i id _ hi hg
  rw [hinj k _ id h this]
  exact List.getElem_mem _

/-- The number of labels is one more than the largest number. -/
theorem C61_num (m : PyDict K ℕ) : (∀ k id, (k, id) ∈ m → id < numLabels m) ∧ (m ≠ [] → ∃ k, (k, numLabels m - 1) ∈ m) :=
  ⟨fun _ _ h => lt_num h, num_mem⟩

/-- A new label gets a new number, after all others; nothing else changes. -/
theorem C61_add (m : PyDict K ℕ) (l : K) (hl : ∀ id, (l, id) ∉ m) :
    ∃ m', addLabel m (some l) none = (m', .ok ()) ∧ m' = m ++ [(l, numLabels m)] ∧ (∀ k id, (k, id) ∈ m → id ≠ numLabels m) ∧
      labels m' = labels m ++ [l] ∧ numLabels m' = numLabels m + 1 := by
  have hk : l ∉ PyDict.keys m := by
    intro h
    obtain ⟨x, hx, rfl⟩ := List.mem_map.mp h
    exact hl x.2 hx
  have hh : PyDict.has m l = false := by
    cases hb : PyDict.has m l with
    | false => rfl
    | true => exact absurd ((PyDict.has_iff m l).1 hb) hk
  refine ⟨PyDict.set m l (numLabels m), ?_, PyDict.set_of_not_mem hk _, fun k id h => Nat.ne_of_lt (lt_num h), ?_, ?_⟩
  · unfold addLabel
    dsimp only
    rw [hh]; rfl
  · rw [PyDict.set_of_not_mem hk]
    unfold labels sortedValues
    have hnk : numLabels m ∉ PyDict.keys (reverseMap m) := by
      rw [reverse_keys]
      rintro ⟨k, h⟩
      exact Nat.lt_irrefl _ (lt_num h)
    rw [reverse_append, PyDict.set_of_not_mem hnk]
    have := sorted_append (reverse_wf m) (numLabels m) l fun x hx => lt_num (reverse_mem m x hx)
    unfold sorted at this
    rw [this, List.map_append]
    rfl
  · rw [PyDict.set_of_not_mem hk, num_append]
    omega

/-- A label the same as another gets its number; nothing else changes. -/
theorem C61_add_same (m : PyDict K ℕ) (l s : K) (id : ℕ) (hwf : PyDict.WF m) (hl : ∀ id, (l, id) ∉ m) (hs : (s, id) ∈ m) :
    ∃ m', addLabel m (some l) (some s) = (m', .ok ()) ∧ m' = m ++ [(l, id)] ∧ numLabels m' = numLabels m := by
  have hk : l ∉ PyDict.keys m := by
    intro h
    obtain ⟨x, hx, rfl⟩ := List.mem_map.mp h
    exact hl x.2 hx
  have hh : PyDict.has m l = false := by
    cases hb : PyDict.has m l with
    | false => rfl
    | true => exact absurd ((PyDict.has_iff m l).1 hb) hk
  refine ⟨PyDict.set m l id, ?_, PyDict.set_of_not_mem hk _, ?_⟩
  · unfold addLabel
    dsimp only
    rw [hh, PyDict.get?_of_mem hwf hs]; rfl
  · rw [PyDict.set_of_not_mem hk, num_append]
    have := lt_num hs
    dsimp only at this
    omega

/-- Adding a known label, or one the same as an unknown one, changes nothing; the latter raises. -/
theorem C61_add_known (m : PyDict K ℕ) (l : K) (same : Option K) (id : ℕ) (h : (l, id) ∈ m) : addLabel m (some l) same = (m, .ok ()) := by
  unfold addLabel
  dsimp only
  rw [if_pos ((PyDict.has_iff m l).2 (List.mem_map_of_mem h))]

theorem C61_add_unknown (m : PyDict K ℕ) (l s : K) (hl : ∀ id, (l, id) ∉ m) (hs : ∀ id, (s, id) ∉ m) :
    addLabel m (some l) (some s) = (m, .error .valueError) := by
  have hk : ∀ k : K, (∀ id, (k, id) ∉ m) → k ∉ PyDict.keys m := by
    intro k hk h
    obtain ⟨x, hx, rfl⟩ := List.mem_map.mp h
    exact hk x.2 hx
  unfold addLabel
  dsimp only
  rw [if_neg (fun h => hk l hl ((PyDict.has_iff m l).1 h)), (PyDict.get?_eq_none_iff m s).2 (hk s hs)]

/-- A label added as the same as another takes its place: predictions bear the new name, and the old one is no longer listed. -/
theorem C61_same_fails : ∃ m : PyDict String ℕ, "date" ∈ labels m ∧
    labels (addLabel m (some "day") (some "date")).1 = ["PAD", "day"] :=
  ⟨[("PAD", 0), ("date", 1)], by decide +kernel, by decide +kernel⟩

/-- A network given a dictionary keeps it, with padding at zero and the default label. -/
theorem C61_network_dict (pad dflt : K) (d m : PyDict K ℕ) (h : cnnSet pad dflt (.dict d) = .ok m) :
    PyDict.get? m pad = some 0 ∧ dflt ∈ PyDict.keys m ∧ ∀ k, k ≠ pad → PyDict.get? m k = PyDict.get? d k := by
  unfold cnnSet at h
  dsimp only at h
  obtain ⟨e, he⟩ : ∃ e, e = if PyDict.has d pad = true then d else if 0 ∈ PyDict.values d then d else PyDict.set d pad 0 := ⟨_, rfl⟩
  rw [← he] at h
  split_ifs at h with h1 h2
  have hm : e = m := by
    unfold setMapping at h
    split at h
    · exact nomatch h
    · rename_i heq; exact nomatch heq
    · exact nomatch h
    · rename_i heq; exact nomatch heq
    · rename_i heq
      injection heq with heq
      injection h with h
      exact heq.trans h
  subst hm
  refine ⟨by simpa using h1, (PyDict.has_iff _ _).1 h2, fun k hk => ?_⟩
  rw [he]
  split_ifs
  · rfl
  · rfl
  · rw [PyDict.get?_set, if_neg (Ne.symm hk)]

/-- A network given a list numbers it from zero, with padding first unless it is listed. -/
theorem C61_network_list_partial (pad dflt : K) (ls : List K) (m : PyDict K ℕ) (hnd : ls.Nodup) (hp : pad ∈ ls → ls.head? = some pad)
    (h : cnnSet pad dflt (.list ls) = .ok m) :
    (pad, 0) ∈ m ∧ dflt ∈ labels m ∧ labels m = if pad ∈ ls then ls else pad :: ls := by
  unfold cnnSet at h
  dsimp only at h
  obtain ⟨e, he⟩ : ∃ e, e = if pad ∈ ls then ls else pad :: ls := ⟨_, rfl⟩
  rw [← he] at h
  split_ifs at h with h1
  have hhead : e[0]? = some pad := by
    rw [he]
    split_ifs with hm
    · rw [← hp hm, List.head?_eq_getElem?]
    · rfl
  have hne : e ≠ [] := by rintro rfl; exact nomatch hhead
  have hnd' : e.Nodup := by
    rw [he]
    split_ifs with hm
    · exact hnd
    · exact List.nodup_cons.mpr ⟨hm, hnd⟩
  obtain ⟨m', k1, k2, k3⟩ := C61_list_partial true e hne hnd'
  rw [h] at k1
  injection k1 with k1
  subst k1
  refine ⟨by simpa using k3 0 pad hhead, by rw [k2]; exact h1, by rw [k2, ← he]⟩

example : (cnnSet "PAD" "UNKNOWN" (.list ["UNKNOWN", "date"])).toOption = some [("PAD", 0), ("UNKNOWN", 1), ("date", 2)] := by
  decide +kernel

/-- A list with padding elsewhere is accepted and gives padding another number. -/
theorem C61_network_list_fails : ∃ ls : List String, (cnnSet "PAD" "UNKNOWN" (.list ls)).toOption = some [("UNKNOWN", 0), ("PAD", 1)] :=
  ⟨["UNKNOWN", "PAD"], by decide +kernel⟩

/-- Average predictions of a column stand beside their labels, if all numbers from zero on are in use. -/
theorem C61_average_partial (zero : Bool) (m : PyDict K ℕ) (hwf : PyDict.WF m) (hall : ∀ i, i < numLabels m → ∃ k, (k, i) ∈ m)
    (sums : List ℚ) (n : ℕ) (hs : sums.length + (if zero then 1 else 0) = numLabels m) :
    (possible zero m).length = sums.length ∧
    ∀ (i : ℕ) k s, (possible zero m)[i]? = some k → sums[i]? = some s →
      (k, i + if zero then 1 else 0) ∈ m ∧ PyDict.get? (average zero m sums n) k = some (s / n) := by
  obtain ⟨st, hst⟩ : ∃ st, st = if zero then 1 else 0 := ⟨_, rfl⟩
  obtain ⟨d, hd⟩ : ∃ d, d = if zero then PyDict.del (reverseMap m) 0 else reverseMap m := ⟨_, rfl⟩
  have hdwf : PyDict.WF d := by
    rw [hd]; split_ifs
    · exact PyDict.WF_del (reverse_wf m) 0
    · exact reverse_wf m
  have hdmem : ∀ x ∈ d, (x.2, x.1) ∈ m := by
    intro x hx
    rw [hd] at hx
    have hx' : x ∈ reverseMap m := by
      split_ifs at hx
      · rw [PyDict.mem_iff_get? (PyDict.WF_del (reverse_wf m) 0), PyDict.get?_del (reverse_wf m)] at hx
        split_ifs at hx
        exact PyDict.mem_of_get? hx
      · exact hx
    exact reverse_mem m x hx'
  have hdkeys : ∀ i, i ∈ PyDict.keys d ↔ st ≤ i ∧ i < numLabels m := by
    intro i
    have hrev : i ∈ PyDict.keys (reverseMap m) ↔ i < numLabels m := by
      rw [reverse_keys]
      exact ⟨fun ⟨k, hk⟩ => lt_num hk, hall i⟩
    rw [hd, hst]
    cases zero with
    | false => simp [hrev]
    | true =>
      rw [if_pos rfl, if_pos rfl, PyDict.mem_keys_iff, PyDict.get?_del (reverse_wf m)]
      split_ifs with h0
      · subst h0; simp
      · rw [← PyDict.mem_keys_iff, hrev]
        omega
  have hids : (sorted d).map (·.1) = List.range' st (numLabels m - st) := by
    refine strict_ext id _ _ ?_ ?_ fun r => ?_
    · exact List.pairwise_map.mpr (sorted_strict hdwf)
    · exact List.pairwise_lt_range'
    · rw [List.mem_range'_1]
      have : r ∈ (sorted d).map (·.1) ↔ r ∈ PyDict.keys d := by
        unfold PyDict.keys
        simp only [List.mem_map, sorted_mem]
      rw [this, hdkeys]
      omega
  have hpos : possible zero m = (sorted d).map (·.2) := by
    unfold possible
    rw [← hd]; rfl
  have hlen : (sorted d).length = sums.length := by
    have := congrArg List.length hids
    rw [List.length_map, List.length_range'] at this
    rw [← hst] at hs
    omega
  have hnames : ((sorted d).map (·.2)).Nodup := by
    rw [List.Nodup, List.pairwise_map]
    refine List.Pairwise.imp_of_mem ?_ (sorted_strict hdwf)
    intro a b ha hb hlt he
    have h1 := hdmem a ((sorted_mem d a).1 ha)
    have h2 := hdmem b ((sorted_mem d b).1 hb)
    rw [he] at h1
    have h3 := PyDict.get?_of_mem hwf h1
    rw [PyDict.get?_of_mem hwf h2] at h3
    injection h3 with h3
    omega
  rw [← hst]
  refine ⟨by rw [hpos, List.length_map, hlen], fun i k s hk hsi => ?_⟩
  rw [hpos, List.getElem?_map, Option.map_eq_some_iff] at hk
  obtain ⟨x, hx, rfl⟩ := hk
  have hxi : x.1 = st + i := by
    have h1 : ((sorted d).map (·.1))[i]? = some x.1 := by rw [List.getElem?_map, hx]; rfl
    rw [hids] at h1
    have h2 := (List.getElem?_eq_some_iff.mp h1)
    obtain ⟨h3, h4⟩ := h2
    rw [List.getElem_range'] at h4
    omega
  refine ⟨?_, ?_⟩
  · have := hdmem x ((sorted_mem d x).1 (List.mem_of_getElem? hx))
    rw [hxi, Nat.add_comm] at this
    exact this
  · unfold average
    rw [hpos, ofPairs_nodup]
    · refine PyDict.get?_of_mem ?_ ?_
      · unfold PyDict.WF PyDict.keys
        rw [List.map_fst_zip (by simp [hlen])]
        exact hnames
      · refine List.mem_of_getElem? (i := i) ?_
        rw [List.getElem?_zip_eq_some, List.getElem?_map, List.getElem?_map, hx, hsi]
        exact ⟨rfl, rfl⟩
    · rw [List.map_fst_zip (by simp [hlen])]
      exact hnames

example : average true [("PAD", 0), ("a", 1), ("b", 2)] [3, 5] 2 = [("a", 3/2), ("b", 5/2)] := by decide +kernel

/-- Labels given as a list to a model without padding are numbered from one, and every label gets the average of the one before
it. -/
theorem C61_average_fails : ∃ m : PyDict String ℕ, (setMapping false (.list ["a", "b"])).toOption = some m ∧
    PyDict.get? m "a" = some 1 ∧ average false m [10, 20, 30] 1 = [("a", 10), ("b", 20)] :=
  ⟨[("a", 1), ("b", 2)], by decide +kernel, by decide +kernel, by decide +kernel⟩

end Verif.LabelMap
