import Verif.Lemmas.RegexLabel

/-!
# Labelling with regular expressions (C60)
-/

namespace Verif.RegexLabel

open Verif Verif.Spec.RegexLabel

variable {K S R T : Type} [DecidableEq K]

/-- Every text gets one row per character, and every row says which labels have a pattern matching the character. -/
theorem C60_votes_partial (comp : S → Option R) (mapping : PyDict K ℕ) (hwf : PyDict.WF mapping) (dl : K)
    (find : R → T → List (ℕ × ℕ)) (patterns : List (K × List (Pattern S R))) (len : T → ℕ) (data : List T) (hne : data ≠ [])
    (out : List (Option (List (List ℕ)))) (h : predict comp mapping dl find patterns len data = .ok out) :
    ∃ dflt ps, (dl, dflt) ∈ mapping ∧
      List.Forall₂ (fun (e : K × List (Pattern S R)) (e' : K × List R) => e'.1 = e.1 ∧
        List.Forall₂ (fun p r => ∃ s, p = .text s ∧ comp s = some r) e.2 e'.2) patterns ps ∧
      List.Forall₂ (fun text o => ∃ rows, o = some rows ∧ rows.length = len text ∧
        ∀ (i : ℕ) row, rows[i]? = some row → Votes mapping find ps text dflt i row) data out := by
  unfold predict at h
  split at h
  · exact nomatch h
  rename_i dflt hd
  split at h
  · exact nomatch h
  rename_i ps hps
  split at h
  · exact nomatch h
  rename_i preds last hf
  injection h with h
  obtain ⟨-, h2, h3, -, h5⟩ := fillAll_ok _ data _ _ _ _ (by simp) (Nat.zero_le _) hf
  dsimp only at h2 h3 h5
  have hlast := h2 hne
  have hout : out = preds.take data.length := by
    rw [← h]
    split_ifs with hh
    · congr 1; omega
    · rw [List.take_of_length_le (by omega)]
  rw [List.drop_zero, ← hout] at h5
  refine ⟨dflt, ps, PyDict.mem_of_get? hd, ?_, h5.imp ?_⟩
  · unfold compileAll at hps
    refine (Postprocess.mapM_forall₂ hps).imp ?_
    intro e e' he
    cases hm : List.mapM (compile comp) e.2 with
    | error err => rw [hm] at he; exact nomatch he
    | ok rs =>
      rw [hm] at he
      injection he with he
      subst he
      refine ⟨rfl, (Postprocess.mapM_forall₂ hm).imp ?_⟩
      intro p r hr
      unfold compile at hr
      split at hr
      · rename_i s
        split at hr
        · rename_i r' hc
          injection hr with hr
          subst hr
          exact ⟨s, rfl, hc⟩
        · exact nomatch hr
      · exact nomatch hr
  · rintro text o ⟨rows, ho, hr⟩
    unfold textRows at hr
    cases hx : found mapping find ps text with
    | error err => rw [hx] at hr; exact nomatch hr
    | ok xs =>
      rw [hx] at hr
      injection hr with hr
      subst hr
      refine ⟨_, ho, by rw [marks_length]; simp, fun i row hrow => ?_⟩
      have hmem := found_mem hx
      have hxs : ∀ x ∈ xs, x.1 < numLabels mapping := by
        intro x hx'
        obtain ⟨e, -, he, -⟩ := (hmem x).1 hx'
        exact id_lt he
      have hi : i < len text := by
        have := (List.getElem?_eq_some_iff.mp hrow).1
        rwa [marks_length, List.length_replicate] at this
      rw [marks_get, List.getElem?_replicate, if_pos hi, Option.map_some] at hrow
      injection hrow with hrow
      have hinv := row_inv (numLabels mapping) dflt i (id_lt hd) xs hxs
      rw [hrow] at hinv
      have hany : ∀ l, (∃ x ∈ xs, x.1 = l ∧ x.2.1 ≤ i ∧ i < x.2.2) ↔ ∃ k, (k, l) ∈ mapping ∧ Matched find ps text k i := by
        intro l
        constructor
        · rintro ⟨x, h1, rfl, h2⟩
          obtain ⟨e, he, hid, r, hr, hs⟩ := (hmem x).1 h1
          exact ⟨e.1, PyDict.mem_of_get? hid, e, he, rfl, r, hr, x.2, hs, h2⟩
        · rintro ⟨k, hk, e, he, rfl, r, hr, s, hs, h2⟩
          exact ⟨(l, s), (hmem _).2 ⟨e, he, PyDict.get?_of_mem hwf hk, r, hr, hs⟩, rfl, h2⟩
      have hcov : (∃ x ∈ xs, x.2.1 ≤ i ∧ i < x.2.2) → ∃ k, Matched find ps text k i := by
        rintro ⟨x, h1, h2⟩
        obtain ⟨e, he, hid, r, hr, hs⟩ := (hmem x).1 h1
        exact ⟨e.1, e, he, rfl, r, hr, x.2, hs, h2⟩
      have hkeys : ∀ e ∈ ps, ∃ id, PyDict.get? mapping e.1 = some id := by
        intro e he
        unfold found at hx
        cases hm : List.mapM (labelFound mapping find text) ps with
        | error err => rw [hm] at hx; exact nomatch hx
        | ok ys =>
          have := Postprocess.mapM_forall₂ hm
          clear hm hx hmem hxs hinv hany hcov hrow hps h hf h5 h2 h3
          induction this with
          | nil => exact nomatch he
          | cons h1 _ ih =>
            rcases List.mem_cons.mp he with rfl | he
            · unfold labelFound at h1
              split at h1
              · rename_i id hid
                exact ⟨id, hid⟩
              · exact nomatch h1
            · exact ih he
      refine ⟨fun k id hk => ?_, fun x hx' => ?_, fun l hl hne' => ?_, fun hno => ?_, fun hyes hnd => ?_, ?_⟩
      · rw [hinv.len]; exact id_lt (PyDict.get?_of_mem hwf hk)
      · obtain ⟨l, hl, he⟩ := List.mem_iff_getElem.mp hx'
        have := hinv.bit l (by rw [← hinv.len]; exact hl)
        rw [List.getElem?_eq_getElem hl, he] at this
        simpa using this
      · rw [hinv.vote l (by rw [← hinv.len]; exact hl) hne', hany]
      · exact hinv.background fun x hx' hc => by
          obtain ⟨k, hk⟩ := hcov ⟨x, hx', hc⟩
          exact hno k hk
      · refine hinv.foreground ?_ ?_
        · obtain ⟨k, e, he, rfl, r, hr, s, hs, h2⟩ := hyes
          obtain ⟨id, hid⟩ := hkeys e he
          exact ⟨(id, s), (hmem _).2 ⟨e, he, hid, r, hr, hs⟩, h2⟩
        · intro x hx' h1 h2 he
          obtain ⟨e, he', hid, r, hr, hs⟩ := (hmem x).1 hx'
          exact hnd e.1 (PyDict.mem_of_get? (he ▸ hid)) ⟨e, he', rfl, r, hr, x.2, hs, h1, h2⟩
      · obtain ⟨l, -, hl⟩ := hinv.some
        exact ⟨l, hl⟩

/-- Shares of votes: equal among the labels voted for, zero for the others, one in total. -/
theorem C60_split (preds : List (Option (List (List ℕ)))) (out : List (List (List ℚ))) (h : split preds = .ok out)
    (hv : ∀ rows, some rows ∈ preds → ∀ row ∈ rows, ∃ l : ℕ, row[l]? = some 1) :
    List.Forall₂ (fun p o => ∃ rows, p = some rows ∧ List.Forall₂ Shares rows o) preds out := by
  unfold split at h
  have := Postprocess.mapM_forall₂ h
  clear h
  induction this with
  | nil => exact .nil
  | @cons p o ps os h1 _ ih =>
    refine .cons ?_ (ih fun rows hr => hv rows (by simp [hr]))
    unfold splitOne at h1
    split at h1
    · rename_i rows
      injection h1 with h1
      subst h1
      refine ⟨rows, rfl, ?_⟩
      rw [List.forall₂_map_right_iff, List.forall₂_same]
      intro row hrow
      obtain ⟨l, hl⟩ := hv rows (by simp) row hrow
      exact normalize_shares (sum_pos hl)
    · exact nomatch h1

/-- With priorities, a character gets the first label of the order that was voted for, if the order holds one. -/
theorem C60_priority_partial (num : ℕ) (order : List ℕ) (preds : List (Option (List (List ℕ)))) (out : List (List ℕ))
    (h : priority num order preds = .ok out)
    (hv : ∀ rows, some rows ∈ preds → ∀ row ∈ rows, (∀ x ∈ row, x = 0 ∨ x = 1) ∧ row.length = num ∧ ∃ l ∈ order, row[l]? = some 1) :
    List.Forall₂ (fun p o => ∃ rows, p = some rows ∧ List.Forall₂ (fun row w => row[w]? = some 1 ∧
      ∃ k : ℕ, order[k]? = some w ∧ ∀ j l : ℕ, j < k → order[j]? = some l → row[l]? = some 0) rows o) preds out := by
  unfold priority at h
  have := Postprocess.mapM_forall₂ h
  clear h
  induction this with
  | nil => exact .nil
  | @cons p o ps os h1 _ ih =>
    refine .cons ?_ (ih fun rows hr => hv rows (by simp [hr]))
    unfold priorityOne at h1
    split at h1
    · rename_i rows
      split_ifs at h1 with hc
      injection h1 with h1
      subst h1
      refine ⟨rows, rfl, ?_⟩
      rw [List.forall₂_map_right_iff, List.forall₂_same]
      intro row hrow
      obtain ⟨hb, hlen, hex⟩ := hv rows (by simp) row hrow
      rw [not_or] at hc
      have hbit : ∀ l ∈ order, row[l]? = some 0 ∨ row[l]? = some 1 := by
        intro l hl
        have hlt : l < row.length := by
          rw [hlen]
          by_contra hge
          exact hc.2 (List.any_eq_true.mpr ⟨l, hl, by simpa using hge⟩)
        rw [List.getElem?_eq_getElem hlt]
        simpa using hb row[l] (List.getElem_mem hlt)
      obtain ⟨k, k1, k2, k3⟩ := pick_spec order row hbit hex
      exact ⟨k2, k, k1, k3⟩
    · exact nomatch h1

/-- Any order of all labels, as the random aggregation draws it, gives every character a label it has a vote for. -/
theorem C60_random (num : ℕ) (order : List ℕ) (hp : order.Perm (List.range num)) (preds : List (Option (List (List ℕ))))
    (out : List (List ℕ)) (h : priority num order preds = .ok out)
    (hv : ∀ rows, some rows ∈ preds → ∀ row ∈ rows, (∀ x ∈ row, x = 0 ∨ x = 1) ∧ row.length = num ∧ ∃ l : ℕ, row[l]? = some 1) :
    List.Forall₂ (fun p o => ∃ rows, p = some rows ∧ List.Forall₂ (fun row w => row[w]? = some 1) rows o) preds out := by
  refine (C60_priority_partial num order preds out h fun rows hr row hrow => ?_).imp ?_
  · obtain ⟨h1, h2, l, hl⟩ := hv rows hr row hrow
    exact ⟨h1, h2, l, hp.mem_iff.mpr (List.mem_range.mpr (by rw [← h2]; exact (List.getElem?_eq_some_iff.mp hl).1)), hl⟩
  · rintro p o ⟨rows, h1, h2⟩
    exact ⟨rows, h1, h2.imp fun row w hw => hw.1⟩

/-- A cell with characters gets the first label with the largest average share; the averages, which are also its confidences,
add up to one. -/
theorem C60_cells_partial (num : ℕ) (hn : 0 < num) (preds : List (Option (List (List ℕ)))) (out : List ℕ × List (Option (List ℚ)))
    (h : cells num preds = .ok out)
    (hv : ∀ rows, some rows ∈ preds → ∀ row ∈ rows, row.length = num ∧ ∃ l : ℕ, row[l]? = some 1) :
    out.1.length = preds.length ∧ out.2.length = preds.length ∧
    ∀ (j : ℕ) (rows : List (List ℕ)), preds[j]? = some (some rows) → rows ≠ [] →
      ∃ shares m w, List.Forall₂ Shares rows shares ∧ out.2[j]? = some (some m) ∧ out.1[j]? = some w ∧ FirstMax m w ∧ m.sum = 1 ∧
        m.length = num ∧ ∀ l : ℕ, l < num → m[l]? = some ((shares.map fun r => r.getD l 0).sum / (rows.length : ℚ)) := by
  unfold cells at h
  cases hs : split preds with
  | error e => rw [hs] at h; exact nomatch h
  | ok s =>
    rw [hs] at h
    injection h with h
    subst h
    have hsp := C60_split preds s hs fun rows hr row hrow => (hv rows hr row hrow).2
    have hlen := hsp.length_eq
    refine ⟨by simp [hlen], by simp [hlen], fun j rows hj hne => ?_⟩
    have hjl := (List.getElem?_eq_some_iff.mp hj).1
    have hjs : j < s.length := by omega
    have hrel := List.forall₂_iff_get.mp hsp
    have hj' : preds.get ⟨j, hjl⟩ = some rows := by
      have := List.getElem?_eq_getElem hjl
      rw [hj] at this
      injection this with this
      exact this.symm
    obtain ⟨rows', h1, h2⟩ := hrel.2 j hjl hjs
    rw [hj'] at h1
    injection h1 with h1
    subst h1
    have hsj : s[j]? = some (s.get ⟨j, hjs⟩) := List.getElem?_eq_getElem hjs
    generalize s.get ⟨j, hjs⟩ = shares at h2 hsj
    have hsne : shares ≠ [] := by
      intro he
      rw [he] at h2
      cases h2
      exact hne rfl
    have hsl : shares.length = rows.length := h2.length_eq.symm
    obtain ⟨m, hm⟩ : ∃ m, m = (List.range num).map fun l => (shares.map fun r => r.getD l 0).sum / ((shares.length : ℕ) : ℚ) :=
      ⟨_, rfl⟩
    have hmean : mean num shares = some m := by
      unfold mean
      rw [if_neg hsne, hm]
    have hml : m.length = num := by rw [hm]; simp
    refine ⟨shares, m, argmax m, h2, ?_, ?_, ?_, ?_, hml, fun l hl => ?_⟩
    · rw [List.getElem?_map, hsj, Option.map_some, hmean]
    · rw [List.getElem?_map, List.getElem?_map, hsj, Option.map_some, Option.map_some, hmean]
      rfl
    · exact argmax_spec m (List.ne_nil_of_length_pos (by omega))
    · refine mean_sum num shares hsne (fun r hr => ?_) m hmean
      have hr2 : ∀ {a : List (List ℕ)} {b : List (List ℚ)}, List.Forall₂ Shares a b → (∀ x ∈ a, x.length = num) → ∀ y ∈ b,
          y.length = num ∧ y.sum = 1 := by
        intro a b hab
        induction hab with
        | nil => intro _ y hy; exact nomatch hy
        | cons hxy _ ih =>
          intro hx y hy
          rcases List.mem_cons.mp hy with rfl | hy
          · exact ⟨hxy.len.trans (hx _ (by simp)), hxy.sum⟩
          · exact ih (fun x hx' => hx x (by simp [hx'])) y hy
      exact hr2 h2 (fun x hx => (hv rows (List.mem_of_getElem? hj) x hx).1) r hr
    · rw [hm, List.getElem?_map, List.getElem?_range hl, Option.map_some, hsl]

/-- A pattern is the range it matches, a text its length. -/
def rangeOf (r : ℕ × ℕ) (len : ℕ) : List (ℕ × ℕ) := if r.1 < min r.2 len then [(r.1, min r.2 len)] else []

/-- "Abc" with two overlapping patterns. -/
example : (predict some [("bg", 0), ("x", 1), ("y", 2)] "bg" rangeOf [("x", [.text (0, 2)]), ("y", [.text (1, 2)])] id
    [3, 0]).toOption = some [some [[0, 1, 0], [0, 1, 1], [1, 0, 0]], some []] := by decide +kernel

example : (cells 3 [some [[0, 1, 0], [0, 1, 1], [1, 0, 0]]]).toOption = some ([1], [some [1/3, 1/2, 1/6]]) := by decide +kernel

/-- No texts give one empty prediction instead of none, and asking for shares of it raises. -/
theorem C60_empty_fails (comp : S → Option R) (mapping : PyDict K ℕ) (dl : K) (find : R → T → List (ℕ × ℕ)) (len : T → ℕ)
    (h : PyDict.has mapping dl = true) :
    predict comp mapping dl find [] len [] = .ok [none] ∧ split [none] = .error .valueError := by
  refine ⟨?_, rfl⟩
  rw [PyDict.has_iff, PyDict.mem_keys_iff] at h
  unfold predict
  cases hd : PyDict.get? mapping dl with
  | none => rw [hd] at h; exact nomatch h
  | some d => rfl

/-- Patterns accepted in compiled form make every prediction raise. -/
theorem C60_compiled_fails (comp : S → Option R) (mapping : PyDict K ℕ) (dl k : K) (find : R → T → List (ℕ × ℕ)) (r : R)
    (len : T → ℕ) (data : List T) (h : PyDict.has mapping dl = true) :
    predict comp mapping dl find [(k, [.compiled r])] len data = .error .typeError := by
  rw [PyDict.has_iff, PyDict.mem_keys_iff] at h
  unfold predict
  cases hd : PyDict.get? mapping dl with
  | none => rw [hd] at h; exact nomatch h
  | some d => rfl

/-- Patterns of the default label: whether the default is voted for beside another label depends on the order of the labels. -/
theorem C60_default_fails : ∃ p q : String × List (Pattern (ℕ × ℕ) (ℕ × ℕ)),
    (predict some [("bg", 0), ("x", 1)] "bg" rangeOf [p, q] id [1]).toOption ≠
      (predict some [("bg", 0), ("x", 1)] "bg" rangeOf [q, p] id [1]).toOption :=
  ⟨("bg", [.text (0, 1)]), ("x", [.text (0, 1)]), by decide +kernel⟩

/-- An order of priority that leaves out the labels voted for gives a label without any vote. -/
theorem C60_order_fails : ∃ order row w, (priority 3 order [some [row]]).toOption = some [[w]] ∧ row[w]? = some 0 :=
  ⟨[0, 2], [0, 1, 0], 0, by decide +kernel, rfl⟩

/-- An empty cell gets the label with the number zero, whatever the default. -/
theorem C60_empty_cell_fails (num : ℕ) : cells num [some []] = .ok ([0], [none]) := rfl

end Verif.RegexLabel
