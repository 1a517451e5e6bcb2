import Verif.Lemmas.CsvHeader
import Verif.Lemmas.Postprocess
import Mathlib.Data.List.Induction

/-!
# Lemmas: recognising delimited text
-/

namespace Verif.Csv

open Verif Verif.Csv.Spec

theorem digits_spec : ∀ n : ℕ, 0 < n → IsDigits n (Nat.toDigits 10 n).length ∧ 0 < (Nat.toDigits 10 n).length := by
  intro n
  induction n using Nat.strong_induction_on with
  | _ n ih =>
    intro hn
    rw [Nat.toDigits_eq_if (by omega)]
    split_ifs with h
    · refine ⟨⟨?_, ?_⟩, ?_⟩ <;> simp <;> omega
    · obtain ⟨⟨h1, h2⟩, h3⟩ := ih (n / 10) (by omega) (by omega)
      rw [List.length_append, List.length_singleton]
      generalize (Nat.toDigits 10 (n / 10)).length = k at h1 h2 h3
      obtain ⟨k, rfl⟩ := Nat.exists_eq_succ_of_ne_zero (show k ≠ 0 by omega)
      refine ⟨⟨?_, ?_⟩, by omega⟩
      · simp only [Nat.succ_eq_add_one, Nat.add_sub_cancel] at h1 ⊢
        rw [pow_succ]; omega
      · rw [pow_succ]; omega

theorem isDigits_unique {n k : ℕ} (hn : 0 < n) (h : IsDigits n k) : k = (Nat.toDigits 10 n).length := by
  obtain ⟨⟨h1, h2⟩, h3⟩ := digits_spec n hn
  obtain ⟨h4, h5⟩ := h
  generalize (Nat.toDigits 10 n).length = m at h1 h2 h3
  have a : k - 1 < m := by
    by_contra hh
    have := Nat.pow_le_pow_right (show 0 < 10 by omega) (show m ≤ k - 1 by omega)
    omega
  have b : m - 1 < k := by
    by_contra hh
    have := Nat.pow_le_pow_right (show 0 < 10 by omega) (show k ≤ m - 1 by omega)
    omega
  omega

theorem cut_succ (d q c : Char) (cs : List Char) (i : ℕ) : Cut d q (c :: cs) (i + 1) ↔ Cut d q cs i := by
  unfold Cut
  rw [List.getElem?_cons_succ, List.drop_succ_cons]

theorem cut_zero (d q c : Char) (cs : List Char) : Cut d q (c :: cs) 0 ↔ c = d ∧ cs.count q % 2 = 0 := by
  unfold Cut
  simp [Nat.even_iff]

theorem separators_cons (d q c : Char) (cs : List Char) :
    separators d q (c :: cs) = separators d q cs + if c = d ∧ cs.count q % 2 = 0 then 1 else 0 := by
  unfold separators
  rw [List.length_cons, List.range_succ_eq_map, List.filter_cons, List.filter_map]
  have hf : ((fun i => decide (Cut d q (c :: cs) i)) ∘ Nat.succ) = fun i => decide (Cut d q cs i) := by
    funext i
    simp [cut_succ]
  rw [hf]
  by_cases h : c = d ∧ cs.count q % 2 = 0
  · rw [if_pos (by simpa [cut_zero] using h), if_pos h, List.length_cons, List.length_map]
  · rw [if_neg (by simpa [cut_zero] using h), if_neg h, List.length_map, Nat.add_zero]

theorem splitRow_length (d q : Char) (row : List Char) : (splitRow d q row).length = separators d q row + 1 := by
  induction row with
  | nil => simp [splitRow, separators]
  | cons c cs ih =>
    rw [splitRow, separators_cons]
    split_ifs with h
    · rw [List.length_cons, ih]
    · cases hs : splitRow d q cs with
      | nil => exact absurd hs (splitRow_ne_nil _ _ _)
      | cons x xs =>
        rw [hs] at ih
        simpa using ih

theorem lineCount_eq (env : Env) (delimiter quote : Option Char) (line : List Char) :
    lineCount env delimiter quote line = lineSeparators env delimiter quote line := by
  unfold lineCount lineSeparators
  cases delimiter <;> simp [splitRow_length]

theorem tally_spec (env : Env) (delimiter quote : Option Char) :
    ∀ (lines : List (List Char)) (t : Tally), ∃ seen, seen <+: lines ∧
      (tally env delimiter quote t lines).lines = t.lines + seen.length ∧
      (tally env delimiter quote t lines).empty + (active seen).length = t.empty + seen.length ∧
      (tally env delimiter quote t lines).counts =
        ((active seen).map (lineSeparators env delimiter quote)).foldl (fun d k => Counter.bump d k 1) t.counts ∧
      (seen = lines ∨ (1000 ≤ t.lines + seen.length ∧ ∃ l, seen.getLast? = some l ∧ 2 ≤ l.length)) ∧
      ∀ i, 999 ≤ t.lines + i → i + 1 < seen.length → ∀ l, seen[i]? = some l → l.length ≤ 1 := by
  intro lines
  induction lines with
  | nil =>
    intro t
    exact ⟨[], List.prefix_rfl, by simp [tally, active]⟩
  | cons l ls ih =>
    intro t
    rw [tally]
    by_cases h1 : l.length ≤ 1
    · rw [if_pos h1]
      obtain ⟨seen, hp, e1, e2, e3, e4, e5⟩ := ih { t with lines := t.lines + 1, empty := t.empty + 1 }
      dsimp only at e1 e2 e3 e4 e5
      have hact : active (l :: seen) = active seen := by
        unfold active
        rw [List.filter_cons, if_neg (by simpa using by omega)]
      refine ⟨l :: seen, by simpa using hp, ?_, ?_, ?_, ?_, ?_⟩
      · rw [e1, List.length_cons]; omega
      · rw [hact, e2, List.length_cons]; omega
      · rw [hact, e3]
      · rcases e4 with e4 | ⟨e4, x, hx, e6⟩
        · left; rw [e4]
        · right
          refine ⟨by rw [List.length_cons]; omega, x, ?_, e6⟩
          rw [List.getLast?_cons, hx]; rfl
      · intro i hi hlt x hx
        cases i with
        | zero => simp only [List.getElem?_cons_zero, Option.some_inj] at hx; subst hx; exact h1
        | succ i =>
          rw [List.getElem?_cons_succ] at hx
          rw [List.length_cons] at hlt
          exact e5 i (by omega) (by omega) x hx
    · rw [if_neg h1]
      have hact : ∀ seen, active (l :: seen) = l :: active seen := by
        intro seen
        unfold active
        rw [List.filter_cons, if_pos (by simpa using by omega)]
      by_cases h2 : 1000 ≤ t.lines + 1
      · dsimp only
        rw [if_pos h2]
        refine ⟨[l], by simp, rfl, ?_, ?_, Or.inr ⟨by simpa using h2, l, rfl, by omega⟩, ?_⟩
        · rw [hact]; simp [active]
        · rw [hact]; simp [active, lineCount_eq]
        · intro i _ hlt
          simp at hlt
      · dsimp only
        rw [if_neg h2]
        obtain ⟨seen, hp, e1, e2, e3, e4, e5⟩ :=
          ih ⟨t.lines + 1, t.empty, Counter.bump t.counts (lineCount env delimiter quote l) 1⟩
        dsimp only at e1 e2 e3 e4 e5
        refine ⟨l :: seen, by simpa using hp, ?_, ?_, ?_, ?_, ?_⟩
        · rw [e1, List.length_cons]; omega
        · rw [hact, List.length_cons, List.length_cons, ← Nat.add_assoc, e2]; omega
        · rw [hact, e3, List.map_cons, List.foldl_cons, lineCount_eq]
        · rcases e4 with e4 | ⟨e4, x, hx, e6⟩
          · left; rw [e4]
          · right
            refine ⟨by rw [List.length_cons]; omega, x, ?_, e6⟩
            rw [List.getLast?_cons, hx]; rfl
        · intro i hi hlt x hx
          cases i with
          | zero => omega
          | succ i =>
            rw [List.getElem?_cons_succ] at hx
            rw [List.length_cons] at hlt
            exact e5 i (by omega) (by omega) x hx

/-! ### Most common -/

theorem ofList_order (ns : List ℕ) : (PyDict.keys (Counter.ofList ns)).Pairwise fun a b => ns.idxOf a < ns.idxOf b := by
  induction ns using List.reverseRecOn with
  | nil => simp [Counter.ofList, PyDict.keys]
  | append_singleton l x ih =>
    have h1 : Counter.ofList (l ++ [x]) = Counter.bump (Counter.ofList l) x 1 := by simp [Counter.ofList, List.foldl_append]
    have ih' : (PyDict.keys (Counter.ofList l)).Pairwise fun a b => (l ++ [x]).idxOf a < (l ++ [x]).idxOf b := by
      refine ih.imp_of_mem ?_
      intro a b ha hb h
      rw [Postprocess.ofList_keys] at ha hb
      rwa [List.idxOf_append_of_mem ha, List.idxOf_append_of_mem hb]
    rw [h1]
    unfold Counter.bump
    rw [PyDict.keys_set]
    split_ifs with hm
    · exact ih'
    · rw [List.pairwise_append]
      refine ⟨ih', by simp, ?_⟩
      intro a ha b hb
      rw [List.mem_singleton] at hb
      subst hb
      rw [Postprocess.ofList_keys] at ha
      have hb : b ∉ l := by
        intro hb
        exact hm ((Postprocess.ofList_keys l b).2 hb)
      rw [List.idxOf_append_of_mem ha, List.idxOf_append_of_notMem hb]
      have := List.idxOf_lt_length_of_mem ha
      omega

theorem mostCommon_some (l : List (ℕ × ℕ)) :
    ∀ b0, ∃ b, l.foldl mostCommonCount (some b0) = some b ∧ ∃ A B, b0 :: l = A ++ b :: B ∧ (∀ x ∈ A, x.2 < b.2) ∧ ∀ x ∈ B, x.2 ≤ b.2 := by
  induction l with
  | nil => intro b0; exact ⟨b0, rfl, [], [], rfl, by simp, by simp⟩
  | cons y l ih =>
    intro b0
    rw [List.foldl_cons]
    have he : mostCommonCount (some b0) y = if b0.2 < y.2 then some y else some b0 := rfl
    rw [he]
    split_ifs with h
    · obtain ⟨b, e, A, B, hl, hA, hB⟩ := ih y
      refine ⟨b, e, b0 :: A, B, by rw [hl]; rfl, ?_, hB⟩
      have hyb : y.2 ≤ b.2 := by
        have : y ∈ A ++ b :: B := by rw [← hl]; simp
        rcases List.mem_append.1 this with h' | h'
        · exact (hA y h').le
        · rcases List.mem_cons.1 h' with rfl | h'
          · exact le_rfl
          · exact hB y h'
      intro x hx
      rcases List.mem_cons.1 hx with rfl | hx
      · omega
      · exact hA x hx
    · obtain ⟨b, e, A, B, hl, hA, hB⟩ := ih b0
      refine ⟨b, e, ?_⟩
      cases A with
      | nil =>
        rw [List.nil_append, List.cons.injEq] at hl
        obtain ⟨rfl, rfl⟩ := hl
        refine ⟨[], y :: l, rfl, by simp, ?_⟩
        intro x hx
        rcases List.mem_cons.1 hx with rfl | hx
        · omega
        · exact hB x hx
      | cons a A =>
        rw [List.cons_append, List.cons.injEq] at hl
        obtain ⟨rfl, rfl⟩ := hl
        refine ⟨b0 :: y :: A, B, rfl, ?_, hB⟩
        intro x hx
        have hb0 := hA b0 (by simp)
        rcases List.mem_cons.1 hx with rfl | hx
        · exact hb0
        · rcases List.mem_cons.1 hx with rfl | hx
          · omega
          · exact hA x (by simp [hx])

theorem mode_iff (ns : List ℕ) (n : ℕ) :
    (∃ b, (Counter.ofList ns).foldl mostCommonCount none = some b ∧ b.1 = n) ↔ IsMode ns n := by
  have hwf := Counter.wf_ofList ns
  have hval : ∀ x ∈ Counter.ofList ns, x.2 = ns.count x.1 := by
    intro x hx
    rw [← Postprocess.at0_mem hwf hx, Counter.at0_ofList, List.count]
    congr 1
  have hmode : ∀ b, (Counter.ofList ns).foldl mostCommonCount none = some b → IsMode ns b.1 := by
    intro b hb
    cases hd : Counter.ofList ns with
    | nil => rw [hd] at hb; simp at hb
    | cons b0 l =>
      rw [hd, List.foldl_cons] at hb
      obtain ⟨b', e, A, B, hl, hA, hB⟩ := mostCommon_some l b0
      have : b' = b := by
        have h0 : mostCommonCount none b0 = some b0 := rfl
        rw [h0, e] at hb
        exact Option.some_inj.1 hb
      subst this
      rw [← hd] at hl
      have hmem : b' ∈ Counter.ofList ns := by rw [hl]; simp
      have hkey : b'.1 ∈ ns := (Postprocess.ofList_keys ns b'.1).1 (List.mem_map.2 ⟨b', hmem, rfl⟩)
      have hx : ∀ m ∈ ns, ∃ x ∈ Counter.ofList ns, x.1 = m := by
        intro m hm
        exact List.mem_map.1 ((Postprocess.ofList_keys ns m).2 hm)
      refine ⟨hkey, ?_, ?_⟩
      · intro m
        by_cases hm : m ∈ ns
        · obtain ⟨x, hxm, rfl⟩ := hx m hm
          rw [← hval x hxm, ← hval b' hmem]
          rw [hl] at hxm
          rcases List.mem_append.1 hxm with h | h
          · exact (hA x h).le
          · rcases List.mem_cons.1 h with rfl | h
            · exact le_rfl
            · exact hB x h
        · rw [List.count_eq_zero_of_not_mem hm]
          omega
      · intro m hm hc
        obtain ⟨x, hxm, rfl⟩ := hx m hm
        rw [← hval x hxm, ← hval b' hmem] at hc
        have ho := ofList_order ns
        unfold PyDict.keys at ho
        rw [hl] at hxm ho
        rw [List.map_append, List.map_cons] at ho
        rcases List.mem_append.1 hxm with h | h
        · have := hA x h
          omega
        · rcases List.mem_cons.1 h with rfl | h
          · exact le_rfl
          · exact ((List.pairwise_cons.1 (List.pairwise_append.1 ho).2.1).1 _ (List.mem_map.2 ⟨x, h, rfl⟩)).le
  constructor
  · rintro ⟨b, hb, rfl⟩
    exact hmode b hb
  · intro hn
    cases hf : (Counter.ofList ns).foldl mostCommonCount none with
    | none =>
      exfalso
      cases hd : Counter.ofList ns with
      | nil =>
        have := (Postprocess.ofList_keys ns n).2 hn.1
        rw [hd] at this
        simp [PyDict.keys] at this
      | cons b0 l =>
        rw [hd, List.foldl_cons] at hf
        obtain ⟨b', e, -⟩ := mostCommon_some l b0
        have h0 : mostCommonCount none b0 = some b0 := rfl
        rw [h0, e] at hf
        simp at hf
    | some b =>
      refine ⟨b, rfl, ?_⟩
      obtain ⟨h1, h2, h3⟩ := hmode b hf
      obtain ⟨k1, k2, k3⟩ := hn
      have hc : ns.count n = ns.count b.1 := le_antisymm (h2 n) (k2 b.1)
      have := h3 n k1 hc
      have := k3 b.1 h1 hc.symm
      have hidx : ns.idxOf b.1 = ns.idxOf n := by omega
      exact (List.idxOf_inj h1).1 hidx

theorem mode_count {ns : List ℕ} {b : ℕ × ℕ} (h : (Counter.ofList ns).foldl mostCommonCount none = some b) : b.2 = ns.count b.1 := by
  have hwf := Counter.wf_ofList ns
  cases hd : Counter.ofList ns with
  | nil => rw [hd] at h; simp at h
  | cons b0 l =>
    rw [hd, List.foldl_cons] at h
    obtain ⟨b', e, A, B, hl, -⟩ := mostCommon_some l b0
    have h0 : mostCommonCount none b0 = some b0 := rfl
    rw [h0, e, Option.some_inj] at h
    subst h
    have hx : b' ∈ Counter.ofList ns := by rw [hd, hl]; simp
    rw [← Postprocess.at0_mem hwf hx, Counter.at0_ofList, List.count]
    congr 1

theorem ratio_ge {a dev c : ℕ} (ha : 0 < a) : (((a : ℚ) - (dev : ℚ)) / (a : ℚ) ≤ ratio c a) ↔ a ≤ c + dev := by
  unfold ratio
  have h1 : (0 : ℚ) < a := by exact_mod_cast ha
  rw [div_le_div_iff_of_pos_right h1]
  constructor
  · intro h
    have : (a : ℚ) ≤ c + dev := by linarith
    exact_mod_cast this
  · intro h
    have : (a : ℚ) ≤ c + dev := by exact_mod_cast h
    linarith

theorem decideCsv_iff (env : Env) (delimiter quote : Option Char) (lines : List (List Char)) :
    ∃ seen, Counted lines seen ∧
      (decideCsv delimiter.isSome (tally env delimiter quote {} lines) = true ↔
        4 ≤ (active seen).length ∧ ∃ n, IsMode ((active seen).map (lineSeparators env delimiter quote)) n ∧
          (0 < n ∨ delimiter = none) ∧
          (active seen).length ≤ ((active seen).map (lineSeparators env delimiter quote)).count n +
            2 ^ ((Nat.toDigits 10 seen.length).length - 1)) := by
  obtain ⟨seen, hp, e1, e2, e3, e4, e5⟩ := tally_spec env delimiter quote lines {}
  generalize tally env delimiter quote {} lines = t at e1 e2 e3
  dsimp only at e1 e2 e3 e4 e5
  have e3' : t.counts = Counter.ofList ((active seen).map (lineSeparators env delimiter quote)) := e3
  simp only [Nat.zero_add] at e1 e2 e4 e5
  refine ⟨seen, ⟨hp, e4, e5⟩, ?_⟩
  have hact : t.lines - t.empty = (active seen).length := by omega
  unfold decideCsv
  rw [hact, e1, e3']
  by_cases h4 : (active seen).length ≤ 3
  · rw [if_pos h4]
    simp only [Bool.false_eq_true, false_iff, not_and]
    intro h; omega
  · rw [if_neg h4]
    dsimp only
    generalize hns : (active seen).map (lineSeparators env delimiter quote) = ns
    have hlen : ns.length = (active seen).length := by rw [← hns, List.length_map]
    rw [Postprocess.total_ofList, hlen]
    have hm := mode_iff ns
    have hc := @mode_count ns
    cases hf : (Counter.ofList ns).foldl mostCommonCount none with
    | none =>
      simp only [Bool.false_eq_true, false_iff, not_and]
      rintro - ⟨n, hn, -⟩
      obtain ⟨b, hb, -⟩ := (hm n).2 hn
      rw [hf] at hb
      simp at hb
    | some b =>
      dsimp only
      rw [Bool.and_eq_true, decide_eq_true_eq, decide_eq_true_eq, ratio_ge (by omega), hc hf]
      have hd : delimiter.isSome = false ↔ delimiter = none := by cases delimiter <;> simp
      rw [hd]
      constructor
      · rintro ⟨h1, h2⟩
        exact ⟨by omega, b.1, (hm b.1).1 ⟨b, hf, rfl⟩, h1, h2⟩
      · rintro ⟨-, n, hn, h1, h2⟩
        obtain ⟨b', hb', rfl⟩ := (hm n).2 hn
        rw [hf, Option.some_inj] at hb'
        subst hb'
        exact ⟨h1, h2⟩

end Verif.Csv
