import Verif.Spec.Reservoir
import Mathlib.Tactic.SplitIfs
import Mathlib.Data.List.Nodup
import Mathlib.Data.List.Basic
import Mathlib.Data.List.Perm.Subperm
import Mathlib.Data.Option.Basic

/-!
# C43: sampling rows
-/

namespace Verif.Props.Reservoir

open Verif Verif.Reservoir Verif.Spec.Reservoir

variable {α : Type}

/-- The sampled rows during the loop: slot `j` holds the row at position `ps[j]`, all positions are among the first `c`. -/
structure Inv (rows : List α) (c : ℕ) (values : List α) (indices ps : List ℕ) : Prop where
  len : indices.length = ps.length
  distinct : ps.Nodup
  slots : indices.Nodup
  inside : ∀ j ∈ indices, j < values.length
  seen : ∀ p ∈ ps, p < c
  value : ∀ j, j < ps.length → ∀ k p, indices[j]? = some k → ps[j]? = some p → values[k]? = rows[p]?

theorem nodup_set {l : List ℕ} (h : l.Nodup) {i x : ℕ} (hx : x ∉ l) : (l.set i x).Nodup := by
  induction l generalizing i with
  | nil => simp
  | cons a l ih =>
    rw [List.nodup_cons] at h
    rw [List.mem_cons, not_or] at hx
    cases i with
    | zero => rw [List.set_cons_zero, List.nodup_cons]; exact ⟨hx.2, h.2⟩
    | succ i =>
      rw [List.set_cons_succ, List.nodup_cons]
      refine ⟨fun hm => ?_, ih h.2 hx.2⟩
      rcases List.mem_or_eq_of_mem_set hm with hm | rfl
      · exact h.1 hm
      · exact hx.1 rfl

theorem getElem?_inj {l : List ℕ} (h : l.Nodup) {i j k : ℕ} (hi : l[i]? = some k) (hj : l[j]? = some k) : i = j := by
  obtain ⟨hi', hi⟩ := List.getElem?_eq_some_iff.1 hi
  obtain ⟨hj', hj⟩ := List.getElem?_eq_some_iff.1 hj
  exact (List.Nodup.getElem_inj_iff h).1 (hi.trans hj.symm)

theorem loop_inv (dummy : α) (draws : ℕ → Draw) (rows : List α) (n : ℕ) (hp : Proper n draws) :
    ∀ (m i c : ℕ) (values : List α) (indices ps : List ℕ), (rows.drop c).length = m → Inv rows c values indices ps →
    (rows.length ≤ c ∨ ps.length = n) →
    ∃ c' values' indices' ps', loop dummy draws i values indices (rows.drop c) = .ok (values', indices') ∧
      Inv rows c' values' indices' ps' ∧ ps'.length = ps.length ∧ (rows.length ≤ c → indices' = indices ∧ values' = values) := by
  intro m
  induction m using Nat.strongRecOn with
  | ind m ih =>
    intro i c values indices ps hm hi hn
    unfold loop
    obtain ⟨h1, h2⟩ := hp i
    cases hd : draws i with
    | stop => exact ⟨c, values, indices, ps, rfl, hi, rfl, fun _ => ⟨rfl, rfl⟩⟩
    | raise e => exact absurd hd (h1 e)
    | skip s slot =>
      dsimp only
      split
      · exact ⟨c, values, indices, ps, rfl, hi, rfl, fun _ => ⟨rfl, rfl⟩⟩
      · rename_i new rest' hrest
        rw [List.drop_drop] at hrest
        have hlt : c + s < rows.length := by
          by_contra hge
          rw [List.drop_eq_nil_of_le (by omega)] at hrest
          cases hrest
        have hnew : rows[c + s]? = some new := by
          have := congrArg List.head? hrest
          simpa [List.head?_drop] using this
        have hrest' : rest' = rows.drop (c + s + 1) := by
          have := congrArg List.tail hrest
          simpa [List.tail_drop] using this.symm
        have hpn : ps.length = n := by
          rcases hn with h | h
          · omega
          · exact h
        have hslot : slot < ps.length := hpn ▸ h2 _ _ hd
        have hsl : slot < indices.length := hi.len ▸ hslot
        rw [List.getElem?_eq_getElem hsl]
        dsimp only
        have hold : indices[slot] < values.length := hi.inside _ (List.getElem_mem hsl)
        subst hrest'
        have hinv : Inv rows (c + s + 1) (values.set indices[slot] dummy ++ [new]) (indices.set slot values.length)
            (ps.set slot (c + s)) := by
          constructor
          · simp [hi.len]
          · exact nodup_set hi.distinct fun hm => by have := hi.seen _ hm; omega
          · exact nodup_set hi.slots fun hm => absurd (hi.inside _ hm) (Nat.lt_irrefl _)
          · intro j hj
            rw [List.length_append, List.length_set, List.length_singleton]
            rcases List.mem_or_eq_of_mem_set hj with hj | rfl
            · have := hi.inside _ hj; omega
            · omega
          · intro p hpm
            rcases List.mem_or_eq_of_mem_set hpm with hpm | rfl
            · have := hi.seen _ hpm; omega
            · omega
          · intro j hj k p hk hpj
            rw [List.length_set] at hj
            rw [List.getElem?_set] at hk hpj
            by_cases hjs : slot = j
            · subst hjs
              rw [if_pos rfl, if_pos hsl] at hk
              rw [if_pos rfl, if_pos hslot] at hpj
              cases hk; cases hpj
              rw [hnew, List.getElem?_append_right (by simp)]
              simp
            · rw [if_neg hjs] at hk hpj
              have hkv := hi.inside k (List.mem_of_getElem? hk)
              have hne : indices[slot] ≠ k := by
                intro h
                refine hjs (getElem?_inj hi.slots (k := k) ?_ hk)
                rw [List.getElem?_eq_getElem hsl, h]
              rw [List.getElem?_append_left (by simpa using hkv), List.getElem?_set_ne hne]
              exact hi.value j hj k p hk hpj
        obtain ⟨c', values', indices', ps', e1, e2, e3, -⟩ :=
          ih (rows.drop (c + s + 1)).length (by rw [List.length_drop] at hm ⊢; omega) (i + 1) (c + s + 1) _ _ _ rfl hinv
            (.inr (by rw [List.length_set]; exact hpn))
        exact ⟨c', values', indices', ps', e1, e2, by rw [e3, List.length_set], fun h => by omega⟩

theorem pick_ok (rows values : List α) : ∀ (indices ps : List ℕ), indices.length = ps.length →
    (∀ j ∈ indices, j < values.length) →
    (∀ j, j < ps.length → ∀ k p, indices[j]? = some k → ps[j]? = some p → values[k]? = rows[p]?) →
    ∃ out, pick values indices = .ok out ∧ out.map some = ps.map fun p => rows[p]? := by
  intro indices
  induction indices with
  | nil =>
    intro ps hl _ _
    cases ps with
    | nil => exact ⟨[], rfl, rfl⟩
    | cons p ps => cases hl
  | cons k indices ih =>
    intro ps hl hin hv
    cases ps with
    | nil => cases hl
    | cons p ps =>
      obtain ⟨out, e1, e2⟩ := ih ps (by simpa using hl) (fun j hj => hin j (List.mem_cons_of_mem _ hj))
        (fun j hj k p hk hp => hv (j + 1) (by simpa using hj) k p (by simpa using hk) (by simpa using hp))
      have hk := hin k List.mem_cons_self
      have h0 := hv 0 (by simp) k p rfl rfl
      rw [List.getElem?_eq_getElem hk] at h0
      refine ⟨values[k] :: out, ?_, ?_⟩
      · simp only [pick, List.getElem?_eq_getElem hk, e1]
      · rw [List.map_cons, List.map_cons, e2, h0]

theorem pick_range (values : List α) : pick values (List.range values.length) = .ok values := by
  obtain ⟨out, h1, h2⟩ := pick_ok values values (List.range values.length) (List.range values.length) rfl
    (fun j hj => List.mem_range.1 hj) (fun j _ k p hk hp => by rw [hk] at hp; cases hp; rfl)
  rw [h1]
  congr 1
  have : (List.range values.length).map (fun p => values[p]?) = values.map some := by
    apply List.ext_getElem
    · simp
    · intro i hi hi'
      simp at hi
      simp [hi]
  rw [this] at h2
  exact List.map_injective_iff.2 (Option.some_injective _) h2

/-- C43: sampling `n` of `m` rows returns `min n m` rows at distinct positions, all rows in order if `m ≤ n`, for all
draws. -/
theorem C43_reservoir (dummy : α) (draws : ℕ → Draw) (n : ℕ) (rows : List α) (hn : 0 < n) (hp : Proper n draws) :
    ∃ out, reservoir dummy draws n rows = .ok out ∧ out.length = min n rows.length ∧ Sample rows out ∧
      (rows.length ≤ n → out = rows) := by
  have hlen : (rows.take n).length = min n rows.length := List.length_take
  have hinv : Inv rows (min n rows.length) (rows.take n) (List.range (rows.take n).length) (List.range (rows.take n).length) := by
    constructor
    · rfl
    · exact List.nodup_range
    · exact List.nodup_range
    · exact fun j hj => List.mem_range.1 hj
    · intro p hpm; rw [← hlen]; exact List.mem_range.1 hpm
    · intro j hj k p hk hpj
      rw [hk] at hpj; cases hpj
      have := List.mem_range.1 (List.mem_of_getElem? hk)
      rw [List.getElem?_take_of_lt (by omega)]
  have hdrop : rows.drop n = rows.drop (min n rows.length) := by
    rcases Nat.le_total n rows.length with h | h
    · rw [Nat.min_eq_left h]
    · rw [Nat.min_eq_right h, List.drop_eq_nil_of_le h, List.drop_length]
  obtain ⟨c', values, indices, ps, e1, e2, e3, e4⟩ := loop_inv dummy draws rows n hp _ 0 _ _ _ _ rfl hinv (by
    rw [List.length_range, hlen]
    rcases Nat.le_total n rows.length with h | h
    · right; omega
    · left; omega)
  obtain ⟨out, h1, h2⟩ := pick_ok rows values indices ps e2.len e2.inside e2.value
  have hres : reservoir dummy draws n rows = .ok out := by
    unfold reservoir
    rw [if_neg (by omega), hdrop, e1]
    exact h1
  refine ⟨out, hres, ?_, ⟨ps, e2.distinct, h2⟩, fun hle => ?_⟩
  · have := congrArg List.length h2
    rw [List.length_map, List.length_map, e3, List.length_range, hlen] at this
    exact this
  · obtain ⟨e5, e6⟩ := e4 (by omega)
    rw [e5, e6, pick_range, Except.ok.injEq, List.take_of_length_le hle] at h1
    exact h1.symm

/-- A number of rows that is zero raises. -/
theorem C43_zero (dummy : α) (draws : ℕ → Draw) (rows : List α) : reservoir dummy draws 0 rows = .error .zeroDivision := rfl

theorem filterMap_range (rows : List α) : (List.range rows.length).filterMap (fun p => rows[p]?) = rows := by
  induction rows with
  | nil => rfl
  | cons r rows ih =>
    rw [List.length_cons, List.range_succ_eq_map, List.filterMap_cons, List.filterMap_map]
    simp [ih]

/-- A sample as such: after reordering it is the file with rows left out, so no row occurs more often than in the file. -/
theorem C43_subperm {rows out : List α} (h : Sample rows out) : ∃ kept, kept.Sublist rows ∧ out.Perm kept := by
  obtain ⟨ps, hn, he⟩ := h
  have hout : out = ps.filterMap fun p => rows[p]? := by
    have := congrArg (List.filterMap id) he
    rw [List.filterMap_map, List.filterMap_map] at this
    simpa [Function.comp_def] using this
  have hsub : ps ⊆ List.range rows.length := by
    intro p hp
    have : rows[p]? ∈ out.map some := he ▸ List.mem_map.2 ⟨p, hp, rfl⟩
    obtain ⟨x, -, hx⟩ := List.mem_map.1 this
    exact List.mem_range.2 (List.getElem?_eq_some_iff.1 hx.symm).1
  obtain ⟨l, hl, hs⟩ := List.subperm_of_subset hn hsub
  refine ⟨l.filterMap fun p => rows[p]?, ?_, ?_⟩
  · have := hs.filterMap fun p => rows[p]?
    rwa [filterMap_range] at this
  · rw [hout]; exact hl.symm.filterMap _

/-! ### The text given to pandas -/

theorem linesOf_line {l : List Char} (h : '\n' ∉ l) (t : List Char) : linesOf (l ++ '\n' :: t) = l :: linesOf t := by
  induction l with
  | nil => simp [linesOf]
  | cons c l ih =>
    rw [List.mem_cons, not_or] at h
    rw [List.cons_append, linesOf, if_neg (fun e => h.1 e.symm), ih h.2]

theorem joinLines_ok (ls : List (List Char)) (h : ∀ l ∈ ls, Line l) :
    ∃ t, joinLines ls = .ok t ∧ linesOf t = ls.map content := by
  induction ls with
  | nil => exact ⟨[], rfl, rfl⟩
  | cons l ls ih =>
    obtain ⟨t, e1, e2⟩ := ih fun l hl => h l (List.mem_cons_of_mem _ hl)
    obtain ⟨hne, hnl⟩ := h l List.mem_cons_self
    have hlast : l = l.dropLast ++ [l.getLast hne] := (List.dropLast_append_getLast hne).symm
    have hg : l.getLast? = some (l.getLast hne) := List.getLast?_eq_some_getLast hne
    simp only [joinLines, endLine, hg, e1]
    refine ⟨_, rfl, ?_⟩
    rw [List.map_cons, ← e2]
    unfold content
    rw [hg]
    by_cases hc : l.getLast hne = '\n'
    · rw [if_pos hc, if_pos (by rw [hc])]
      conv_lhs => rw [hlast, hc]
      rw [List.append_assoc]
      exact linesOf_line hnl t
    · rw [if_neg hc, if_neg (by simpa using hc), List.append_assoc]
      refine linesOf_line (fun hm => ?_) t
      rw [hlast, List.mem_append, List.mem_singleton] at hm
      rcases hm with hm | hm
      · exact hnl hm
      · exact hc hm.symm

/-- C43 for the text given to pandas: the lines are the header line, if there is one, and `min n m` of the `m` lines after
it, at distinct positions; the header is at the start. -/
theorem C43_text (draws : ℕ → Draw) (header : Option ℕ) (n : ℕ) (lines : List (List Char)) (hl : ∀ l ∈ lines, Line l)
    (hn : 0 < n) (hp : Proper n draws) (hh : ∀ h, header = some h → h < lines.length) :
    ∃ text pos out, rsample draws header n lines = .ok (text, pos) ∧
      (header = none → pos = none ∧ linesOf text = out.map content ∧ out.length = min n lines.length ∧ Sample lines out) ∧
      (∀ h line, header = some h → lines[h]? = some line → pos = some 0 ∧ linesOf text = content line :: out.map content ∧
        out.length = min n (lines.length - (h + 1)) ∧ Sample (lines.drop (h + 1)) out) := by
  have hmem : ∀ (rows out : List (List Char)), Sample rows out → ∀ l ∈ out, l ∈ rows := by
    intro rows out hs l hl
    obtain ⟨kept, h1, h2⟩ := C43_subperm hs
    exact h1.subset (h2.mem_iff.1 hl)
  cases header with
  | none =>
    obtain ⟨out, h1, h2, h3, -⟩ := C43_reservoir "None".toList draws n lines hn hp
    obtain ⟨t, e1, e2⟩ := joinLines_ok out fun l h => hl l (hmem _ _ h3 l h)
    refine ⟨t, none, out, ?_, fun _ => ⟨rfl, e2, h2, h3⟩, (fun _ _ h => nomatch h)⟩
    simp only [rsample, h1, e1, Except.map]
  | some h =>
    have hlt := hh h rfl
    obtain ⟨out, h1, h2, h3, -⟩ := C43_reservoir "None".toList draws n (lines.drop (h + 1)) hn hp
    obtain ⟨t, e1, e2⟩ := joinLines_ok (lines[h] :: out) fun l hm => by
      rcases List.mem_cons.1 hm with rfl | hm
      · exact hl _ (List.getElem_mem hlt)
      · exact hl l (List.mem_of_mem_drop (hmem _ _ h3 l hm))
    refine ⟨t, some 0, out, ?_, (fun h => nomatch h), ?_⟩
    · simp only [rsample, List.getElem?_eq_getElem hlt, h1, e1, Except.map]
    · intro h' line hh' hline
      cases hh'
      rw [List.getElem?_eq_getElem hlt] at hline
      cases hline
      exact ⟨rfl, e2, by rw [h2, List.length_drop], h3⟩

/-! ### Parquet -/

theorem filterMask_true (rows : List α) : filterMask rows (List.replicate rows.length true) = rows := by
  induction rows with
  | nil => rfl
  | cons r rows ih => rw [List.length_cons, List.replicate_succ, filterMask, ih]

theorem filterMask_sublist (rows : List α) (m : List Bool) : (filterMask rows m).Sublist rows := by
  induction rows generalizing m with
  | nil => cases m <;> simp [filterMask]
  | cons r rows ih =>
    cases m with
    | nil => simp [filterMask]
    | cons b m =>
      cases b
      · exact (ih m).cons _
      · exact (ih m).cons_cons _

theorem filterMask_length (rows : List α) (m : List Bool) (h : m.length = rows.length) :
    (filterMask rows m).length = m.count true := by
  induction rows generalizing m with
  | nil => cases m with
    | nil => rfl
    | cons b m => cases h
  | cons r rows ih =>
    cases m with
    | nil => cases h
    | cons b m =>
      have := ih m (by simpa using h)
      cases b <;> simp [filterMask, this]

theorem count_set {m : List Bool} {i : ℕ} (h : m[i]? = some false) : (m.set i true).count true = m.count true + 1 := by
  induction m generalizing i with
  | nil => cases h
  | cons b m ih =>
    cases i with
    | zero => cases h; simp
    | succ i => rw [List.set_cons_succ, List.count_cons, List.count_cons, ih (by simpa using h)]; omega

theorem mask_count (sample : List ℕ) : ∀ (m : List Bool), sample.Nodup → (∀ i ∈ sample, m[i]? = some false) →
    (sample.foldl (fun m i => m.set i true) m).length = m.length ∧
    (sample.foldl (fun m i => m.set i true) m).count true = m.count true + sample.length := by
  induction sample with
  | nil => intro m _ _; exact ⟨rfl, rfl⟩
  | cons i sample ih =>
    intro m hn hf
    rw [List.nodup_cons] at hn
    obtain ⟨h1, h2⟩ := ih (m.set i true) hn.2 (fun j hj => by
      rw [List.getElem?_set_ne (fun e : i = j => hn.1 (e ▸ hj))]; exact hf j (List.mem_cons_of_mem _ hj))
    rw [List.foldl_cons, h1, h2, count_set (hf i List.mem_cons_self), List.length_set, List.length_cons]
    exact ⟨rfl, by omega⟩

/-- Sampling parquet files: `min n m` rows, in the order of the file, for every sample without replacement. -/
theorem C43_parquet (sample : List ℕ) (n : ℕ) (rows : List α) (hs : sample.Nodup) (hl : sample.length = n)
    (hr : ∀ i ∈ sample, i < rows.length) :
    (sampleParquet sample n rows).Sublist rows ∧ (sampleParquet sample n rows).length = min n rows.length := by
  unfold sampleParquet
  split_ifs with h
  · obtain ⟨h1, h2⟩ := mask_count sample (List.replicate rows.length false) hs fun i hi => by
      rw [List.getElem?_replicate, if_pos (hr i hi)]
    refine ⟨filterMask_sublist _ _, ?_⟩
    rw [filterMask_length _ _ (by rw [mask, h1, List.length_replicate]), mask, h2]
    rw [List.count_replicate, hl]
    simp
    omega
  · rw [filterMask_true]
    exact ⟨List.Sublist.refl _, by omega⟩

/-! ### Non-trivial cases -/

/-- Skip one row and replace the first sampled row, then the second, and so on. -/
def demo : ℕ → Draw := fun i => .skip 1 (i % 2)

theorem demo_proper : Proper 2 demo := by
  intro i
  refine ⟨fun e h => Draw.noConfusion h, fun rows slot h => ?_⟩
  cases h
  exact Nat.mod_lt _ (by decide)

example : (reservoir 0 demo 2 [10, 11, 12, 13, 14, 15, 16]).toOption = some [13, 15] := by decide +kernel

example : ∃ out, reservoir 0 demo 2 [10, 11, 12, 13, 14, 15, 16] = .ok out ∧ Sample [10, 11, 12, 13, 14, 15, 16] out :=
  (C43_reservoir 0 demo 2 _ (by decide) demo_proper).imp fun _ h => ⟨h.1, h.2.2.1⟩

example : sampleParquet [3, 1] 2 [10, 11, 12, 13] = [11, 13] := by decide

/-- The rows of a CSV file are its physical lines: a quoted field with a line break is torn apart. -/
theorem C43_quoted_fails : ∃ text, rsample (fun _ => .stop) none 1 ["\"a\n".toList, "b\",1\n".toList] = .ok (text, none) ∧
    text = "\"a\n".toList :=
  ⟨_, by simp [rsample, reservoir, loop, pick, joinLines, endLine, Except.map], rfl⟩

end Verif.Props.Reservoir
