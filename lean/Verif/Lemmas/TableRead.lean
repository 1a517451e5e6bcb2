import Mathlib.Data.List.Basic
import Mathlib.Data.List.TakeWhile
import Mathlib.Data.List.Nodup
import Mathlib.Data.List.Dedup
import Mathlib.Data.List.Sort
import Verif.Lemmas.Nulls
import Verif.Spec.TableRead

/-!
# Lemmas on reading tables
-/

namespace Verif.TableRead

open Verif Verif.Spec.TableRead

variable {D : Type}

/-! ### Row groups -/

theorem filterMap_id_of_not_any {α : Type} : ∀ (l : List (Option α)), l.any Option.isNone = false → (l.filterMap id).map some = l
  | [], _ => rfl
  | none :: t, h => by simp at h
  | some a :: t, h => by
    have := filterMap_id_of_not_any t (by simpa using h)
    simpa using this

theorem map_of_not_any {α β : Type} (f : Option α → β) (g : α → β) (hfg : ∀ a, f (some a) = g a) (l : List (Option α))
    (h : l.any Option.isNone = false) : l.map f = (l.filterMap id).map g := by
  conv_lhs => rw [← filterMap_id_of_not_any l h]
  rw [List.map_map]
  exact List.map_congr_left fun a _ => hfg a

theorem concat_int (E : Doubles D) (a b : List (Option ℤ)) : concat E (intArr E a) (intArr E b) = intArr E (a ++ b) := by
  rcases ha : a.any Option.isNone with _ | _ <;> rcases hb : b.any Option.isNone with _ | _ <;>
    simp only [intArr, ha, hb, List.any_append, Bool.or_self, Bool.or_true, Bool.true_or, Bool.or_false, if_true, concat,
      List.filterMap_append, List.map_append, Bool.false_eq_true, if_false]
  · rw [map_of_not_any _ E.ofInt (fun _ => rfl) a ha]
  · rw [map_of_not_any _ E.ofInt (fun _ => rfl) b hb]

theorem concat_float (E : Doubles D) (a b : List (Option D)) : concat E (floatArr E a) (floatArr E b) = floatArr E (a ++ b) := by
  simp [floatArr, concat]

theorem concat_bool (E : Doubles D) (a b : List (Option Bool)) :
    concat E (boolArr a) (boolArr b) = (boolArr (a ++ b) : Arr D) := by
  rcases ha : a.any Option.isNone with _ | _ <;> rcases hb : b.any Option.isNone with _ | _ <;>
    simp only [boolArr, ha, hb, List.any_append, Bool.or_self, Bool.or_true, Bool.true_or, Bool.or_false, if_true, concat,
      List.filterMap_append, List.map_append, Bool.false_eq_true, if_false, Arr.objects]
  · rw [map_of_not_any _ Obj.bool (fun _ => rfl) a ha]
  · rw [map_of_not_any _ Obj.bool (fun _ => rfl) b hb]

theorem concat_text (E : Doubles D) (a b : List (Option String)) :
    concat E (textArr a) (textArr b) = (textArr (a ++ b) : Arr D) := by
  simp [textArr, concat, Arr.objects]

theorem foldl_concat {α : Type} (E : Doubles D) (f : List α → Arr D) (hf : ∀ a b, concat E (f a) (f b) = f (a ++ b)) :
    ∀ (gs : List (List α)) (a : List α), (gs.map f).foldl (concat E) (f a) = f (a ++ gs.flatten)
  | [], a => by simp
  | g :: gs, a => by
    rw [List.map_cons, List.foldl_cons, hf, foldl_concat E f hf gs (a ++ g), List.flatten_cons, List.append_assoc]

theorem whole_of {α : Type} (E : Doubles D) (f : List α → Arr D) (hf : ∀ a b, concat E (f a) (f b) = f (a ++ b))
    (h0 : (f []).texts E = []) (gs : List (List α)) :
    ((concatAll E (gs.map f)).map (Arr.texts E)).getD [] = (f gs.flatten).texts E := by
  cases gs with
  | nil => simp [concatAll, h0]
  | cons g gs => simp only [List.map_cons, concatAll, Option.map_some, Option.getD_some, foldl_concat E f hf, List.flatten_cons]

/-- The column as one piece. -/
def Column.flat (E : Doubles D) : Column D → Arr D
  | .ints g => intArr E g.flatten
  | .floats g => floatArr E g.flatten
  | .bools g => boolArr g.flatten
  | .texts g => textArr g.flatten

theorem whole_flat (E : Doubles D) (c : Column D) : c.whole E = (c.flat E).texts E := by
  cases c with
  | ints g => exact whole_of E _ (concat_int E) rfl g
  | floats g => exact whole_of E _ (concat_float E) rfl g
  | bools g => exact whole_of E _ (concat_bool E) rfl g
  | texts g => exact whole_of E _ (concat_text E) rfl g

theorem flat_same (E : Doubles D) {c d : Column D} (h : Same c d) : c.flat E = d.flat E := by
  cases h with
  | ints e => simp [Column.flat, e]
  | floats e => simp [Column.flat, e]
  | bools e => simp [Column.flat, e]
  | texts e => simp [Column.flat, e]

/-! ### Cells -/

/-- The number of cells. -/
def Column.cells : Column D → ℕ
  | .ints g => g.flatten.length
  | .floats g => g.flatten.length
  | .bools g => g.flatten.length
  | .texts g => g.flatten.length

theorem cells_sum (c : Column D) : c.cells = c.sizes.sum := by
  cases c <;> simp [Column.cells, Column.sizes, List.length_flatten]

/-- The texts of integers. -/
theorem texts_int_holed (E : Doubles D) (l : List (Option ℤ)) (h : none ∈ l) :
    (intArr E l).texts E = l.map fun
      | none => E.shown E.nan
      | some z => E.shown (E.ofInt z) := by
  have h' : l.any Option.isNone = true := List.any_eq_true.mpr ⟨none, h, rfl⟩
  simp only [intArr, h', if_true, Arr.texts, List.map_map]
  refine List.map_congr_left fun o _ => ?_
  cases o <;> rfl

theorem texts_int_plain (E : Doubles D) (l : List (Option ℤ)) (h : none ∉ l) :
    (intArr E l).texts E = l.map fun
      | none => E.shown E.nan
      | some z => E.dec z := by
  have h' : l.any Option.isNone = false := by
    rw [List.any_eq_false]
    intro o ho he
    cases o with
    | none => exact h ho
    | some z => simp at he
  simp only [intArr, h', Arr.texts, Bool.false_eq_true, if_false]
  rw [map_of_not_any _ E.dec (fun _ => rfl) l h']

theorem texts_float (E : Doubles D) (l : List (Option D)) :
    (floatArr E l).texts E = l.map fun
      | none => E.shown E.nan
      | some d => E.shown d := by
  simp only [floatArr, Arr.texts, List.map_map]
  refine List.map_congr_left fun o _ => ?_
  cases o <;> rfl

theorem texts_bool (E : Doubles D) (l : List (Option Bool)) :
    (boolArr l : Arr D).texts E = l.map fun
      | none => "None"
      | some b => if b then "True" else "False" := by
  by_cases h : l.any Option.isNone = true
  · simp only [boolArr, h, if_true, Arr.texts, List.map_map]
    refine List.map_congr_left fun o _ => ?_
    cases o <;> rfl
  · have h' : l.any Option.isNone = false := Bool.eq_false_iff.mpr h
    simp only [boolArr, h', Arr.texts, Bool.false_eq_true, if_false]
    rw [map_of_not_any _ _ (fun _ => rfl) l h']
    exact List.map_congr_left fun b _ => rfl

theorem texts_text (E : Doubles D) (l : List (Option String)) :
    (textArr l : Arr D).texts E = l.map fun
      | none => "None"
      | some s => s := by
  simp only [textArr, Arr.texts, List.map_map]
  refine List.map_congr_left fun o _ => ?_
  cases o <;> rfl

/-- The cells at the given positions, as a column of one piece. -/
def Column.at (keep : List ℕ) : Column D → Column D
  | .ints g => .ints [keep.filterMap fun i => g.flatten[i]?]
  | .floats g => .floats [keep.filterMap fun i => g.flatten[i]?]
  | .bools g => .bools [keep.filterMap fun i => g.flatten[i]?]
  | .texts g => .texts [keep.filterMap fun i => g.flatten[i]?]

theorem getElem_filterMap_all {α : Type} (l : List α) : ∀ (keep : List ℕ), (∀ i ∈ keep, i < l.length) →
    (keep.filterMap fun i => l[i]?).length = keep.length ∧
      ∀ j, ∀ h : j < keep.length, (keep.filterMap fun i => l[i]?)[j]? = l[keep[j]]?
  | [], _ => ⟨rfl, fun j h => by simp at h⟩
  | k :: ks, hb => by
    have hk : k < l.length := hb k (by simp)
    obtain ⟨h1, h2⟩ := getElem_filterMap_all l ks fun i hi => hb i (by simp [hi])
    have e : ((k :: ks).filterMap fun i => l[i]?) = l[k] :: ks.filterMap fun i => l[i]? := by
      rw [List.filterMap_cons, List.getElem?_eq_getElem hk]
    rw [e]
    refine ⟨by simp [h1], fun j h => ?_⟩
    cases j with
    | zero => simp [List.getElem?_eq_getElem hk]
    | succ j =>
      simp only [List.getElem?_cons_succ, List.getElem_cons_succ]
      exact h2 j (by simpa using h)

/-- What the texts of a column at some positions are. -/
theorem texts_at (E : Doubles D) (c : Column D) (keep : List ℕ) (hb : ∀ i ∈ keep, i < c.cells) :
    (((c.at keep).flat E).texts E).length = keep.length ∧
      (¬ Holed c → ∀ j, ∀ h : j < keep.length, ∃ t, (((c.at keep).flat E).texts E)[j]? = some t ∧ CellText E c keep[j] t) := by
  cases c with
  | ints g =>
    obtain ⟨h1, h2⟩ := getElem_filterMap_all g.flatten keep hb
    simp only [Column.at, Column.flat, List.flatten_singleton]
    refine ⟨?_, fun hh j h => ?_⟩
    · by_cases hn : none ∈ keep.filterMap fun i => g.flatten[i]?
      · rw [texts_int_holed E _ hn, List.length_map, h1]
      · rw [texts_int_plain E _ hn, List.length_map, h1]
    · have hn : none ∉ keep.filterMap fun i => g.flatten[i]? := by
        intro hn
        obtain ⟨i, _, hi⟩ := List.mem_filterMap.mp hn
        exact hh (List.mem_of_getElem? hi)
      rw [texts_int_plain E _ hn, List.getElem?_map, h2 j h]
      have hlt : keep[j] < g.flatten.length := hb _ (List.getElem_mem h)
      rcases hv : g.flatten[keep[j]] with _ | z
      · exact absurd (show none ∈ g.flatten from hv ▸ List.getElem_mem hlt) hh
      · exact ⟨E.dec z, by rw [List.getElem?_eq_getElem hlt, hv]; rfl, .int (by rw [List.getElem?_eq_getElem hlt, hv])⟩
  | floats g =>
    obtain ⟨h1, h2⟩ := getElem_filterMap_all g.flatten keep hb
    simp only [Column.at, Column.flat, List.flatten_singleton, texts_float]
    refine ⟨by rw [List.length_map, h1], fun _ j h => ?_⟩
    rw [List.getElem?_map, h2 j h]
    have hlt : keep[j] < g.flatten.length := hb _ (List.getElem_mem h)
    rcases hv : g.flatten[keep[j]] with _ | d
    · exact ⟨E.shown E.nan, by rw [List.getElem?_eq_getElem hlt, hv]; rfl, .noFloat (by rw [List.getElem?_eq_getElem hlt, hv])⟩
    · exact ⟨E.shown d, by rw [List.getElem?_eq_getElem hlt, hv]; rfl, .float (by rw [List.getElem?_eq_getElem hlt, hv])⟩
  | bools g =>
    obtain ⟨h1, h2⟩ := getElem_filterMap_all g.flatten keep hb
    simp only [Column.at, Column.flat, List.flatten_singleton, texts_bool]
    refine ⟨by rw [List.length_map, h1], fun _ j h => ?_⟩
    rw [List.getElem?_map, h2 j h]
    have hlt : keep[j] < g.flatten.length := hb _ (List.getElem_mem h)
    rcases hv : g.flatten[keep[j]] with _ | b
    · exact ⟨"None", by rw [List.getElem?_eq_getElem hlt, hv]; rfl, .noBool (by rw [List.getElem?_eq_getElem hlt, hv])⟩
    · cases b with
      | true => exact ⟨"True", by rw [List.getElem?_eq_getElem hlt, hv]; rfl, .yes (by rw [List.getElem?_eq_getElem hlt, hv])⟩
      | false => exact ⟨"False", by rw [List.getElem?_eq_getElem hlt, hv]; rfl, .no (by rw [List.getElem?_eq_getElem hlt, hv])⟩
  | texts g =>
    obtain ⟨h1, h2⟩ := getElem_filterMap_all g.flatten keep hb
    simp only [Column.at, Column.flat, List.flatten_singleton, texts_text]
    refine ⟨by rw [List.length_map, h1], fun _ j h => ?_⟩
    rw [List.getElem?_map, h2 j h]
    have hlt : keep[j] < g.flatten.length := hb _ (List.getElem_mem h)
    rcases hv : g.flatten[keep[j]] with _ | s
    · exact ⟨"None", by rw [List.getElem?_eq_getElem hlt, hv]; rfl, .noText (by rw [List.getElem?_eq_getElem hlt, hv])⟩
    · exact ⟨s, by rw [List.getElem?_eq_getElem hlt, hv]; rfl, .text (by rw [List.getElem?_eq_getElem hlt, hv])⟩

theorem filterMap_range {α : Type} (l : List α) : ((List.range l.length).filterMap fun i => l[i]?) = l := by
  obtain ⟨h1, h2⟩ := getElem_filterMap_all l (List.range l.length) (by simp)
  refine List.ext_getElem? fun j => ?_
  by_cases h : j < l.length
  · rw [h2 j (by simpa using h)]; simp
  · rw [List.getElem?_eq_none (by rw [h1]; simpa using h), List.getElem?_eq_none (by simpa using h)]

theorem at_all (E : Doubles D) (c : Column D) : (c.at (List.range c.cells)).flat E = c.flat E := by
  cases c <;> simp only [Column.at, Column.cells, Column.flat, List.flatten_singleton, filterMap_range]

/-! ### Samples -/

/-- The rows of a sample. -/
def kept (sample : List ℕ) (n total : ℕ) : List ℕ :=
  if n < total then (List.range total).filter fun i => decide (i ∈ sample) else List.range total

theorem filterMask_eq {α : Type} : ∀ (rows : List α) (m : List Bool), m.length = rows.length →
    Reservoir.filterMask rows m = ((List.range rows.length).filter fun i => m.getD i false).filterMap fun i => rows[i]?
  | [], [], _ => rfl
  | [], _ :: _, h => by simp at h
  | _ :: _, [], h => by simp at h
  | r :: rows, b :: m, h => by
    have ih := filterMask_eq rows m (by simpa using h)
    rw [List.length_cons, List.range_succ_eq_map, List.filter_cons, List.filter_map]
    have e : ((fun i => (b :: m).getD i false) ∘ Nat.succ) = fun i => m.getD i false := by funext i; simp
    rw [e]
    have tail : (List.map Nat.succ ((List.range rows.length).filter fun i => m.getD i false)).filterMap (fun i => (r :: rows)[i]?) =
        ((List.range rows.length).filter fun i => m.getD i false).filterMap fun i => rows[i]? := by
      rw [List.filterMap_map]; rfl
    cases b with
    | true => simp only [List.getD_cons_zero, if_true, List.filterMap_cons, List.getElem?_cons_zero, tail, Reservoir.filterMask, ih]
    | false => simp only [List.getD_cons_zero, Bool.false_eq_true, if_false, tail, Reservoir.filterMask, ih]

theorem mask_getD (sample : List ℕ) : ∀ (m : List Bool) (i : ℕ), i < m.length →
    (sample.foldl (fun m i => m.set i true) m).getD i false = (m.getD i false || decide (i ∈ sample)) := by
  induction sample with
  | nil => intro m i _; simp
  | cons s t ih =>
    intro m i hi
    rw [List.foldl_cons, ih _ i (by simpa using hi)]
    by_cases hs : s = i
    · subst hs; simp [hi]
    · have : i ≠ s := fun h => hs h.symm
      simp [hs, this]

theorem mask_length (size : ℕ) (sample : List ℕ) : (Reservoir.mask size sample).length = size := by
  have : ∀ (sample : List ℕ) (m : List Bool), (sample.foldl (fun m i => m.set i true) m).length = m.length := by
    intro sample
    induction sample with
    | nil => intro m; rfl
    | cons s t ih => intro m; rw [List.foldl_cons, ih]; simp
  rw [Reservoir.mask, this]; simp

theorem sampleParquet_eq {α : Type} (sample : List ℕ) (n : ℕ) (rows : List α) :
    Reservoir.sampleParquet sample n rows = (kept sample n rows.length).filterMap fun i => rows[i]? := by
  unfold Reservoir.sampleParquet kept
  split
  · rw [filterMask_eq _ _ (mask_length _ _)]
    congr 1
    refine List.filter_congr fun i hi => ?_
    have hi' : i < rows.length := by simpa using hi
    rw [Reservoir.mask, mask_getD _ _ _ (by simpa using hi')]
    simp [hi']
  · rw [filterMask_eq _ _ (by simp)]
    congr 1
    refine List.filter_eq_self.mpr fun i hi => ?_
    have hi' : i < rows.length := by simpa using hi
    simp [hi']

theorem kept_rows {sample : List ℕ} {n total : ℕ} (hn : sample.Nodup) (hl : n < total → sample.length = n)
    (hb : ∀ i ∈ sample, i < total) : Rows n total (kept sample n total) := by
  unfold kept
  split
  · rename_i h
    refine ⟨List.Pairwise.filter _ List.pairwise_lt_range, fun i hi => ?_, ?_⟩
    · exact List.mem_range.mp (List.mem_of_mem_filter hi)
    · have hp : ((List.range total).filter fun i => decide (i ∈ sample)).Perm sample := by
        refine (List.perm_ext_iff_of_nodup (List.nodup_range.filter _) hn).mpr fun i => ?_
        simp only [List.mem_filter, List.mem_range, decide_eq_true_eq]
        exact ⟨fun h => h.2, fun h => ⟨hb i h, h⟩⟩
      rw [hp.length_eq, hl h, Nat.min_eq_left h.le]
  · rename_i h
    refine ⟨List.pairwise_lt_range, fun i hi => List.mem_range.mp hi, ?_⟩
    rw [List.length_range, Nat.min_eq_right (Nat.le_of_not_lt h)]

theorem sampled_eq (E : Doubles D) (sample : List ℕ) (n : ℕ) (c : Column D) :
    c.sampled E sample n = (c.at (kept sample n c.cells)).flat E := by
  cases c <;> simp only [Column.sampled, Column.at, Column.flat, Column.cells, List.flatten_singleton, sampleParquet_eq]

/-! ### Columns asked for -/

theorem select_ok {α : Type} {missing : Err} {selected : List String} {cols got : List (String × α)}
    (hn : (cols.map Prod.fst).Nodup) (h : selectIf missing selected cols = .ok got) : Chosen selected cols got := by
  unfold selectIf at h
  unfold Chosen
  split at h
  · rename_i he
    rw [if_pos he]
    cases h; rfl
  · rename_i he
    rw [if_neg he]
    unfold select at h
    split at h
    · rename_i hall
      cases h
      rw [List.all_eq_true] at hall
      refine ⟨?_, fun c hc => ?_⟩
      · clear he
        induction selected with
        | nil => rfl
        | cons s t ih =>
          rw [List.flatMap_cons, List.map_append, ih fun x hx => hall x (by simp [hx])]
          have hs : cols.any (fun c => decide (c.1 = s)) = true := hall s (by simp)
          obtain ⟨c, hc, hcs⟩ := List.any_eq_true.mp hs
          have hcs' : c.1 = s := by simpa using hcs
          have : (cols.filter fun c => decide (c.1 = s)) = [c] := by
            have hc1 := hn
            clear ih hall hs
            induction cols with
            | nil => simp at hc
            | cons d ds ihd =>
              rw [List.map_cons, List.nodup_cons] at hc1
              rw [List.filter_cons]
              rcases List.mem_cons.mp hc with rfl | hc'
              · have e : (ds.filter fun c => decide (c.1 = s)) = [] := by
                  refine List.filter_eq_nil_iff.mpr fun x hx hxs => ?_
                  have hxs' : x.1 = s := by simpa using hxs
                  exact hc1.1 (by rw [hcs', ← hxs']; exact List.mem_map.mpr ⟨x, hx, rfl⟩)
                simp [hcs', e]
              · have hne : d.1 ≠ s := fun hd => hc1.1 (by rw [hd, ← hcs']; exact List.mem_map.mpr ⟨c, hc', rfl⟩)
                simp only [hne, decide_false, Bool.false_eq_true, if_false]
                exact ihd hc1.2 hc' hc1.2
          rw [this]
          simp [hcs']
      · obtain ⟨s, _, hc⟩ := List.mem_flatMap.mp hc
        exact List.mem_of_mem_filter hc
    · cases h

theorem select_error {α : Type} {missing : Err} {selected : List String} {cols : List (String × α)} {e : Err}
    (h : selectIf missing selected cols = .error e) : e = missing ∧ ∃ s ∈ selected, s ∉ cols.map Prod.fst := by
  unfold selectIf at h
  split at h
  · cases h
  · unfold select at h
    split at h
    · cases h
    · rename_i hall
      cases h
      refine ⟨rfl, ?_⟩
      have hall : (selected.all fun n => cols.any fun c => decide (c.1 = n)) = false := by simpa using hall
      rw [List.all_eq_false] at hall
      obtain ⟨s, hs, hns⟩ := hall
      refine ⟨s, hs, fun hm => hns ?_⟩
      obtain ⟨c, hc, hcs⟩ := List.mem_map.mp hm
      exact List.any_eq_true.mpr ⟨c, hc, by simpa using hcs⟩

theorem chosen_mem {α : Type} {selected : List String} {cols got : List (String × α)} (h : Chosen selected cols got)
    {c : String × α} (hc : c ∈ got) : c ∈ cols := by
  unfold Chosen at h
  split at h
  · exact h ▸ hc
  · exact h.2 c hc

/-! ### Labels -/

theorem mem_counted (n : ℕ) (z : ℤ) : z ∈ counted n ↔ 0 ≤ z ∧ z < n := by
  simp only [counted, List.mem_map, List.mem_range]
  constructor
  · rintro ⟨i, hi, rfl⟩; omega
  · rintro ⟨h0, h1⟩; exact ⟨z.toNat, by omega, by omega⟩

theorem counted_nodup (n : ℕ) : (counted n).Nodup :=
  List.Nodup.map (fun _ _ h => by exact_mod_cast h) List.nodup_range

theorem counted_length (n : ℕ) : (counted n).length = n := by simp [counted]

theorem labels_length (sizes : List ℕ) : (sizes.flatMap counted).length = sizes.sum := by
  induction sizes with
  | nil => rfl
  | cons s t ih => rw [List.flatMap_cons, List.length_append, ih, counted_length, List.sum_cons]

/-! ### Lines -/

theorem splitNl_line : ∀ (l : List Char), '\n' ∉ l → splitNl l = [l]
  | [], _ => rfl
  | c :: t, h => by
    rw [List.mem_cons, not_or] at h
    rw [splitNl, if_neg fun e => h.1 e.symm, splitNl_line t h.2]

theorem splitNl_append : ∀ (l t : List Char), '\n' ∉ l → splitNl (l ++ '\n' :: t) = l :: splitNl t
  | [], t, _ => by rw [List.nil_append, splitNl, if_pos rfl]
  | c :: l, t, h => by
    rw [List.mem_cons, not_or] at h
    rw [List.cons_append, splitNl, if_neg fun e => h.1 e.symm, splitNl_append l t h.2]

theorem splitNl_of_lines {text : List Char} {ls : List (List Char)} (h : Lines text ls) : splitNl text = ls := by
  obtain ⟨hne, hin, rfl⟩ := h
  induction ls with
  | nil => exact absurd rfl hne
  | cons l t ih =>
    cases t with
    | nil => simpa using splitNl_line l (hin l (by simp))
    | cons m t =>
      have e : ((l :: m :: t).intersperse ['\n']).flatten = l ++ '\n' :: ((m :: t).intersperse ['\n']).flatten := by
        simp [List.intersperse]
      rw [e, splitNl_append _ _ (hin l (by simp)), ih (by simp) fun x hx => hin x (by simp [hx])]

theorem occurrences_eq (d : Char) : ∀ (fuel : ℕ) (l : List Char), l.length ≤ fuel → occurrences [d] fuel l = l.count d
  | 0, [], _ => rfl
  | 0, _ :: _, h => by simp at h
  | _ + 1, [], _ => rfl
  | fuel + 1, c :: t, h => by
    have ih := occurrences_eq d fuel t (by simpa using h)
    rw [occurrences, List.count_cons]
    by_cases hc : d = c
    · subst hc
      simp [List.isPrefixOf, ih, Nat.add_comm]
    · have hc' : ¬ c = d := fun e => hc e.symm
      simp [List.isPrefixOf, hc, hc', ih]

theorem lastInk_none (blank : Char → Bool) (l : List Char) : lastInk blank l = none ↔ ∀ c ∈ l, blank c = true := by
  rw [lastInk, List.head?_eq_none_iff, List.dropWhile_eq_nil_iff]
  simp

theorem lastInk_ends (blank : Char → Bool) (d : Char) (l : List Char) (h : Once d l) :
    lastInk blank l = some d ↔ EndsWith blank d l := by
  constructor
  · intro hl
    have hsplit := List.takeWhile_append_dropWhile (p := blank) (l := l.reverse)
    rw [lastInk] at hl
    rcases hd : l.reverse.dropWhile blank with _ | ⟨x, rest⟩
    · rw [hd] at hl; simp at hl
    · rw [hd] at hl
      have hx : x = d := by simpa using hl
      subst hx
      have hb : blank x = false := by
        have := List.head_dropWhile_not blank (l := l.reverse) (by rw [hd]; simp)
        simpa [hd] using this
      refine ⟨rest.reverse, (l.reverse.takeWhile blank).reverse, ?_, ?_, ?_, ?_, hb⟩
      · have : l = (l.reverse).reverse := by simp
        conv_lhs => rw [this, ← hsplit, hd]
        simp
      all_goals
        have hl' : l = rest.reverse ++ x :: (l.reverse.takeWhile blank).reverse := by
          have : l = (l.reverse).reverse := by simp
          conv_lhs => rw [this, ← hsplit, hd]
          simp
        unfold Once at h
        rw [hl', List.count_append, List.count_cons_self] at h
      · intro hm
        have := List.count_pos_iff.mpr hm
        omega
      · intro hm
        have hm' : x ∈ l.reverse.takeWhile blank := by simpa using hm
        have := List.mem_takeWhile_imp hm'
        rw [hb] at this; cases this
      · intro c hc
        have hc' : c ∈ l.reverse.takeWhile blank := by simpa using hc
        exact List.mem_takeWhile_imp hc'
  · rintro ⟨head, tail, rfl, _, _, htail, hb⟩
    rw [lastInk]
    have : (head ++ d :: tail).reverse = tail.reverse ++ d :: head.reverse := by simp
    rw [this, List.dropWhile_append_of_pos (fun c hc => htail c (by simpa using hc)), List.dropWhile_cons, if_neg (by simp [hb])]
    rfl

theorem countLast_cons (blank : Char → Bool) (d : Char) (l : List Char) (ls : List (List Char)) (hl : l ≠ []) :
    countLast blank [d] (l :: ls) =
      if l.count d = 1 then
        match lastInk blank l with
        | none => .error .indexError
        | some c =>
          match countLast blank [d] ls with
          | .error e => .error e
          | .ok (a, b) => .ok (if [c] = [d] then a + 1 else a, b + 1)
      else
        match countLast blank [d] ls with
        | .error e => .error e
        | .ok (a, b) => .ok (a, b + 1) := by
  cases l with
  | nil => exact absurd rfl hl
  | cons c t =>
    rw [countLast, occurrences_eq d _ _ le_rfl]
    · rfl
    · simp

theorem countLast_spec (blank : Char → Bool) (d : Char) : ∀ (ls : List (List Char)),
    (Hollow blank d ls ∧ countLast blank [d] ls = .error .indexError) ∨
    (¬ Hollow blank d ls ∧ ∃ a b, countLast blank [d] ls = .ok (a, b) ∧ a ≤ b ∧ (a = b ↔ OnlyEnds blank d ls))
  | [] => Or.inr ⟨by rintro ⟨l, hl, _⟩; simp at hl, 0, 0, rfl, le_rfl, by simp [OnlyEnds]⟩
  | [] :: ls => by
    have e : countLast blank [d] ([] :: ls) = countLast blank [d] ls := by rw [countLast]
    have h1 : Hollow blank d ([] :: ls) ↔ Hollow blank d ls := by
      constructor
      · rintro ⟨l, hl, ho, hb⟩
        rcases List.mem_cons.mp hl with rfl | hl
        · simp [Once] at ho
        · exact ⟨l, hl, ho, hb⟩
      · rintro ⟨l, hl, h⟩; exact ⟨l, by simp [hl], h⟩
    have h2 : OnlyEnds blank d ([] :: ls) ↔ OnlyEnds blank d ls := by
      constructor
      · intro h l hl; exact h l (by simp [hl])
      · intro h l hl hne
        rcases List.mem_cons.mp hl with rfl | hl
        · exact absurd rfl hne
        · exact h l hl hne
    rw [e, h1, h2]
    exact countLast_spec blank d ls
  | (c :: t) :: ls => by
    have hne : (c :: t) ≠ [] := by simp
    generalize (c :: t) = l at *
    have ih := countLast_spec blank d ls
    rw [countLast_cons blank d l ls hne]
    have onlyEnds : OnlyEnds blank d (l :: ls) ↔ EndsWith blank d l ∧ OnlyEnds blank d ls := by
      constructor
      · intro h; exact ⟨h l (by simp) hne, fun x hx => h x (by simp [hx])⟩
      · rintro ⟨h1, h2⟩ x hx hxne
        rcases List.mem_cons.mp hx with rfl | hx
        · exact h1
        · exact h2 x hx hxne
    have once_of : EndsWith blank d l → l.count d = 1 := by
      rintro ⟨head, tail, rfl, h1, h2, _⟩
      rw [List.count_append, List.count_cons_self, List.count_eq_zero_of_not_mem h1, List.count_eq_zero_of_not_mem h2]
    by_cases hc : l.count d = 1
    · rw [if_pos hc]
      rcases hi : lastInk blank l with _ | x
      · refine Or.inl ⟨⟨l, by simp, hc, (lastInk_none blank l).mp hi⟩, rfl⟩
      · have hnb : ¬ ∀ c ∈ l, blank c = true := fun h => by rw [(lastInk_none blank l).mpr h] at hi; cases hi
        have hh : Hollow blank d (l :: ls) ↔ Hollow blank d ls := by
          constructor
          · rintro ⟨y, hy, ho, hb⟩
            rcases List.mem_cons.mp hy with rfl | hy
            · exact absurd hb hnb
            · exact ⟨y, hy, ho, hb⟩
          · rintro ⟨y, hy, h⟩; exact ⟨y, by simp [hy], h⟩
        rw [hh]
        rcases ih with ⟨h1, h2⟩ | ⟨h1, a, b, h2, h3, h4⟩
        · refine Or.inl ⟨h1, ?_⟩
          rw [h2]
        · refine Or.inr ⟨h1, if [x] = [d] then a + 1 else a, b + 1, ?_, ?_, ?_⟩
          · rw [h2]
          · split <;> omega
          · rw [onlyEnds, ← lastInk_ends blank d l hc, hi]
            by_cases hx : x = d
            · simp [hx, h4]
            · simp only [List.cons.injEq, and_true, hx, if_false, Option.some.injEq, false_and, iff_false]
              omega
    · rw [if_neg hc]
      have hh : Hollow blank d (l :: ls) ↔ Hollow blank d ls := by
        constructor
        · rintro ⟨y, hy, ho, hb⟩
          rcases List.mem_cons.mp hy with rfl | hy
          · exact absurd ho hc
          · exact ⟨y, hy, ho, hb⟩
        · rintro ⟨y, hy, h⟩; exact ⟨y, by simp [hy], h⟩
      rw [hh]
      rcases ih with ⟨h1, h2⟩ | ⟨h1, a, b, h2, h3, h4⟩
      · refine Or.inl ⟨h1, ?_⟩
        rw [h2]
      · refine Or.inr ⟨h1, a, b + 1, by rw [h2], by omega, ?_⟩
        rw [onlyEnds]
        constructor
        · intro h; omega
        · rintro ⟨h, _⟩; exact absurd (once_of h) hc

/-! ### Null detection with repeated labels -/

section Nulls

open Verif.Nulls Verif.NullsSpec

theorem addSet_nodup {s : List ℤ} (h : s.Nodup) (x : ℤ) : (addSet s x).Nodup := by
  unfold addSet
  split
  · exact h
  · rename_i hx
    rw [List.nodup_append]
    refine ⟨h, by simp, fun a ha b hb e => hx ?_⟩
    rw [List.mem_singleton] at hb
    rw [← hb, ← e]; exact ha

theorem unionSet_nodup : ∀ (xs s : List ℤ), s.Nodup → (unionSet s xs).Nodup
  | [], _, h => h
  | x :: xs, s, h => by
    rw [unionSet, List.foldl_cons]
    exact unionSet_nodup xs _ (addSet_nodup h x)

/-- What the loop knows of the cells it has seen. -/
structure Knows (isNull : String → Bool) (a : Acc) (seen : List Cell) : Prop where
  total : a.total = seen.length
  nodup : a.trues.Nodup
  mem : ∀ z, z ∈ a.trues ↔ ∃ c ∈ seen, isNull c.2 = false ∧ c.1 = z

theorem knows_step {isNull : String → Bool} {a : Acc} {seen : List Cell} (h : Knows isNull a seen) (chunk : List Cell) :
    Knows isNull (step isNull a chunk) (seen ++ chunk) := by
  refine ⟨by simp [step, h.total], unionSet_nodup _ _ h.nodup, fun z => ?_⟩
  simp only [step, mem_unionSet, h.mem, List.mem_map, List.mem_filter, List.mem_append]
  constructor
  · rintro (⟨c, hc, hn, hz⟩ | ⟨c, ⟨hc, hn⟩, hz⟩)
    · exact ⟨c, Or.inl hc, hn, hz⟩
    · exact ⟨c, Or.inr hc, by simpa using hn, hz⟩
  · rintro ⟨c, hc | hc, hn, hz⟩
    · exact Or.inl ⟨c, hc, hn, hz⟩
    · exact Or.inr ⟨c, ⟨hc, by simpa using hn⟩, hz⟩

theorem loop_knows (isNull : String → Bool) (col : List Cell) (ss mt : ℕ) : ∀ (chunks : List (List ℕ)) (a : Acc) (seen : List Cell),
    (∀ p ∈ chunks.flatten, p < col.length) → Knows isNull a seen →
      ∃ a' k, loop isNull col ss mt a chunks = .ok a' ∧ Knows isNull a' (seen ++ cellsAt col (chunks.take k).flatten) ∧
        (chunks.length ≤ k ∨ ss ≤ a'.total)
  | [], a, seen, _, h => ⟨a, 0, rfl, by simpa [cellsAt] using h, Or.inl le_rfl⟩
  | ps :: rest, a, seen, hb, h => by
    have hps : ∀ p ∈ ps, p < col.length := fun p hp => hb p (by simp [hp])
    have hr : ∀ p ∈ rest.flatten, p < col.length := fun p hp => hb p (by
      rw [List.flatten_cons, List.mem_append]; exact Or.inr hp)
    rw [loop, iloc_eq col ps hps]
    have hk := knows_step h (cellsAt col ps)
    dsimp only
    split
    · rename_i hstop
      refine ⟨_, 1, rfl, ?_, Or.inr hstop.2⟩
      simpa using hk
    · obtain ⟨a', k, h1, h2, h3⟩ := loop_knows isNull col ss mt rest _ _ hr hk
      refine ⟨a', k + 1, h1, ?_, ?_⟩
      · rw [List.take_succ_cons, List.flatten_cons, cellsAt_append, ← List.append_assoc]
        exact h2
      · rcases h3 with h3 | h3
        · exact Or.inl (by simpa using h3)
        · exact Or.inr h3

theorem loc_perm_all : ∀ (col : List Cell) (labels : List ℤ), labels.Nodup → (∀ c ∈ col, c.1 ∈ labels) →
    (loc col labels).Perm (col.map Prod.snd)
  | [], labels, _, _ => by simp [loc]
  | c :: col, labels, hn, hc => by
    have ih := loc_perm_all col labels hn fun d hd => hc d (by simp [hd])
    obtain ⟨s, t, rfl⟩ := List.append_of_mem (hc c (by simp))
    have hs : c.1 ∉ s := by
      intro h
      rw [List.nodup_append] at hn
      exact hn.2.2 _ h _ (by simp) rfl
    have ht : c.1 ∉ t := by
      rw [List.nodup_append] at hn
      exact (List.nodup_cons.mp hn.2.1).1
    have same : ∀ l : List ℤ, c.1 ∉ l → loc (c :: col) l = loc col l := by
      intro l hl
      unfold loc
      refine List.flatMap_congr fun x hx => ?_
      have : ¬ c.1 = x := fun e => hl (e ▸ hx)
      simp [List.filter_cons, this]
    have split : ∀ (co : List Cell) (l m : List ℤ), loc co (l ++ m) = loc co l ++ loc co m := by
      intro co l m; simp [loc]
    have one : loc (c :: col) (c.1 :: t) = c.2 :: loc col (c.1 :: t) := by
      have e : ∀ (co : List Cell) (x : ℤ) (l : List ℤ), loc co (x :: l) = (co.filter fun d => d.1 = x).map Prod.snd ++ loc co l := by
        intro co x l; simp [loc]
      rw [e, e, same t ht, List.filter_cons, if_pos (by simp), List.map_cons, List.cons_append]
    rw [split, same s hs, one, List.map_cons]
    refine List.perm_middle.trans (List.Perm.cons _ ?_)
    rw [← split]; exact ih

/-- The labels of row groups. -/
theorem mem_labels {sizes : List ℕ} {m : ℕ} (hm : m ∈ sizes) (hle : ∀ k ∈ sizes, k ≤ m) (z : ℤ) :
    z ∈ sizes.flatMap counted ↔ z ∈ counted m := by
  rw [List.mem_flatMap]
  constructor
  · rintro ⟨k, hk, hz⟩
    have := hle k hk
    rw [mem_counted] at *; omega
  · intro hz; exact ⟨m, hm, hz⟩

/-- Detection of nulls in a column without nulls, whatever the labels: a value for each row, and a null for each repeated label. -/
theorem clean_repeated {isNull : String → Bool} {setOrder : List ℤ → List ℤ} (hset : ∀ l, (setOrder l).Perm l) {col : List Cell}
    {ss mt : ℕ} {given : Bool} {chunks : List (List ℕ)} {m : ℕ} (hcol : col ≠ []) (hnone : ∀ c ∈ col, isNull c.2 = false)
    (hchunks : chunks.flatten.Perm (List.range col.length)) (hss : col.length ≤ ss)
    (hlab : ∀ z, z ∈ col.map Prod.fst ↔ z ∈ counted m) :
    ∃ values base, clean isNull setOrder col ss mt given chunks = .ok (values, base) ∧ values.Perm (col.map Prod.snd) ∧
      base.sampleSize = col.length ∧ base.nullCount = col.length - m := by
  have hb : ∀ p ∈ chunks.flatten, p < col.length := fun p hp => by simpa using hchunks.mem_iff.mp hp
  obtain ⟨a, k, h1, h2, h3⟩ := loop_knows isNull col ss mt chunks ⟨[], [], 0⟩ [] hb ⟨rfl, by simp, by simp⟩
  have hlen : chunks.flatten.length = col.length := by rw [hchunks.length_eq, List.length_range]
  have hall : (chunks.take k).flatten = chunks.flatten := by
    rcases h3 with h3 | h3
    · rw [List.take_of_length_le h3]
    · have hsplit : chunks.flatten = (chunks.take k).flatten ++ (chunks.drop k).flatten := by
        rw [← List.flatten_append, List.take_append_drop]
      have htot := h2.total
      rw [List.nil_append, cellsAt_length _ _ fun p hp => hb p (by rw [hsplit]; simp [hp])] at htot
      have hl := congrArg List.length hsplit
      rw [List.length_append] at hl
      have : (chunks.drop k).flatten = [] := List.length_eq_zero_iff.mp (by omega)
      rw [hsplit, this, List.append_nil]
  rw [hall, List.nil_append] at h2
  have hperm : a.trues.Perm (counted m) := by
    refine (List.perm_ext_iff_of_nodup h2.nodup (counted_nodup m)).mpr fun z => ?_
    rw [h2.mem, ← hlab, List.mem_map]
    constructor
    · rintro ⟨c, hc, _, hz⟩; exact ⟨c, cellsAt_subset hc, hz⟩
    · rintro ⟨c, hc, hz⟩
      refine ⟨c, ?_, hnone c hc, hz⟩
      obtain ⟨p, hp⟩ := List.mem_iff_getElem?.mp hc
      refine mem_cellsAt.mpr ⟨p, ?_, hp⟩
      rw [hchunks.mem_iff, List.mem_range]
      exact (List.getElem?_eq_some_iff.mp hp).1
  have htot : a.total = col.length := by rw [h2.total, cellsAt_length _ _ hb, hlen]
  have hpos : a.total ≠ 0 := by
    rw [htot]; intro h; exact hcol (List.length_eq_zero_iff.mp h)
  have hlabels : (if 0 < mt ∨ given = false then a.trues.insertionSort (· ≤ ·) else setOrder a.trues).Perm a.trues := by
    split
    · exact List.perm_insertionSort _ _
    · exact hset _
  refine ⟨loc col (if 0 < mt ∨ given = false then a.trues.insertionSort (· ≤ ·) else setOrder a.trues),
    ⟨a.total, a.total - (if 0 < mt ∨ given = false then a.trues.insertionSort (· ≤ ·) else setOrder a.trues).length, a.na,
      idRange col⟩, ?_, ?_, ?_, ?_⟩
  · rw [clean, if_neg hcol, h1]
    dsimp only
    rw [if_neg hpos]
  · refine loc_perm_all col _ (hlabels.nodup_iff.mpr h2.nodup) fun c hc => ?_
    rw [hlabels.mem_iff, hperm.mem_iff, ← hlab]
    exact List.mem_map.mpr ⟨c, hc, rfl⟩
  · exact htot
  · dsimp only
    rw [htot, (hlabels.trans hperm).length_eq, counted_length]

end Nulls

end Verif.TableRead
