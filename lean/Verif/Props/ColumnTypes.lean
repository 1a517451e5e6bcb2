import Mathlib.Tactic.Linarith
import Mathlib.Tactic.SplitIfs
import Mathlib.Algebra.Order.Field.Rat
import Verif.Spec.ColumnTypes

/-!
# The data type of a column (C30)
-/

namespace Verif.ColumnTypes

open Verif Verif.ColumnTypesSpec

theorem isFloat_iff (toFloat : String → Option Flt) (x : String) : isFloat toFloat x = true ↔ IsNumber toFloat x := by
  unfold isFloat IsNumber
  cases toFloat x <;> simp

theorem isInt_iff (toFloat : String → Option Flt) (x : String) : isInt toFloat x = true ↔ IsWhole toFloat x := by
  unfold isInt IsWhole
  cases h : toFloat x with
  | none => simp
  | some v =>
    cases v with
    | inf => simp
    | nan => simp
    | fin q =>
      simp only [decide_eq_true_eq, Option.some.injEq, Flt.fin.injEq]
      constructor
      · intro h
        exact ⟨_, h⟩
      · rintro ⟨z, rfl⟩
        split_ifs <;> simp

/-- The values counted for a type. -/
def countOf (toFloat : String → Option Flt) (h : History) (t : Ty) : ℕ :=
  match t with
  | .datetime => dates h
  | .int => (values h).countP (isInt toFloat)
  | .float => (values h).countP (isFloat toFloat)
  | .text => (values h).length

/-- Every enabled profile, in order, with a given count. -/
def layout (enabled : Ty → Bool) (f : Ty → Prim) : PyDict Ty Prim := (order.filter fun t => enabled t).map fun t => (t, f t)

theorem get?_layout (enabled : Ty → Bool) (f : Ty → Prim) (t : Ty) (ht : enabled t = true) :
    PyDict.get? (layout enabled f) t = some (f t) := by
  unfold layout order
  cases h1 : enabled .datetime <;> cases h2 : enabled .int <;> cases h3 : enabled .float <;>
    cases h4 : enabled .text <;> cases t <;> simp_all [PyDict.get?]

theorem mergeProfs_layout (enabled : Ty → Bool) (f g : Ty → Prim) (l : List Ty) (hl : ∀ t ∈ l, enabled t = true) :
    mergeProfs (layout enabled g) (l.map fun t => (t, f t)) = .ok (l.map fun t => (t, (f t).add (g t))) := by
  induction l with
  | nil => rfl
  | cons t l ih =>
    simp only [List.map_cons, mergeProfs]
    rw [get?_layout enabled g t (hl t (by simp)), ih fun t ht => hl t (List.mem_cons_of_mem _ ht)]

theorem keys_layout (enabled : Ty → Bool) (f : Ty → Prim) :
    PyDict.keys (layout enabled f) = order.filter fun t => enabled t := by
  simp [PyDict.keys, layout, Function.comp_def]

theorem run_eq (toFloat : String → Option Flt) (enabled : Ty → Bool) (h : History) (hs : Sensible h) :
    ∃ c, run toFloat enabled h = .ok c ∧
      c.profs = layout enabled fun t => ⟨countOf toFloat h t, (values h).length⟩ := by
  induction h with
  | new =>
    refine ⟨_, rfl, ?_⟩
    unfold create layout
    apply List.map_congr_left
    intro t _
    cases t <;> rfl
  | update h b ih =>
    obtain ⟨c, hc, hp⟩ := ih hs.1
    refine ⟨update toFloat c b, by simp only [run, hc], ?_⟩
    simp only [update, hp, layout, List.map_map]
    apply List.map_congr_left
    intro t _
    simp only [Function.comp, Prim.update]
    by_cases he : b.values = []
    · have h0 : b.dates = 0 := by
        have := hs.2
        rw [he] at this
        simpa using this
      simp only [he, if_true, values, List.append_nil]
      cases t <;> simp [countOf, values, dates, he, h0]
    · simp only [he, if_false, values, List.length_append]
      cases t <;> simp [countOf, values, dates, matching]
  | merge h1 h2 ih1 ih2 =>
    obtain ⟨c, hc, hp⟩ := ih1 hs.1
    obtain ⟨d, hd, hq⟩ := ih2 hs.2
    have hm := mergeProfs_layout enabled (fun t => ⟨countOf toFloat h1 t, (values h1).length⟩)
      (fun t => ⟨countOf toFloat h2 t, (values h2).length⟩) (order.filter fun t => enabled t)
      (fun t ht => by simpa using (List.mem_filter.1 ht).2)
    refine ⟨⟨_, longestMerge c.longest d.longest, "text"⟩, ?_, rfl⟩
    simp only [run, hc, hd, merge]
    rw [if_pos (by rw [hp, hq, keys_layout, keys_layout]; exact ⟨fun _ h => h, fun _ h => h⟩), hp, hq]
    rw [show mergeProfs _ (layout enabled fun t => ⟨countOf toFloat h1 t, (values h1).length⟩) = _ from hm]
    simp only [Except.ok.injEq, Compiler.mk.injEq, and_true]
    apply List.map_congr_left
    intro t _
    cases t <;> simp [countOf, values, dates, Prim.add]

theorem countP_eq_length_iff' (p : String → Bool) (l : List String) : l.countP p = l.length ↔ ∀ x ∈ l, p x = true :=
  List.countP_eq_length

theorem dates_le (h : History) (hs : Sensible h) : dates h ≤ (values h).length := by
  induction h with
  | new => exact le_refl 0
  | update h b ih =>
    have := ih hs.1
    have := hs.2
    simp only [dates, values, List.length_append]
    omega
  | merge h1 h2 ih1 ih2 =>
    have := ih1 hs.1
    have := ih2 hs.2
    simp only [dates, values, List.length_append]
    omega

theorem count_full_iff (toFloat : String → Option Flt) (h : History) (t : Ty) :
    countOf toFloat h t = (values h).length ↔ AllAre toFloat h t := by
  cases t with
  | datetime => exact Iff.rfl
  | int =>
    simp only [countOf, AllAre, List.countP_eq_length]
    exact forall₂_congr fun x _ => isInt_iff toFloat x
  | float =>
    simp only [countOf, AllAre, List.countP_eq_length]
    exact forall₂_congr fun x _ => isFloat_iff toFloat x
  | text => simp [countOf, AllAre]

/-- The ratio of a type is 1 exactly if all values are of that type. -/
theorem ratio_one_iff (toFloat : String → Option Flt) (h : History) (t : Ty) :
    ratio t ⟨countOf toFloat h t, (values h).length⟩ = some 1 ↔ values h ≠ [] ∧ AllAre toFloat h t := by
  by_cases he : values h = []
  · have h0 : (values h).length = 0 := by rw [he]; rfl
    cases t <;> simp [ratio, Prim.ratio, he]
  · have h0 : (values h).length ≠ 0 := fun e => he (List.length_eq_zero_iff.1 e)
    have key : ∀ n : ℕ, ((n : ℚ) / ((values h).length : ℚ) = 1 ↔ n = (values h).length) := by
      intro n
      rw [div_eq_one_iff_eq (by exact_mod_cast h0)]
      exact_mod_cast Iff.rfl
    cases t with
    | text => simp [ratio, he, AllAre]
    | datetime =>
      simp only [ratio, Prim.ratio, h0, if_false, Option.some.injEq, key, count_full_iff]
      simp [he]
    | int =>
      simp only [ratio, Prim.ratio, h0, if_false, Option.some.injEq, key, count_full_iff]
      simp [he]
    | float =>
      simp only [ratio, Prim.ratio, h0, if_false, Option.some.injEq, key, count_full_iff]
      simp [he]

theorem selectedOf_layout (enabled : Ty → Bool) (f : Ty → Prim) (t : Ty) :
    selectedOf (layout enabled f) = some t ↔
      enabled t = true ∧ ratio t (f t) = some 1 ∧
        ∀ t', rank t' < rank t → enabled t' = true → ratio t' (f t') ≠ some 1 := by
  have hall : ∀ P : Ty → Prop, (∀ t, P t) ↔ P .datetime ∧ P .int ∧ P .float ∧ P .text := by
    intro P
    exact ⟨fun h => ⟨h _, h _, h _, h _⟩, fun ⟨a, b, c, d⟩ t => by cases t <;> assumption⟩
  rw [hall]
  unfold layout order
  cases h1 : enabled .datetime <;> cases h2 : enabled .int <;> cases h3 : enabled .float <;>
    cases h4 : enabled .text <;> cases t <;>
    simp [h1, h2, h3, h4, rank, selectedOf] <;> split_ifs <;> simp_all

/-- **Selection**: after any history of updates and merges the selected data type is the first enabled type, in the order
date, whole number, number, text, that all values seen are of. -/
theorem C30_selected (toFloat : String → Option Flt) (enabled : Ty → Bool) (h : History) (hs : Sensible h)
    (hv : values h ≠ []) :
    ∃ c, run toFloat enabled h = .ok c ∧ ∀ t, selected c = some t ↔ IsFirst toFloat enabled h t := by
  obtain ⟨c, hc, hp⟩ := run_eq toFloat enabled h hs
  refine ⟨c, hc, fun t => ?_⟩
  rw [selected, hp, selectedOf_layout]
  simp only [ratio_one_iff, hv, ne_eq, not_false_eq_true, true_and]
  rfl

/-- Without values there is no data type. -/
theorem C30_unseen (toFloat : String → Option Flt) (enabled : Ty → Bool) (h : History) (hs : Sensible h)
    (hv : values h = []) : ∃ c, run toFloat enabled h = .ok c ∧ selected c = none := by
  obtain ⟨c, hc, hp⟩ := run_eq toFloat enabled h hs
  refine ⟨c, hc, ?_⟩
  rw [selected, hp]
  cases hsel : selectedOf (layout enabled fun t => ⟨countOf toFloat h t, (values h).length⟩) with
  | none => rfl
  | some t =>
    have := ((selectedOf_layout enabled _ t).1 hsel).2.1
    rw [ratio_one_iff] at this
    exact absurd hv this.1

/-- With the text profile enabled, a column with values always has a data type. -/
theorem C30_text_fallback (toFloat : String → Option Flt) (enabled : Ty → Bool) (h : History) (hs : Sensible h)
    (hv : values h ≠ []) (ht : enabled .text = true) :
    ∃ c t, run toFloat enabled h = .ok c ∧ selected c = some t ∧
      (t = .text ↔ ∀ t', rank t' < 3 → enabled t' = true → ¬ AllAre toFloat h t') := by
  obtain ⟨c, hc, hsel⟩ := C30_selected toFloat enabled h hs hv
  have hex : ∃ t, IsFirst toFloat enabled h t := by
    classical
    by_cases hd : enabled .datetime = true ∧ AllAre toFloat h .datetime
    · exact ⟨.datetime, hd.1, hd.2, fun t' h' => by cases t' <;> simp [rank] at h'⟩
    by_cases hi : enabled .int = true ∧ AllAre toFloat h .int
    · exact ⟨.int, hi.1, hi.2, fun t' h' he ha => by
        cases t' <;> simp [rank] at h'
        exact hd ⟨he, ha⟩⟩
    by_cases hf : enabled .float = true ∧ AllAre toFloat h .float
    · refine ⟨.float, hf.1, hf.2, fun t' h' he ha => ?_⟩
      cases t' <;> simp [rank] at h'
      · exact hd ⟨he, ha⟩
      · exact hi ⟨he, ha⟩
    · refine ⟨.text, ht, trivial, fun t' h' he ha => ?_⟩
      cases t' <;> simp [rank] at h'
      · exact hd ⟨he, ha⟩
      · exact hi ⟨he, ha⟩
      · exact hf ⟨he, ha⟩
  obtain ⟨t, htt⟩ := hex
  refine ⟨c, t, hc, (hsel t).2 htt, ?_⟩
  constructor
  · rintro rfl
    exact htt.2.2
  · intro hall
    cases t with
    | text => rfl
    | datetime => exact absurd htt.2.1 (hall _ (by simp [rank]) htt.1)
    | int => exact absurd htt.2.1 (hall _ (by simp [rank]) htt.1)
    | float => exact absurd htt.2.1 (hall _ (by simp [rank]) htt.1)

/-- Every ratio is the share of the values of that type, over all batches and merged profiles; it lies between 0 and
1. -/
theorem C30_ratios (toFloat : String → Option Flt) (enabled : Ty → Bool) (h : History) (hs : Sensible h)
    (hv : values h ≠ []) (t : Ty) (ht : enabled t = true) :
    ∃ c p, run toFloat enabled h = .ok c ∧ PyDict.get? c.profs t = some p ∧
      ratio t p = some ((howMany toFloat h t : ℚ) / (values h).length) ∧
      ∃ r, ratio t p = some r ∧ 0 ≤ r ∧ r ≤ 1 := by
  obtain ⟨c, hc, hp⟩ := run_eq toFloat enabled h hs
  have h0 : (values h).length ≠ 0 := fun e => hv (List.length_eq_zero_iff.1 e)
  have h0' : ((values h).length : ℚ) ≠ 0 := by exact_mod_cast h0
  have hle : countOf toFloat h t ≤ (values h).length := by
    cases t with
    | datetime => exact dates_le h hs
    | int => exact List.countP_le_length
    | float => exact List.countP_le_length
    | text => exact le_refl _
  have hr : ratio t ⟨countOf toFloat h t, (values h).length⟩ =
      some ((countOf toFloat h t : ℚ) / (values h).length) := by
    cases t with
    | text => simp only [ratio, h0, if_false, countOf, div_self h0']
    | _ => simp only [ratio, Prim.ratio, h0, if_false]
  refine ⟨c, _, hc, by rw [hp]; exact get?_layout enabled _ t ht, ?_, _, hr, by positivity, ?_⟩
  · rw [hr]
    cases t with
    | datetime => rfl
    | text => rfl
    | int =>
      simp only [countOf, howMany]
      congr 3
      apply List.countP_congr
      intro x _
      rw [isInt_iff]
      simp
    | float =>
      simp only [countOf, howMany]
      congr 3
      apply List.countP_congr
      intro x _
      rw [isFloat_iff]
      simp
  · rw [div_le_one (by positivity)]
    exact_mod_cast hle

/-- Whole numbers are numbers: whenever all values match int, they match float as well. -/
theorem C30_int_is_float (toFloat : String → Option Flt) (h : History) (hi : AllAre toFloat h .int) :
    AllAre toFloat h .float := fun x hx => let ⟨_, hz⟩ := hi x hx; ⟨_, hz⟩

/-! ## The report -/

theorem set_new (d : PyDict String (Option ℚ)) (k : String) (v : Option ℚ) (h : k ∉ PyDict.keys d) :
    PyDict.set d k v = d ++ [(k, v)] := by
  induction d with
  | nil => rfl
  | cons x d ih =>
    obtain ⟨k', v'⟩ := x
    simp only [PyDict.keys, List.map_cons, List.mem_cons, not_or] at h
    simp only [PyDict.set, if_neg (Ne.symm h.1), List.cons_append]
    rw [ih h.2]

theorem reportLoop_eq (c : Compiler) (l : PyDict Ty Prim) (ty : Option String) (rep : PyDict String (Option ℚ)) :
    (reportLoop c l ty rep).1 = (match ty with
      | some s => some s
      | none => (selectedOf l).map (shown c)) := by
  induction l generalizing ty rep with
  | nil => cases ty <;> rfl
  | cons x l ih =>
    obtain ⟨t, p⟩ := x
    simp only [reportLoop, ih, selectedOf]
    cases ty with
    | some s => simp
    | none => by_cases h : ratio t p = some 1 <;> simp [h]

/-- The report shows the selected type, except that text columns are shown under the label of the text profile. -/
theorem C30_report (c : Compiler) : (report c).1 = (selected c).map (shown c) := by
  rw [report, reportLoop_eq]
  rfl

theorem longestOf_eq (m : Option ℕ) (xs : List String) (hx : xs ≠ []) :
    ∃ k, longestOf m xs = some k ∧ (∀ x ∈ xs, x.length ≤ k) ∧ (∀ j, m = some j → j ≤ k) ∧
      ((∃ x ∈ xs, x.length = k) ∨ m = some k) := by
  induction xs generalizing m with
  | nil => exact absurd rfl hx
  | cons x xs ih =>
    by_cases hxs : xs = []
    · subst hxs
      cases m with
      | none => exact ⟨x.length, rfl, by simp, by simp, Or.inl ⟨x, by simp, rfl⟩⟩
      | some j =>
        refine ⟨max j x.length, rfl, by simp, by simp, ?_⟩
        rcases le_total j x.length with h | h
        · left
          exact ⟨x, by simp, by simp [h]⟩
        · right
          simp [h]
    · obtain ⟨k, h1, h2, h3, h4⟩ := ih
        (some (match m with | none => x.length | some k => max k x.length)) hxs
      refine ⟨k, h1, ?_, ?_, ?_⟩
      · intro y hy
        rcases List.mem_cons.1 hy with rfl | hy
        · have := h3 _ rfl
          cases m with
          | none => exact this
          | some j => exact le_trans (le_max_right _ _) this
        · exact h2 y hy
      · rintro j rfl
        exact le_trans (le_max_left _ _) (h3 _ rfl)
      · rcases h4 with ⟨y, hy, he⟩ | h4
        · exact Or.inl ⟨y, List.mem_cons_of_mem _ hy, he⟩
        · cases m with
          | none =>
            left
            injection h4 with h4
            exact ⟨x, by simp, h4⟩
          | some j =>
            injection h4 with h4
            rcases le_total j x.length with h | h
            · left
              refine ⟨x, by simp, ?_⟩
              rw [← h4]
              simp [h]
            · right
              rw [← h4]
              simp [h]

/-- A sequence of updates. -/
def stream : List Batch → History
  | [] => .new
  | b :: bs => .update (stream bs) b

theorem stream_longest (toFloat : String → Option Flt) (enabled : Ty → Bool) (bs : List Batch) :
    ∃ c, run toFloat enabled (stream bs) = .ok c ∧ (values (stream bs) = [] → c.longest = none) ∧
      (values (stream bs) ≠ [] → ∃ k, c.longest = some k ∧ (∀ x ∈ values (stream bs), x.length ≤ k) ∧
        ∃ x ∈ values (stream bs), x.length = k) := by
  induction bs with
  | nil => exact ⟨_, rfl, fun _ => rfl, fun h => absurd rfl h⟩
  | cons b bs ih =>
    obtain ⟨c, hc, h1, h2⟩ := ih
    refine ⟨update toFloat c b, by simp only [stream, run, hc], ?_, ?_⟩
    · intro h
      simp only [stream, values, List.append_eq_nil_iff] at h
      simp [update, h.2, longestOf, h1 h.1]
    · intro h
      simp only [stream, values] at h ⊢
      by_cases hb : b.values = []
      · rw [hb, List.append_nil] at h ⊢
        obtain ⟨k, e, r⟩ := h2 h
        exact ⟨k, by simp [update, hb, longestOf, e], r⟩
      · obtain ⟨k, e1, e2, e3, e4⟩ := longestOf_eq c.longest b.values hb
        refine ⟨k, e1, ?_, ?_⟩
        · intro x hx
          rcases List.mem_append.1 hx with hx | hx
          · obtain ⟨j, f1, f2, f3⟩ := h2 (List.ne_nil_of_mem hx)
            exact le_trans (f2 x hx) (e3 j f1)
          · exact e2 x hx
        · rcases e4 with ⟨x, hx, he⟩ | e4
          · exact ⟨x, List.mem_append_right _ hx, he⟩
          · by_cases hne : values (stream bs) = []
            · rw [h1 hne] at e4; cases e4
            · obtain ⟨j, f1, f2, x, hx, he⟩ := h2 hne
              rw [f1] at e4
              injection e4 with e4
              exact ⟨x, List.mem_append_left _ hx, he.trans e4⟩

/-- **String or text**: after updates, the last with values, a text column is shown as "string" exactly if its longest
value has 1 to 255 characters. -/
theorem C30_label (toFloat : String → Option Flt) (enabled : Ty → Bool) (b : Batch) (bs : List Batch)
    (hb : b.values ≠ []) (hne : ∃ x ∈ values (stream (b :: bs)), x ≠ "") :
    ∃ c, run toFloat enabled (stream (b :: bs)) = .ok c ∧
      (shown c .text = "string" ↔ ∀ x ∈ values (stream (b :: bs)), x.length ≤ 255) ∧
      (shown c .text = "text" ↔ ∃ x ∈ values (stream (b :: bs)), 255 < x.length) := by
  obtain ⟨c, hc, _, h2⟩ := stream_longest toFloat enabled (b :: bs)
  obtain ⟨x0, hx0, hx0'⟩ := hne
  obtain ⟨k, e1, e2, x, hx, e3⟩ := h2 (List.ne_nil_of_mem hx0)
  obtain ⟨d, hd, _⟩ := stream_longest toFloat enabled bs
  have hcd : c = update toFloat d b := by
    simp only [stream, run, hd] at hc
    injection hc with hc
    exact hc.symm
  have hk : k ≠ 0 := by
    intro h
    have := e2 x0 hx0
    rw [h] at this
    exact hx0' (String.length_eq_zero_iff.1 (by omega))
  have hlab : shown c .text = if k ≤ 255 then "string" else "text" := by
    have e1' : longestOf d.longest b.values = some k := by rw [hcd] at e1; exact e1
    simp only [shown, hcd, update, if_neg hb, e1', relabel, if_neg hk]
  refine ⟨c, hc, ?_, ?_⟩
  · rw [hlab]
    split_ifs with h
    · simp only [true_iff]
      exact fun y hy => le_trans (e2 y hy) h
    · constructor
      · intro h'; simp at h'
      · intro h'
        have := h' x hx
        omega
  · rw [hlab]
    split_ifs with h
    · constructor
      · intro h'; simp at h'
      · rintro ⟨y, hy, hy'⟩
        have := e2 y hy
        omega
    · simp only [true_iff]
      exact ⟨x, hx, by omega⟩

/-- **Counterexample**: merging forgets the label; two profiles that show "string" merge into one that shows "text",
although a single profile of the same values shows "string". -/
theorem C30_merged_label_fails :
    let toFloat : String → Option Flt := fun _ => none
    let b : Batch := ⟨["ab"], 0⟩
    let on : Ty → Bool := fun t => t == .text
    let show1 (r : Except Err Compiler) : Option String := match r with | .ok c => (report c).1 | .error _ => none
    show1 (run toFloat on (.update .new b)) = some "string" ∧
      show1 (run toFloat on (.merge (.update .new b) (.update .new b))) = some "text" ∧
      show1 (run toFloat on (.update (.update .new b) b)) = some "string" := by
  refine ⟨?_, ?_, ?_⟩ <;> decide +kernel

/-- Columns of empty texts are shown as "text". -/
theorem C30_empty_strings_label :
    ∃ c, run (fun _ => none) (fun t => t == .text) (.update .new ⟨["", ""], 0⟩) = .ok c ∧ (report c).1 = some "text" :=
  ⟨_, rfl, by decide +kernel⟩

/-! ## Concrete case -/

/-- A reading of four texts. -/
def read (s : String) : Option Flt :=
  if s = "1" then some (.fin 1) else if s = "-2.0" then some (.fin (-2)) else if s = "2.5" then some (.fin (5/2))
  else if s = "inf" then some .inf else none

example : Sensible (.merge (.update .new ⟨["1", "-2.0"], 0⟩) (.update .new ⟨["2.5"], 0⟩)) := by
  simp [Sensible]

example : ∃ c, run read (fun _ => true) (.update .new ⟨["1", "-2.0"], 0⟩) = .ok c ∧ selected c = some .int ∧
    PyDict.get? (report c).2 "float" = some (some 1) := ⟨_, rfl, by decide +kernel, by decide +kernel⟩

example : ∃ c, run read (fun _ => true) (.merge (.update .new ⟨["1", "-2.0"], 0⟩) (.update .new ⟨["2.5", "inf"], 0⟩)) = .ok c ∧
    selected c = some .float ∧ PyDict.get? (report c).2 "int" = some (some (1/2)) :=
  ⟨_, rfl, by decide +kernel, by decide +kernel⟩

example : ∃ c, run read (fun _ => true) (.update (.update .new ⟨["1", "-2.0"], 0⟩) ⟨["x"], 0⟩) = .ok c ∧
    selected c = some .text ∧ (report c).1 = some "string" := ⟨_, rfl, by decide +kernel, by decide +kernel⟩

end Verif.ColumnTypes
