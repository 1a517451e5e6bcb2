import Mathlib.Tactic.Ring
import Verif.Model.Double
import Verif.Lemmas.TableRead
import Verif.Props.Reservoir

/-!
# C89: A table is read with all its cells
-/

namespace Verif.Props.TableRead

open Verif Verif.TableRead Verif.Spec.TableRead

variable {D : Type}

/-! ### Parquet -/

theorem readAll_ok {E : Doubles D} {sel : List String} {f : File D} {fr : Frame} (hg : f.sizes ≠ [])
    (h : readAll E sel f = .ok fr) :
    ∃ cols, selectIf .keyError sel f.columns = .ok cols ∧ fr = ⟨f.sizes.flatMap counted, cols.map fun c => (c.1, c.2.whole E)⟩ := by
  rw [readAll, if_neg hg] at h
  rcases hs : selectIf .keyError sel f.columns with e | cols
  · rw [hs] at h; cases h
  · rw [hs] at h; cases h; exact ⟨cols, rfl, rfl⟩

theorem readSample_ok {E : Doubles D} {sel : List String} {sample : List ℕ} {n : ℕ} {f : File D} {fr : Frame}
    (h : readSample E sel sample n f = .ok fr) :
    ∃ cols, selectIf .exception sel f.columns = .ok cols ∧
      fr = ⟨counted (min n f.sizes.sum), cols.map fun c => (c.1, (c.2.sampled E sample n).texts E)⟩ := by
  rw [readSample] at h
  rcases hs : selectIf .exception sel f.columns with e | cols
  · rw [hs] at h; cases h
  · rw [hs] at h; cases h; exact ⟨cols, rfl, rfl⟩

/-- The texts of a column, read row group by row group, are those of its cells. -/
theorem faithful (E : Doubles D) (c : Column D) (hh : ¬ Holed c) : Faithful E c.cells c (c.whole E) := by
  obtain ⟨h1, h2⟩ := texts_at E c (List.range c.cells) (by simp)
  rw [at_all, ← whole_flat] at h1 h2
  rw [List.length_range] at h1
  refine ⟨h1, fun i h => ?_⟩
  obtain ⟨t, ht, hc⟩ := h2 hh i (by rw [List.length_range, ← h1]; exact h)
  rw [List.getElem?_eq_getElem h] at ht
  cases ht
  simpa using hc

/-- Every cell of the columns asked for is read, in order, as its text.  Missing: columns of integers with nulls, see
`C89_integers_fails`. -/
theorem C89_cells_partial (E : Doubles D) (sel : List String) (f : File D) (fr : Frame) (hw : Well f)
    (hn : (f.columns.map Prod.fst).Nodup) (hg : f.sizes ≠ []) (h : readAll E sel f = .ok fr) :
    fr.labels.length = rows f ∧
      ∃ chosen, Chosen sel f.columns chosen ∧
        List.Forall₂ (fun c t => t.1 = c.1 ∧ (¬ Holed c.2 → Faithful E (rows f) c.2 t.2)) chosen fr.columns := by
  obtain ⟨cols, hs, rfl⟩ := readAll_ok hg h
  have hc := select_ok hn hs
  refine ⟨labels_length _, cols, hc, ?_⟩
  rw [List.forall₂_map_right_iff, List.forall₂_same]
  refine fun c hm => ⟨rfl, fun hh => ?_⟩
  have := faithful E c.2 hh
  rwa [cells_sum, hw c (chosen_mem hc hm)] at this

/-- In a column of integers with a null every integer is read as the text of the double nearest to it. -/
theorem C89_integers (E : Doubles D) (groups : List (List (Option ℤ))) (h : none ∈ groups.flatten) (i : ℕ) (z : ℤ)
    (hi : groups.flatten[i]? = some (some z)) : ((Column.ints groups).whole E)[i]? = some (E.shown (E.ofInt z)) := by
  rw [whole_flat, Column.flat, texts_int_holed E _ h, List.getElem?_map, hi]
  rfl

/-- The cells do not depend on the division into row groups. -/
theorem C89_division (E : Doubles D) (sel : List String) (f g : File D) (fr gr : Frame) (h : SameCells f g) (hf : f.sizes ≠ [])
    (hg : g.sizes ≠ []) (h1 : readAll E sel f = .ok fr) (h2 : readAll E sel g = .ok gr) : fr.columns = gr.columns := by
  obtain ⟨cols, hs, rfl⟩ := readAll_ok hf h1
  obtain ⟨dols, ht, rfl⟩ := readAll_ok hg h2
  have key : ∀ (a b : List (String × Column D)), List.Forall₂ (fun c d => c.1 = d.1 ∧ Same c.2 d.2) a b →
      (a.map fun c => (c.1, c.2.whole E)) = b.map fun c => (c.1, c.2.whole E) := by
    intro a b hab
    induction hab with
    | nil => rfl
    | cons hx _ ih => rw [List.map_cons, List.map_cons, ih, hx.1, whole_flat, flat_same E hx.2, ← whole_flat]
  have filt : ∀ (s : String) (a b : List (String × Column D)), List.Forall₂ (fun c d => c.1 = d.1 ∧ Same c.2 d.2) a b →
      List.Forall₂ (fun c d => c.1 = d.1 ∧ Same c.2 d.2) (a.filter fun c => c.1 = s) (b.filter fun c => c.1 = s) := by
    intro s a b hab
    induction hab with
    | nil => exact .nil
    | @cons x y l m hx _ ih =>
      rw [List.filter_cons, List.filter_cons, hx.1]
      split
      · exact .cons hx ih
      · exact ih
  refine key cols dols ?_
  unfold selectIf at hs ht
  by_cases he : sel = []
  · rw [if_pos he] at hs ht
    cases hs; cases ht; exact h
  · rw [if_neg he] at hs ht
    unfold select at hs ht
    split at hs
    · split at ht
      · cases hs; cases ht
        clear he h1 h2
        rename_i h1 h2
        clear h1 h2
        induction sel with
        | nil => exact .nil
        | cons s t ih => rw [List.flatMap_cons, List.flatMap_cons]; exact List.rel_append (filt s _ _ h) ih
      · cases ht
    · cases hs

/-- A column that is not there is refused, and nothing else is. -/
theorem C89_missing (E : Doubles D) (sel : List String) (f : File D) (hg : f.sizes ≠ []) :
    (∃ fr, readAll E sel f = .ok fr) ∧ (∀ s ∈ sel, s ∈ f.columns.map Prod.fst) ∨
      readAll E sel f = .error .keyError ∧ ∃ s ∈ sel, s ∉ f.columns.map Prod.fst := by
  rcases hs : selectIf .keyError sel f.columns with e | cols
  · obtain ⟨rfl, h⟩ := select_error hs
    exact Or.inr ⟨by rw [readAll, if_neg hg, hs], h⟩
  · refine Or.inl ⟨⟨_, by rw [readAll, if_neg hg, hs]⟩, fun s hsel => ?_⟩
    unfold selectIf at hs
    split at hs
    · rename_i he; subst he; simp at hsel
    · unfold select at hs
      split at hs
      · rename_i hall
        obtain ⟨c, hc, hcs⟩ := List.any_eq_true.mp (List.all_eq_true.mp hall s hsel)
        exact List.mem_map.mpr ⟨c, hc, by simpa using hcs⟩
      · cases hs

/-- The labels of the rows are distinct exactly if at most one row group has rows. -/
theorem C89_labels (E : Doubles D) (sel : List String) (f : File D) (fr : Frame) (h : readAll E sel f = .ok fr) :
    fr.labels.Nodup ↔ (f.sizes.filter (0 < ·)).length ≤ 1 := by
  by_cases hg : f.sizes = []
  · rw [readAll, if_pos hg] at h; cases h; simp [hg]
  · obtain ⟨cols, _, rfl⟩ := readAll_ok hg h
    show (f.sizes.flatMap counted).Nodup ↔ _
    generalize f.sizes = l
    clear h hg
    induction l with
    | nil => simp
    | cons s t ih =>
      rw [List.flatMap_cons, List.filter_cons]
      by_cases hs : 0 < s
      · rw [if_pos (by simpa using hs), List.length_cons, List.nodup_append]
        have zero : (0 : ℤ) ∈ counted s := (mem_counted _ _).mpr (by omega)
        constructor
        · rintro ⟨_, _, hd⟩
          have : t.filter (fun x => decide (0 < x)) = [] := by
            refine List.filter_eq_nil_iff.mpr fun k hk hpos => ?_
            have hpos : 0 < k := by simpa using hpos
            exact hd 0 zero 0 (List.mem_flatMap.mpr ⟨k, hk, (mem_counted _ _).mpr (by omega)⟩) rfl
          rw [this]; simp
        · intro hl
          have e : t.filter (fun x => decide (0 < x)) = [] := List.length_eq_zero_iff.mp (by omega)
          have e' : t.flatMap counted = [] := by
            rw [List.flatMap_eq_nil_iff]
            intro k hk
            have : ¬ 0 < k := by simpa using List.filter_eq_nil_iff.mp e k hk
            have : k = 0 := by omega
            subst this; rfl
          rw [e']
          exact ⟨counted_nodup s, by simp, by simp⟩
      · have : s = 0 := by omega
        subst this
        rw [if_neg (by simp)]
        simpa [counted] using ih

/-- A column without nulls, read from a file and profiled completely: as many nulls are reported as rows of the file have a label that
the largest row group has too, although all values are passed on. -/
theorem C89_nulls {isNull : String → Bool} {setOrder : List ℤ → List ℤ} (hset : ∀ l, (setOrder l).Perm l) (E : Doubles D)
    (sel : List String) (f : File D) (fr : Frame) (h : readAll E sel f = .ok fr) (name : String) (texts : List String)
    (ht : (name, texts) ∈ fr.columns) (hl : texts.length = rows f) (hsome : 0 < rows f) (hnone : ∀ t ∈ texts, isNull t = false)
    (m : ℕ) (hm : m ∈ f.sizes) (hle : ∀ k ∈ f.sizes, k ≤ m) (minTrue : ℕ) (given : Bool) (chunks : List (List ℕ))
    (hc : chunks.flatten.Perm (List.range (rows f))) :
    ∃ values base, Nulls.clean isNull setOrder (fr.labels.zip texts) (rows f) minTrue given chunks = .ok (values, base) ∧
      values.Perm texts ∧ base.sampleSize = rows f ∧ base.nullCount = rows f - m := by
  have hg : f.sizes ≠ [] := by intro e; simp [rows, e] at hsome
  obtain ⟨cols, _, rfl⟩ := readAll_ok hg h
  have hlab : (f.sizes.flatMap counted).length = texts.length := by rw [labels_length, hl]; rfl
  have hz : ((f.sizes.flatMap counted).zip texts).length = rows f := by rw [List.length_zip, hlab, Nat.min_self, hl]
  have h1 : ((f.sizes.flatMap counted).zip texts).map Prod.fst = f.sizes.flatMap counted := List.map_fst_zip hlab.le
  have h2 : ((f.sizes.flatMap counted).zip texts).map Prod.snd = texts := List.map_snd_zip hlab.ge
  obtain ⟨v, b, e1, e2, e3, e4⟩ := clean_repeated (isNull := isNull) (setOrder := setOrder) hset
    (col := (f.sizes.flatMap counted).zip texts) (ss := rows f) (mt := minTrue) (given := given) (chunks := chunks) (m := m)
    (by intro e; rw [e] at hz; simp at hz; omega)
    (fun c hc => hnone c.2 (by rw [← h2]; exact List.mem_map.mpr ⟨c, hc, rfl⟩))
    (by rw [hz]; exact hc) (by rw [hz]) (by rw [h1]; exact mem_labels hm hle)
  rw [h2] at e2
  rw [hz] at e3 e4
  exact ⟨v, b, e1, e2, e3, e4⟩

/-- A sample has the number of rows asked for, or all; the rows are the same in all columns and in the order of the file; their labels
are distinct. -/
theorem C89_sample_partial (E : Doubles D) (sel : List String) (sample : List ℕ) (n : ℕ) (f : File D) (fr : Frame) (hw : Well f)
    (hn : (f.columns.map Prod.fst).Nodup) (hs : sample.Nodup) (hl : n < rows f → sample.length = n) (hb : ∀ i ∈ sample, i < rows f)
    (h : readParquet E sel sample (some n) f = .ok fr) :
    fr.labels.length = min n (rows f) ∧ fr.labels.Nodup ∧
      ∃ keep chosen, Rows n (rows f) keep ∧ Chosen sel f.columns chosen ∧
        List.Forall₂ (fun c t => t.1 = c.1 ∧ t.2.length = keep.length ∧
          (¬ Holed c.2 → ∀ j, ∀ hj : j < keep.length, ∃ x, t.2[j]? = some x ∧ CellText E c.2 keep[j] x)) chosen fr.columns := by
  obtain ⟨cols, hsel, rfl⟩ := readSample_ok h
  have hc := select_ok hn hsel
  have hk : Rows n (rows f) (kept sample n (rows f)) := kept_rows hs hl hb
  refine ⟨counted_length _, counted_nodup _, kept sample n (rows f), cols, hk, hc, ?_⟩
  rw [List.forall₂_map_right_iff, List.forall₂_same]
  intro c hm
  have hcells : c.2.cells = rows f := by rw [cells_sum, hw c (chosen_mem hc hm)]; rfl
  have := texts_at E c.2 (kept sample n (rows f)) (by rw [hcells]; exact hk.bound)
  rw [sampled_eq, hcells]
  exact ⟨rfl, this⟩

/-- Asking for a sample of at least as many rows as there are gives the whole table, with other labels. -/
theorem C89_sample_all (E : Doubles D) (sample : List ℕ) (n : ℕ) (f : File D) (fr gr : Frame) (sel : List String) (hw : Well f)
    (hg : f.sizes ≠ []) (hn : (f.columns.map Prod.fst).Nodup) (hr : rows f ≤ n) (h1 : readParquet E sel sample (some n) f = .ok fr)
    (h2 : readParquet E sel sample none f = .ok gr) : fr.columns = gr.columns := by
  obtain ⟨cols, hs, rfl⟩ := readSample_ok h1
  obtain ⟨dols, ht, rfl⟩ := readAll_ok hg h2
  have hc := select_ok hn hs
  have e : cols = dols := by
    unfold selectIf select at hs ht
    split at hs
    · rename_i he; rw [if_pos he] at ht; cases hs; cases ht; rfl
    · rename_i he
      rw [if_neg he] at ht
      split at hs
      · rename_i hall; rw [if_pos hall] at ht; cases hs; cases ht; rfl
      · cases hs
  subst e
  refine List.map_congr_left fun c hm => ?_
  have hcells : c.2.cells = rows f := by rw [cells_sum, hw c (chosen_mem hc hm)]; rfl
  rw [sampled_eq, kept, if_neg (by rw [hcells]; omega), at_all, whole_flat]

/-! #### Cases -/

/-- Doubles as rationals, and no number. -/
def doubles : Doubles (Option ℚ) where
  ofInt z := some (Double.dbl z)
  nan := none
  shown
    | none => "nan"
    | some q => toString q ++ ".0"
  dec z := toString z

instance (f : File D) : Decidable (Well f) := by unfold Well; infer_instance

/-- Two row groups. -/
def two : File (Option ℚ) := ⟨[2, 1], [("n", .ints [[some 1, some 2], [some 3]]), ("t", .texts [[some "a", none], [some "c"]])]⟩

/-- The same, with a null. -/
def holed : File (Option ℚ) := ⟨[2, 1], [("n", .ints [[some 9007199254740993, some 2], [none]])]⟩

example : Well two := by decide +kernel

example : readAll doubles [] two = .ok ⟨[0, 1, 0], [("n", ["1", "2", "3"]), ("t", ["a", "None", "c"])]⟩ := by decide +kernel

example : readAll doubles ["t"] two = .ok ⟨[0, 1, 0], [("t", ["a", "None", "c"])]⟩ := by decide +kernel

example : readAll doubles ["u"] two = .error .keyError := by decide +kernel

example : readParquet doubles [] [0, 2] (some 2) two = .ok ⟨[0, 1], [("n", ["1", "3"]), ("t", ["a", "c"])]⟩ := by decide +kernel

example : SameCells two ⟨[3], [("n", .ints [[some 1, some 2, some 3]]), ("t", .texts [[some "a", none, some "c"]])]⟩ :=
  .cons ⟨rfl, .ints rfl⟩ (.cons ⟨rfl, .texts rfl⟩ .nil)

/-- A null in another row changes the texts of integers, and two integers can get the same. -/
theorem C89_integers_fails : ∃ (f : File (Option ℚ)) (fr : Frame) (c : Column (Option ℚ)) (texts : List String), Well f ∧
    f.sizes ≠ [] ∧ readAll doubles [] f = .ok fr ∧ f.columns = [("n", c)] ∧ fr.columns = [("n", texts)] ∧
    ¬ Faithful doubles (rows f) c texts ∧ texts[0]? = some "9007199254740992.0" := by
  refine ⟨holed, ⟨[0, 1, 0], [("n", ["9007199254740992.0", "2.0", "nan"])]⟩, .ints [[some 9007199254740993, some 2], [none]],
    ["9007199254740992.0", "2.0", "nan"], by decide +kernel, by decide, by decide +kernel, rfl, rfl, ?_, rfl⟩
  rintro ⟨_, h⟩
  have := h 1 (by decide)
  generalize ht : (["9007199254740992.0", "2.0", "nan"] : List String)[1] = t at this
  cases this with
  | int hz =>
    have : (2 : ℤ) = _ := Option.some.inj (Option.some.inj hz)
    subst this
    exact absurd ht (by decide +kernel)
  | noInt hz => cases hz

/-- A sample that misses the null reads the integers otherwise than the whole file. -/
theorem C89_sample_fails : ∃ (f : File (Option ℚ)) (fr gr : Frame), Well f ∧ readParquet doubles [] [1] (some 1) f = .ok fr ∧
    readParquet doubles [] [] none f = .ok gr ∧ fr.columns = [("n", ["2"])] ∧
    gr.columns = [("n", ["9007199254740992.0", "2.0", "nan"])] :=
  ⟨holed, ⟨[0], [("n", ["2"])]⟩, ⟨[0, 1, 0], [("n", ["9007199254740992.0", "2.0", "nan"])]⟩, by decide +kernel, by decide +kernel,
    by decide +kernel, rfl, rfl⟩

/-- A file of two row groups without nulls is reported to have nulls. -/
theorem C89_nulls_fails : ∃ (f : File (Option ℚ)) (fr : Frame) (texts : List String) (values : List String) (base : Nulls.Base), Well f ∧
    readAll doubles [] f = .ok fr ∧ fr.columns = [("n", texts)] ∧
    Nulls.clean (fun t => t = "" || t = "nan" || t = "None") id (fr.labels.zip texts) (rows f) 0 false [[2, 0, 3, 1]] =
      .ok (values, base) ∧
    values.length = 4 ∧ base.sampleSize = 4 ∧ base.nullCount = 2 := by
  refine ⟨⟨[2, 2], [("n", .ints [[some 1, some 2], [some 3, some 4]])]⟩, ⟨[0, 1, 0, 1], [("n", ["1", "2", "3", "4"])]⟩,
    ["1", "2", "3", "4"], _, _, by decide +kernel, by decide +kernel, rfl, rfl, ?_, ?_, ?_⟩ <;> decide +kernel

/-- A file without row groups loses its columns, and a column that is not there is not refused. -/
theorem C89_empty_fails : ∃ f : File (Option ℚ), Well f ∧ f.columns ≠ [] ∧ readAll doubles ["x"] f = .ok ⟨[], []⟩ ∧
    readParquet doubles [] [] (some 1) f = .ok ⟨[], [("n", [])]⟩ :=
  ⟨⟨[], [("n", .ints [])]⟩, by decide +kernel, by simp, by decide +kernel, by decide +kernel⟩

/-! ### Delimited files -/

/-- With settings given, the whole file is parsed with them, unless the delimiter only ends the lines of the first part, or a line of
blanks holds it. -/
theorem C89_given (L : Lib) (s : Settings) (text : List Char) (d : Char) (h : Option ℕ) (ls : List (List Char))
    (hd : s.delimiter = some (String.ofList [d])) (hh : s.header = .row h) (hc : s.checked = true) (hr : s.nrows = none)
    (hls : Lines (L.front text) ls) :
    (Hollow L.blank d ls → loadFile L s text = (s, .error .indexError)) ∧
    (¬ Hollow L.blank d ls → ¬ OnlyEnds L.blank d ls →
      loadFile L s text = (s, L.parse ⟨some (String.ofList [d]), h, s.columns, h = none, "\""⟩ text)) ∧
    (L.front text ≠ [] → OnlyEnds L.blank d ls →
      loadFile L s text = ({ s with delimiter := none }, L.parse ⟨none, h, s.columns, h = none, "\""⟩ text)) := by
  have hm : missing s.delimiter = false := by rw [hd]; simp [missing, ← String.toList_inj]
  have hf : found L s (L.front text) = s := by simp [found, hm, hc]
  have hsplit := splitNl_of_lines hls
  have hlist : (s.delimiter.getD "").toList = [d] := by rw [hd]; simp
  have hnotHollow : OnlyEnds L.blank d ls → ¬ Hollow L.blank d ls := by
    rintro ho ⟨l, hl, h1, h2⟩
    have hne : l ≠ [] := by rintro rfl; simp [Once] at h1
    obtain ⟨head, tail, rfl, _, _, _, hb⟩ := ho l hl hne
    have := h2 d (by simp)
    rw [hb] at this; cases this
  have used : s.header.used = h := by rw [hh]; rfl
  rw [loadFile, hf]
  have hspec := countLast_spec L.blank d ls
  have hempty : (L.front text).isEmpty = true → ls = [[]] := by
    intro he
    rw [List.isEmpty_iff] at he
    rw [← hsplit, he]; rfl
  refine ⟨fun hho => ?_, fun hho hoe => ?_, fun hne hoe => ?_⟩
  · have hne : (L.front text).isEmpty = false := by
      rcases he : (L.front text).isEmpty with _ | _
      · rfl
      · obtain ⟨l, hl, h1, _⟩ := hho
        rw [hempty he] at hl
        rw [List.mem_singleton] at hl
        subst hl
        simp [Once] at h1
    rcases hspec with ⟨_, h2⟩ | ⟨h1, _⟩
    · simp only [trimmed, hm, hne, Bool.or_self, Bool.false_eq_true, if_false, hlist, hsplit, h2]
    · exact absurd hho h1
  · have hne : (L.front text).isEmpty = false := by
      rcases he : (L.front text).isEmpty with _ | _
      · rfl
      · refine absurd ?_ hoe
        rw [hempty he]
        intro l hl hn
        exact absurd (List.mem_singleton.mp hl) hn
    rcases hspec with ⟨h1, _⟩ | ⟨_, a, b, h2, _, h4⟩
    · exact absurd h1 hho
    · have hab : a ≠ b := fun e => hoe (h4.mp e)
      have ht : trimmed L.blank s (L.front text) = .ok s := by
        simp only [trimmed, hm, hne, Bool.or_self, Bool.false_eq_true, if_false, hlist, hsplit, h2, if_neg hab]
      rw [ht]
      simp only [hr, readCsv, used, hd]
  · have hne' : (L.front text).isEmpty = false := by
      rcases he : (L.front text).isEmpty with _ | _
      · rfl
      · exact absurd (List.isEmpty_iff.mp he) hne
    rcases hspec with ⟨h1, _⟩ | ⟨_, a, b, h2, _, h4⟩
    · exact absurd h1 (hnotHollow hoe)
    · have hab : a = b := h4.mpr hoe
      have ht : trimmed L.blank s (L.front text) = .ok { s with delimiter := none } := by
        simp only [trimmed, hm, hne', Bool.or_self, Bool.false_eq_true, if_false, hlist, hsplit, h2, if_pos hab]
      rw [ht]
      simp only [hr, readCsv, used]

theorem lines_line : ∀ (text : List Char), ∀ l ∈ lines text, Spec.Reservoir.Line l
  | [], l, h => by simp [lines] at h
  | c :: t, l, h => by
    have ih := lines_line t
    rw [lines] at h
    split at h
    · rename_i hc
      rcases List.mem_cons.mp h with rfl | h
      · exact ⟨by simp, by simp⟩
      · exact ih l h
    · rename_i hc
      rcases ht : lines t with _ | ⟨x, xs⟩
      · rw [ht] at h
        rw [List.mem_singleton.mp h]
        exact ⟨by simp, by simp⟩
      · rw [ht] at h
        rcases List.mem_cons.mp h with rfl | h
        · obtain ⟨h1, h2⟩ := ih x (by rw [ht]; simp)
          refine ⟨by simp, ?_⟩
          rw [List.dropLast_cons_of_ne_nil h1, List.mem_cons, not_or]
          exact ⟨fun e => hc e.symm, h2⟩
        · exact ih l (by rw [ht]; simp [h])

/-- With a number of rows given, the header line and a sample of the lines below it are parsed. -/
theorem C89_given_sample (L : Lib) (s : Settings) (text : List Char) (d : Char) (h n : ℕ) (ls : List (List Char))
    (hd : s.delimiter = some (String.ofList [d])) (hh : s.header = .row (some h)) (hc : s.checked = true) (hr : s.nrows = some n)
    (hn : 0 < n) (hp : Spec.Reservoir.Proper n L.draws) (hls : Lines (L.front text) ls) (h1 : ¬ Hollow L.blank d ls)
    (h2 : ¬ OnlyEnds L.blank d ls) (line : List Char) (hline : (lines text)[h]? = some line) :
    ∃ sampled out, loadFile L s text = (s, L.parse ⟨some (String.ofList [d]), some 0, s.columns, false, "\""⟩ sampled) ∧
      Spec.Reservoir.linesOf sampled = Spec.Reservoir.content line :: out.map Spec.Reservoir.content ∧
      out.length = min n ((lines text).length - (h + 1)) ∧ Spec.Reservoir.Sample ((lines text).drop (h + 1)) out := by
  have hm : missing s.delimiter = false := by rw [hd]; simp [missing, ← String.toList_inj]
  have hf : found L s (L.front text) = s := by simp [found, hm, hc]
  have hsplit := splitNl_of_lines hls
  have hlist : (s.delimiter.getD "").toList = [d] := by rw [hd]; simp
  have hne : (L.front text).isEmpty = false := by
    rcases he : (L.front text).isEmpty with _ | _
    · rfl
    · refine absurd ?_ h2
      rw [List.isEmpty_iff] at he
      rw [← hsplit, he]
      intro l hl hn
      exact absurd (List.mem_singleton.mp hl) hn
  have ht : trimmed L.blank s (L.front text) = .ok s := by
    rcases countLast_spec L.blank d ls with ⟨h3, _⟩ | ⟨_, a, b, h3, _, h4⟩
    · exact absurd h3 h1
    · have hab : a ≠ b := fun e => h2 (h4.mp e)
      simp only [trimmed, hm, hne, Bool.or_self, Bool.false_eq_true, if_false, hlist, hsplit, h3, if_neg hab]
  obtain ⟨sampled, pos, out, e1, -, e2⟩ := Props.Reservoir.C43_text L.draws (some h) n (lines text) (lines_line text) hn hp
    fun h' e => by cases e; exact (List.getElem?_eq_some_iff.mp hline).1
  obtain ⟨rfl, e3, e4, e5⟩ := e2 h line rfl hline
  refine ⟨sampled, out, ?_, e3, e4, e5⟩
  rw [loadFile, hf, ht]
  obtain ⟨k, rfl⟩ : ∃ k, n = k + 1 := ⟨n - 1, by omega⟩
  simp only [hr, readCsv, hh, Header.used, e1, hd]
  simp

/-- Settings that are not given are those guessed from the first part of the file, and the file is parsed with them. -/
theorem C89_guessed (L : Lib) (s : Settings) (text : List Char) (d : Char) (q : Option String) (ls : List (List Char))
    (hd : s.delimiter = none) (hq : s.quote = none) (hh : s.header = .auto) (hr : s.nrows = none)
    (hg : L.guess (L.front text) = (some (String.ofList [d]), q)) (hls : Lines (L.front text) ls) (h1 : ¬ Hollow L.blank d ls)
    (h2 : ¬ OnlyEnds L.blank d ls) :
    ∃ h, h = L.header (L.front text) (some (String.ofList [d])) q ∧
      loadFile L s text = (⟨some (String.ofList [d]), q, .row h, true, s.columns, none⟩,
        L.parse ⟨some (String.ofList [d]), h, s.columns, h = none, "\""⟩ text) := by
  refine ⟨_, rfl, ?_⟩
  have hf : found L s (L.front text) =
      ⟨some (String.ofList [d]), q, .row (L.header (L.front text) (some (String.ofList [d])) q), true, s.columns, none⟩ := by
    obtain ⟨sd, sq, sh, sc, sl, sn⟩ := s
    cases hd; cases hq; cases hh; cases hr
    simp [found, guessed, headed, missing, hg]
  rw [loadFile, hf]
  have := (C89_given L ⟨some (String.ofList [d]), q, .row (L.header (L.front text) (some (String.ofList [d])) q), true, s.columns, none⟩
    text d _ ls rfl rfl rfl rfl hls).2.1 h1 h2
  rw [loadFile] at this
  have hf' : found L ⟨some (String.ofList [d]), q, .row (L.header (L.front text) (some (String.ofList [d])) q), true, s.columns, none⟩
      (L.front text) =
      ⟨some (String.ofList [d]), q, .row (L.header (L.front text) (some (String.ofList [d])) q), true, s.columns, none⟩ := by
    simp [found, missing, ← String.toList_inj]
  rw [hf'] at this
  exact this

/-- A text and a file of the same characters are read alike if the delimiter does not only end the lines and no line of blanks holds
it. -/
theorem C89_text (L : Lib) (s : Settings) (text : List Char) (d : Char) (h : Option ℕ) (q : String) (ls : List (List Char))
    (hd : s.delimiter = some (String.ofList [d])) (hh : s.header = .row h) (hc : s.checked = true) (hr : s.nrows = none)
    (hq : s.quote = some q) (hq' : q ≠ "") (hls : Lines (L.front text) ls) (h1 : ¬ Hollow L.blank d ls)
    (h2 : ¬ OnlyEnds L.blank d ls) : loadText L s text = loadFile L s text := by
  rw [(C89_given L s text d h ls hd hh hc hr hls).2.1 h1 h2]
  obtain ⟨sd, sq, sh, sc, sl, sn⟩ := s
  cases hd; cases hq; cases hh; cases hr
  simp [loadText, guessed, headed, missing, hq', ← String.toList_inj, readCsv, Header.used]

theorem guessed_used (L : Lib) (s : Settings) (text : List Char) : guessed L s text =
    { s with delimiter := Spec.TableRead.used s.delimiter (L.guess text).1, quote := Spec.TableRead.used s.quote (L.guess text).2 } := by
  have key : ∀ (x g : Option String), (if missing x then g else x) = Spec.TableRead.used x g := by
    intro x g
    cases x with
    | none => simp [missing, Spec.TableRead.used]
    | some t =>
      by_cases ht : t = ""
      · subst ht; simp [missing, Spec.TableRead.used]
      · have hlen : t.length ≠ 0 := by
          intro h
          exact ht (String.length_eq_zero_iff.mp h)
        simp [missing, ht, Spec.TableRead.used, hlen]
  obtain ⟨sd, sq, sh, sc, sl, sn⟩ := s
  unfold guessed
  split
  · simp only [key]
  · rename_i hm
    have h1 : missing sd = false := by
      rcases h : missing sd with _ | _
      · rfl
      · simp [h] at hm
    have h2 : missing sq = false := by
      rcases h : missing sq with _ | _
      · rfl
      · simp [h] at hm
    simp only [← key, h1, h2, Bool.false_eq_true, if_false]

/-- The settings a text is read with: those given are kept, the others are guessed from the text, the header row with the delimiter and
the quote character found.  They are remembered.  Asking for no rows counts as not asking. -/
theorem C89_text_settings (L : Lib) (s : Settings) (text : List Char) (hr : s.nrows = none ∨ s.nrows = some 0) :
    ∃ d q h, d = Spec.TableRead.used s.delimiter (L.guess text).1 ∧ q = Spec.TableRead.used s.quote (L.guess text).2 ∧
      (s.header = .auto → h = L.header text d q) ∧ (∀ n, s.header = .row n → h = n) ∧
      loadText L s text =
        (⟨d, q, .row h, s.checked, s.columns, s.nrows⟩, L.parse ⟨d, h, s.columns, h = none, "\""⟩ text) := by
  obtain ⟨sd, sq, sh, sc, sl, sn⟩ := s
  cases sh with
  | auto =>
    refine ⟨_, _, _, rfl, rfl, fun _ => rfl, fun n h => (nomatch h), ?_⟩
    rcases hr with rfl | rfl <;> simp [loadText, guessed_used, headed, readCsv, Header.used]
  | row n =>
    refine ⟨_, _, n, rfl, rfl, fun h => (nomatch h), fun m h => by injection h, ?_⟩
    rcases hr with rfl | rfl <;> simp [loadText, guessed_used, headed, readCsv, Header.used]

/-- The settings a file is read with, the first time or without a delimiter: those given are kept, the others are guessed from the first
part of the file.  If the first part is empty, or its lines do not only end with the delimiter and no line of blanks holds it, the whole
file is parsed with them. -/
theorem C89_file_settings (L : Lib) (s : Settings) (text : List Char) (hr : s.nrows = none ∨ s.nrows = some 0) (d : Char)
    (hd : Spec.TableRead.used s.delimiter (L.guess (L.front text)).1 = some (String.ofList [d]))
    (hc : s.checked = false ∨ ∀ t, s.delimiter = some t → t.length = 0)
    (hls : L.front text = [] ∨ ∃ ls, Lines (L.front text) ls ∧ ¬ Hollow L.blank d ls ∧ ¬ OnlyEnds L.blank d ls) :
    ∃ q h c, q = Spec.TableRead.used s.quote (L.guess (L.front text)).2 ∧
      (s.header = .auto → h = L.header (L.front text) (some (String.ofList [d])) q ∧ c = true) ∧
      (∀ n, s.header = .row n → h = n ∧ c = s.checked) ∧
      loadFile L s text = (⟨some (String.ofList [d]), q, .row h, c, s.columns, s.nrows⟩,
        L.parse ⟨some (String.ofList [d]), h, s.columns, h = none, "\""⟩ text) := by
  have hfound : (missing s.delimiter || !s.checked) = true := by
    rcases hc with hc | hc
    · simp [hc]
    · cases hs : s.delimiter with
      | none => simp [missing]
      | some t =>
        have : t = "" := String.length_eq_zero_iff.mp (hc t hs)
        subst this
        simp [missing]
  obtain ⟨q, h, c, h1, h2, h3, h4⟩ : ∃ q h c, q = Spec.TableRead.used s.quote (L.guess (L.front text)).2 ∧
      (s.header = .auto → h = L.header (L.front text) (some (String.ofList [d])) q ∧ c = true) ∧
      (∀ n, s.header = .row n → h = n ∧ c = s.checked) ∧
      found L s (L.front text) = ⟨some (String.ofList [d]), q, .row h, c, s.columns, s.nrows⟩ := by
    unfold found
    rw [if_pos hfound, guessed_used, hd]
    cases hh : s.header with
    | auto => exact ⟨_, _, true, rfl, fun _ => ⟨rfl, rfl⟩, fun n h => (nomatch h), by simp [headed, hh]⟩
    | row n =>
      exact ⟨_, n, s.checked, rfl, fun h => (nomatch h), fun m h => by injection h with h; exact ⟨h, rfl⟩, by simp [hh]⟩
  refine ⟨q, h, c, h1, h2, h3, ?_⟩
  have ht : trimmed L.blank (found L s (L.front text)) (L.front text) = .ok (found L s (L.front text)) := by
    rw [h4]
    rcases hls with he | ⟨ls, hls, hho, hoe⟩
    · unfold trimmed
      rw [if_pos (by simp [he])]
    · have hm : missing (some (String.ofList [d])) = false := by simp [missing, ← String.toList_inj]
      have hsplit := splitNl_of_lines hls
      have hne : (L.front text).isEmpty = false := by
        rcases he : (L.front text).isEmpty with _ | _
        · rfl
        · refine absurd ?_ hoe
          rw [List.isEmpty_iff] at he
          rw [← hsplit, he]
          intro l hl hn
          exact absurd (List.mem_singleton.mp hl) hn
      rcases countLast_spec L.blank d ls with ⟨h3, _⟩ | ⟨_, a, b, h3, _, h4⟩
      · exact absurd h3 hho
      · have hab : a ≠ b := fun e => hoe (h4.mp e)
        simp only [trimmed, hm, hne, Bool.or_self, Bool.false_eq_true, if_false, Option.getD_some, String.toList_ofList, hsplit, h3,
          if_neg hab]
  unfold loadFile
  rw [ht, h4]
  rcases hr with hr | hr <;> (dsimp only; rw [hr]; rfl)

/-! #### Cases -/

/-- Cells of a line: the delimiter does not count between quotes, which are removed. -/
def cells (d q : Char) : Bool → List Char → List Char → List (List Char)
  | _, cell, [] => [cell]
  | inside, cell, c :: t =>
    if c = q then cells d q (!inside) cell t
    else if c = d && !inside then cell :: cells d q inside [] t
    else cells d q inside (cell ++ [c]) t

/-- A parser of two columns without a header: all lines must have two cells. -/
def parse (a : Args) (text : List Char) : Except Err Frame :=
  let d := (a.delimiter.getD ",").toList.headD ','
  let rows := ((splitNl text).filter (· ≠ [])).map (cells d (a.quote.toList.headD '"') false [])
  let n := rows.foldl (fun m r => max m r.length) 0
  .ok ⟨counted rows.length, (List.range n).map fun i => (toString i, rows.map fun r => String.ofList (r.getD i []))⟩

/-- A library. -/
def lib : Lib := ⟨id, fun _ => (some ",", some "\""), fun _ _ _ => none, parse, fun _ => .stop, fun c => c = ' ' || c = '\t'⟩

/-- Settings given completely. -/
def given (d q : String) : Settings := ⟨some d, some q, .row none, true, [], none⟩

example : Lines "a,b\nc,d\n".toList ["a,b".toList, "c,d".toList, []] := ⟨by simp, by decide +kernel, by decide +kernel⟩

example : loadFile lib (given "," "\"") "a,b\nc,d\n".toList =
    (given "," "\"", .ok ⟨[0, 1], [("0", ["a", "c"]), ("1", ["b", "d"])]⟩) := by decide +kernel

example : (loadFile lib ⟨none, none, .auto, false, [], none⟩ "a,b\nc,d\n".toList).1 = ⟨some ",", some "\"", .row none, true, [], none⟩ := by
  decide +kernel

/-- A delimiter that is given, an empty quote character, and the header row to be guessed. -/
example : Spec.TableRead.used (some ";") (lib.guess "a;b\n".toList).1 = some (String.ofList [';']) ∧
    loadFile lib ⟨some ";", some "", .auto, false, [], some 0⟩ "a;b\n".toList =
      (⟨some ";", some "\"", .row none, true, [], some 0⟩, .ok ⟨[0], [("0", ["a"]), ("1", ["b"])]⟩) := by decide +kernel

/-- A row of empty cells in a file delimited by tabs: reading the file fails. -/
theorem C89_blank_fails : ∃ text : List Char, (∃ f, parse ⟨some "\t", none, [], true, "\""⟩ text = .ok f) ∧
    loadFile lib (given "\t" "\"") text = (given "\t" "\"", .error .indexError) :=
  ⟨"a\tb\n\t\nc\td\n".toList, ⟨_, rfl⟩, by decide +kernel⟩

/-- The quote character that was given is not used to read the file. -/
theorem C89_quote_fails : ∃ (text : List Char) (f g : Frame), parse ⟨some ",", none, [], true, "'"⟩ text = .ok f ∧
    loadFile lib (given "," "'") text = (given "," "'", .ok g) ∧ f.columns.length = 2 ∧ g.columns.length = 3 := by
  refine ⟨"'a,b',c\n'd,e',f\n".toList, _, _, rfl, Prod.ext ?_ rfl, ?_, ?_⟩ <;> decide +kernel

/-- A delimiter that ends every line becomes part of the cells, and a text of the same characters is read otherwise. -/
theorem C89_trailing_fails : ∃ (text : List Char) (f g : Frame), (loadFile lib (given ";" "\"") text).2 = .ok f ∧
    (loadText lib (given ";" "\"") text).2 = .ok g ∧ f.columns = [("0", ["a;", "b;"])] ∧
    g.columns = [("0", ["a", "b"]), ("1", ["", ""])] := by
  refine ⟨"a;\nb;\n".toList, _, _, rfl, rfl, ?_, ?_⟩ <;> decide +kernel

end Verif.Props.TableRead
