import Verif.Lemmas.F1Text

/-!
# C115: the printed table of scores shows every score in its column

For all reports, labels and formats of numbers.
-/

namespace Verif.Props.F1Text

open Verif Verif.F1Text Verif.Spec.F1Text

variable {α : Type}

/-- The text: a heading, an empty line, the classes in the order of the report, an empty line, the averages in the order of the report;
all other lines are equally long and show names and scores in the same columns. -/
theorem C115_table (fmt : α → Text) (report : List (Text × Entry α)) (labels : List Text) (h0 : labels ≠ []) {w : ℕ} (hw : Width labels w)
    (h : ∀ x ∈ report, Regular x.1 x.2 ∧ (x.1 ∈ labels ∨ Average x.1) ∧ Fits fmt x.2) :
    ∃ head classes averages, toText fmt report labels = .ok (((head :: [] :: classes) ++ [] :: averages).map (· ++ ['\n'])).flatten ∧
      Shows w head [] ("precision".toList, "recall".toList, "f1-score".toList, "support".toList) ∧
      List.Forall₂ (fun l x => Shows w l x.1 (cells fmt x.2)) classes (report.filter fun x => ¬ Average x.1) ∧
      List.Forall₂ (fun l x => Shows w l x.1 (cells fmt x.2)) averages (report.filter fun x => Average x.1) := by
  obtain ⟨n, e1, e2, l, hl, e3⟩ := longest_ok h0
  have hwn : max (max n "weighted avg".toList.length) 2 = w := by
    have h12 : "weighted avg".toList.length = 12 := by decide
    rw [h12]
    obtain ⟨a, b, c⟩ := hw
    have := b l hl
    rcases c with rfl | ⟨l', hl', rfl⟩
    · omega
    · have := e2 l' hl'
      omega
  have hlen : ∀ x ∈ report, Regular x.1 x.2 ∧ x.1.length ≤ w ∧ Fits fmt x.2 := by
    intro x hx
    obtain ⟨a, b, c⟩ := h x hx
    refine ⟨a, ?_, c⟩
    rcases b with b | b
    · exact hw.2.1 _ b
    · have hav : ∀ s : String, String.ofList x.1 = s → x.1.length = s.toList.length := fun s hs => by rw [(toList_eq _ _).mpr hs]
      have := hw.1
      rcases b with b | b | b | b <;> · have := hav _ b; simp at this; omega
  obtain ⟨bs, ts, f1, f2, f3⟩ := loop_ok report hlen
    (line w [] "precision".toList "recall".toList "f1-score".toList "support".toList ++ ['\n', '\n']) ['\n']
  refine ⟨line w [] "precision".toList "recall".toList "f1-score".toList "support".toList, bs, ts, ?_, ?_, f2, f3⟩
  · unfold toText
    simp only [e1, bind, Except.bind, hwn, f1]
    simp
  · exact line_shows (key := []) (c := ("precision".toList, "recall".toList, "f1-score".toList, "support".toList)) (by simp) (by decide)
      (by decide) (by decide) (by decide)

/-- There is one width. -/
theorem C115_width (labels : List Text) : ∃! w, Width labels w := by
  have ex : ∃ w, Width labels w := by
    by_cases h : labels = []
    · subst h
      exact ⟨12, by simp [Width]⟩
    · obtain ⟨n, _, e2, l, hl, e3⟩ := longest_ok h
      refine ⟨max n 12, by omega, fun x hx => by have := e2 x hx; omega, ?_⟩
      by_cases hn : n ≤ 12
      · left; omega
      · right; exact ⟨l, hl, by omega⟩
  obtain ⟨w, hw⟩ := ex
  refine ⟨w, hw, fun v hv => ?_⟩
  obtain ⟨a1, a2, a3⟩ := hw
  obtain ⟨b1, b2, b3⟩ := hv
  rcases a3 with rfl | ⟨l, hl, rfl⟩ <;> rcases b3 with rfl | ⟨m, hm, rfl⟩
  · rfl
  · have := a2 m hm; omega
  · have := b2 l hl; omega
  · have := a2 m hm; have := b2 l hl; omega

/-- Without labels there is a ValueError, and entries of another kind than expected for their name raise a TypeError. -/
theorem C115_raises (fmt : α → Text) (report : List (Text × Entry α)) (labels : List Text) :
    (labels = [] → toText fmt report labels = .error .valueError) ∧
    (labels ≠ [] → (∃ x ∈ report, ¬ Regular x.1 x.2) → toText fmt report labels = .error .typeError) := by
  refine ⟨by rintro rfl; rfl, fun h0 h => ?_⟩
  obtain ⟨n, e1, -⟩ := longest_ok h0
  unfold toText
  simp only [e1, bind, Except.bind]
  rw [loop_err report h]

/-- A class called accuracy cannot be printed. -/
theorem C115_accuracy_fails (fmt : α → Text) (x : α) :
    toText fmt [("accuracy".toList, .row x x x ['1'])] ["accuracy".toList] = .error .typeError := by
  refine (C115_raises _ _ _).2 (by simp) ⟨_, List.mem_singleton.mpr rfl, ?_⟩
  rintro (⟨_, _, h⟩ | ⟨h, _⟩)
  · cases h
  · exact h (by simp)

/-- A class with the name of an average is printed among the averages: no line stands between the two empty lines. -/
theorem C115_names_fails (fmt : α → Text) (x : α) (hf : (fmt x).length ≤ 9) (key : Text) (hk : Average key)
    (hne : String.ofList key ≠ "accuracy") : ∃ head l, toText fmt [(key, .row x x x ['1'])] [key] =
      .ok ([head, [], [], l].map (· ++ ['\n'])).flatten ∧ Cell l 0 12 key := by
  have hlen : key.length ≤ 12 := by
    have hav : ∀ s : String, String.ofList key = s → key.length = s.toList.length := fun s hs => by rw [(toList_eq _ _).mpr hs]
    rcases hk with b | b | b | b <;> · have := hav _ b; simp at this; omega
  obtain ⟨head, bs, ts, e, -, e2, e3⟩ := C115_table fmt [(key, .row x x x ['1'])] [key] (by simp)
    (w := 12) ⟨by omega, by simpa using hlen, Or.inl rfl⟩ (by
      intro y hy
      rw [List.mem_singleton] at hy
      subst hy
      exact ⟨Or.inr ⟨hne, _, _, _, _, rfl⟩, Or.inr hk, hf, hf, hf, by simp [cells]⟩)
  rw [List.filter_cons_of_neg (by simpa using hk)] at e2
  rw [List.filter_cons_of_pos (by simpa using hk)] at e3
  cases e2
  cases e3 with
  | cons h1 h2 =>
    cases h2
    exact ⟨head, _, e, h1.2.1⟩

example : Average "micro avg".toList ∧ String.ofList "micro avg".toList ≠ "accuracy" := by decide

/-- A class that is not among the labels can break the columns. -/
theorem C115_columns_fails : ∃ out, toText (fun _ : Unit => "0.50".toList) [("a class not among labels".toList, .row () () () ['1'])] [['a']] = .ok out ∧
    ¬ ∃ ls : List Text, out = (ls.map (· ++ ['\n'])).flatten ∧ (∀ l ∈ ls, '\n' ∉ l) ∧ ∃ n, ∀ l ∈ ls, l = [] ∨ l.length = n := by
  refine ⟨_, rfl, ?_⟩
  rintro ⟨ls, e, hn, n, h⟩
  -- the lines are determined by the text
  have uniq : ∀ (as bs : List Text), (∀ l ∈ as, '\n' ∉ l) → (∀ l ∈ bs, '\n' ∉ l) →
      (as.map (· ++ ['\n'])).flatten = (bs.map (· ++ ['\n'])).flatten → as = bs := by
    intro as
    induction as with
    | nil =>
      intro bs _ _ he
      cases bs with
      | nil => rfl
      | cons b bs => simp at he
    | cons a as ih =>
      intro bs ha hb he
      cases bs with
      | nil => simp at he
      | cons b bs =>
        have first : ∀ (x y p q : Text), '\n' ∉ x → '\n' ∉ y → x ++ '\n' :: p = y ++ '\n' :: q → x = y ∧ p = q := by
          intro x
          induction x with
          | nil =>
            intro y p q _ hy he
            cases y with
            | nil => simpa using he
            | cons c y => rw [List.nil_append, List.cons_append, List.cons.injEq] at he; exact absurd (he.1 ▸ List.mem_cons_self ..) hy
          | cons c x ihx =>
            intro y p q hx hy he
            cases y with
            | nil => rw [List.nil_append, List.cons_append, List.cons.injEq] at he; exact absurd (he.1 ▸ List.mem_cons_self ..) hx
            | cons d y =>
              simp at he
              obtain ⟨rfl, he⟩ := he
              obtain ⟨r1, r2⟩ := ihx y p q (fun h => hx (by simp [h])) (fun h => hy (by simp [h])) he
              exact ⟨by rw [r1], r2⟩
        simp only [List.map_cons, List.flatten_cons, List.append_assoc, List.singleton_append] at he
        obtain ⟨e1, e2⟩ := first _ _ _ _ (ha a (by simp)) (hb b (by simp)) he
        rw [e1, ih bs (fun l hl => ha l (by simp [hl])) (fun l hl => hb l (by simp [hl])) e2]
  have := uniq ls
    [line 12 [] "precision".toList "recall".toList "f1-score".toList "support".toList, [],
      line 12 "a class not among labels".toList "0.50".toList "0.50".toList "0.50".toList ['1'], []] hn (by decide +kernel)
    (e.symm.trans (by decide +kernel))
  subst this
  have h1 := h _ (List.mem_cons_self ..)
  have h2 := h (line 12 "a class not among labels".toList "0.50".toList "0.50".toList "0.50".toList ['1']) (by simp)
  have d1 : (line 12 [] "precision".toList "recall".toList "f1-score".toList "support".toList).length = 53 := by decide +kernel
  have d2 : (line 12 "a class not among labels".toList "0.50".toList "0.50".toList "0.50".toList ['1']).length = 65 := by decide +kernel
  rcases h1 with h1 | h1
  · rw [h1] at d1; cases d1
  · rcases h2 with h2 | h2
    · rw [h2] at d2; cases d2
    · omega

/-- A report with two classes. -/
def sample : List (Text × Entry ℕ) :=
  [("a".toList, .row 1 2 3 ['4']), ("accuracy".toList, .num 5), ("b".toList, .row 6 7 8 ['9']), ("macro avg".toList, .row 1 1 1 ['1', '3'])]

example : (toText (fun n => (toString n).toList) sample ["a".toList, "b".toList]).map (fun t => t.length) = .ok (5 * 54 + 2) ∧
    Width ["a".toList, "b".toList] 12 := by
  refine ⟨by decide +kernel, by decide, by decide, Or.inl rfl⟩

example : ∀ x ∈ sample, Regular x.1 x.2 ∧ (x.1 ∈ ["a".toList, "b".toList] ∨ Average x.1) ∧ Fits (fun n => (toString n).toList) x.2 := by
  intro x hx
  simp only [sample, List.mem_cons, List.not_mem_nil, or_false] at hx
  rcases hx with rfl | rfl | rfl | rfl
  · exact ⟨Or.inr ⟨by decide, _, _, _, _, rfl⟩, by decide, by decide +kernel, by decide +kernel, by decide +kernel, by decide +kernel⟩
  · exact ⟨Or.inl ⟨by decide, _, rfl⟩, by decide, by decide +kernel, by decide +kernel, by decide +kernel, by decide +kernel⟩
  · exact ⟨Or.inr ⟨by decide, _, _, _, _, rfl⟩, by decide, by decide +kernel, by decide +kernel, by decide +kernel, by decide +kernel⟩
  · exact ⟨Or.inr ⟨by decide, _, _, _, _, rfl⟩, by decide, by decide +kernel, by decide +kernel, by decide +kernel, by decide +kernel⟩

end Verif.Props.F1Text
