import Verif.Spec.Origin

/-!
# C118: file types and encodings of profilers

For all histories of updates and merges.
-/

namespace Verif.Props.Origin

open Verif Verif.Origin Verif.Spec.Origin

theorem mergeAttr_same (a : Option String) : mergeAttr a a = a := by simp [mergeAttr]

theorem mergeAttr_other {a b : Option String} (h : a ≠ b) : mergeAttr a b = some "multiple files" := by simp [mergeAttr, h]

/-- The file type is one of data given, or says that there are several files; there is none exactly if no data were given. -/
theorem C118_type (h : History) :
    ((run h).fileType = none ↔ ¬∃ b, Got h b) ∧
    ∀ t, (run h).fileType = some t → t = "multiple files" ∨ ∃ b, Got h b ∧ b.type = t := by
  induction h with
  | new =>
    refine ⟨⟨fun _ => ?_, fun _ => rfl⟩, fun t ht => (by cases ht)⟩
    rintro ⟨b, hb⟩
    cases hb
  | update h b ih =>
    by_cases hb : b.len = 0
    · have e : run (.update h b) = run h := by simp [run, update, hb]
      have g : ∀ c, Got (.update h b) c ↔ Got h c := by
        intro c
        refine ⟨fun x => ?_, .before⟩
        cases x with
        | now hc => exact absurd hb hc
        | before x => exact x
      rw [e]
      simp only [g]
      exact ih
    · have e : (run (.update h b)).fileType = some b.type := by simp [run, update, hb]
      rw [e]
      refine ⟨⟨fun x => (by cases x), fun x => absurd ⟨b, .now hb⟩ x⟩, fun t ht => ?_⟩
      injection ht with ht
      exact Or.inr ⟨b, .now hb, ht⟩
  | merge g h ig ih =>
    show ((mergeAttr (run g).fileType (run h).fileType) = none ↔ _) ∧ _
    by_cases e : (run g).fileType = (run h).fileType
    · rw [show (run (.merge g h)).fileType = (run g).fileType by simp [run, merge, mergeAttr, e], ← e, mergeAttr_same]
      refine ⟨⟨fun x => ?_, fun x => ig.1.2 fun ⟨b, hb⟩ => x ⟨b, .left hb⟩⟩, fun t ht => ?_⟩
      · rintro ⟨b, hb⟩
        cases hb with
        | left hb => exact ig.1.1 x ⟨b, hb⟩
        | right hb => exact ih.1.1 (e ▸ x) ⟨b, hb⟩
      · exact (ig.2 t ht).imp id fun ⟨b, hb, hx⟩ => ⟨b, .left hb, hx⟩
    · rw [show (run (.merge g h)).fileType = some "multiple files" by simp [run, merge, mergeAttr, e], mergeAttr_other e]
      refine ⟨⟨fun x => (by cases x), fun x => ?_⟩, fun t ht => ?_⟩
      · exact absurd ((ig.1.2 fun ⟨b, hb⟩ => x ⟨b, .left hb⟩).trans (ih.1.2 fun ⟨b, hb⟩ => x ⟨b, .right hb⟩).symm) e
      · injection ht with ht
        exact Or.inl ht.symm

/-- The encoding is one of data given, or says that there are several files. -/
theorem C118_encoding (h : History) (t : String) (ht : (run h).encoding = some t) :
    t = "multiple files" ∨ ∃ b, Got h b ∧ b.encoding = some t := by
  induction h with
  | new => cases ht
  | update h b ih =>
    by_cases hb : b.len = 0
    · rw [show run (.update h b) = run h by simp [run, update, hb]] at ht
      exact (ih ht).imp id fun ⟨c, hc, hx⟩ => ⟨c, .before hc, hx⟩
    · cases hbe : b.encoding with
      | some e =>
        simp only [run, update, hb, if_false, hbe, Option.isSome_some, if_true] at ht
        exact Or.inr ⟨b, .now hb, hbe.trans ht⟩
      | none =>
        simp only [run, update, hb, if_false, hbe, Option.isSome_none] at ht
        exact (ih ht).imp id fun ⟨c, hc, hx⟩ => ⟨c, .before hc, hx⟩
  | merge g h ig ih =>
    by_cases e : (run g).encoding = (run h).encoding
    · rw [show (run (.merge g h)).encoding = (run g).encoding by simp [run, merge, mergeAttr, e]] at ht
      exact (ig ht).imp id fun ⟨b, hb, hx⟩ => ⟨b, .left hb, hx⟩
    · rw [show (run (.merge g h)).encoding = some "multiple files" by simp [run, merge, mergeAttr, e]] at ht
      injection ht with ht
      exact Or.inl ht.symm

/-- If all data given have one type, and no profiler without data was merged, it is the file type. -/
theorem C118_one_type {h : History} (hf : Fed h) {t : String} (ha : ∀ b, Got h b → b.type = t) (hg : ∃ b, Got h b) :
    (run h).fileType = some t := by
  induction hf with
  | new => obtain ⟨b, hb⟩ := hg; cases hb
  | @update h b hf ih =>
    by_cases hb : b.len = 0
    · rw [show run (.update h b) = run h by simp [run, update, hb]]
      refine ih (fun c hc => ha c (.before hc)) ?_
      obtain ⟨c, hc⟩ := hg
      cases hc with
      | now hc => exact absurd hb hc
      | before hc => exact ⟨c, hc⟩
    · rw [← ha b (.now hb)]
      simp [run, update, hb]
  | @merge g h _ _ eg eh ig ih =>
    have h1 := ig (fun b hb => ha b (.left hb)) eg
    have h2 := ih (fun b hb => ha b (.right hb)) eh
    simp [run, merge, mergeAttr, h1, h2]

/-- The same for encodings. -/
theorem C118_one_encoding {h : History} (hf : Fed h) {e : Option String} (ha : ∀ b, Got h b → b.encoding = e) (hg : ∃ b, Got h b) :
    (run h).encoding = e := by
  have key : ∀ h, Fed h → (∀ b, Got h b → b.encoding = e) → ((∃ b, Got h b) → (run h).encoding = e) ∧ (¬(∃ b, Got h b) → (run h).encoding = none) := by
    intro h hf
    induction hf with
    | new => exact fun _ => ⟨fun ⟨b, hb⟩ => (by cases hb), fun _ => rfl⟩
    | @update h b hf ih =>
      intro ha
      obtain ⟨i1, i2⟩ := ih fun c hc => ha c (.before hc)
      by_cases hb : b.len = 0
      · rw [show run (.update h b) = run h by simp [run, update, hb]]
        refine ⟨fun ⟨c, hc⟩ => ?_, fun hn => i2 fun ⟨c, hc⟩ => hn ⟨c, .before hc⟩⟩
        cases hc with
        | now hc => exact absurd hb hc
        | before hc => exact i1 ⟨c, hc⟩
      · refine ⟨fun _ => ?_, fun hn => absurd ⟨b, .now hb⟩ hn⟩
        have he := ha b (.now hb)
        cases hbe : b.encoding with
        | some x => simp [run, update, hb, hbe, ← he]
        | none =>
          have hz : (run h).encoding = none := by
            by_cases hx : ∃ c, Got h c
            · rw [i1 hx, ← he, hbe]
            · exact i2 hx
          simp [run, update, hb, hbe, hz, ← he]
    | @merge g h _ _ eg eh ig ih =>
      intro ha
      have h1 := (ig fun b hb => ha b (.left hb)).1 eg
      have h2 := (ih fun b hb => ha b (.right hb)).1 eh
      refine ⟨fun _ => by simp [run, merge, mergeAttr, h1, h2], fun hn => ?_⟩
      obtain ⟨b, hb⟩ := eg
      exact absurd ⟨b, .left hb⟩ hn
  exact (key h hf ha).1 hg

/-- Of data that are put together by merging in whatever order, the file type is that of all of them, and "multiple files" exactly if they differ.
Likewise the encoding. -/
theorem C118_merged {h : History} (hm : ByMerging h) (hn : ∀ b, Got h b → b.type ≠ "multiple files" ∧ b.encoding ≠ some "multiple files") :
    ((run h).fileType = some "multiple files" ↔ ∃ b c, Got h b ∧ Got h c ∧ b.type ≠ c.type) ∧
    ((run h).encoding = some "multiple files" ↔ ∃ b c, Got h b ∧ Got h c ∧ b.encoding ≠ c.encoding) ∧
    ((run h).fileType ≠ some "multiple files" → ∀ b, Got h b → (run h).fileType = some b.type) ∧
    ((run h).encoding ≠ some "multiple files" → ∀ b, Got h b → (run h).encoding = b.encoding) := by
  have some_got : ∀ {h}, ByMerging h → ∃ b, Got h b := by
    intro h hm
    induction hm with
    | one b hb => exact ⟨b, .now hb⟩
    | merge _ _ ig _ => obtain ⟨b, hb⟩ := ig; exact ⟨b, .left hb⟩
  have gen : ∀ (f : Origin → Option String) (v : Batch → Option String), (∀ a b, f (merge a b) = mergeAttr (f a) (f b)) →
      (∀ b, b.len ≠ 0 → f (update new b) = v b) → ∀ {h}, ByMerging h → (∀ b, Got h b → v b ≠ some "multiple files") →
      (f (run h) = some "multiple files" ↔ ∃ b c, Got h b ∧ Got h c ∧ v b ≠ v c) ∧
      (f (run h) ≠ some "multiple files" → ∀ b, Got h b → f (run h) = v b) := by
    intro f v hfm hfu h hm
    induction hm with
    | one b hb =>
      intro hn
      have only : ∀ c, Got (.update .new b) c → c = b := by
        intro c hc
        cases hc with
        | now _ => rfl
        | before hc => cases hc
      have e : f (run (.update .new b)) = v b := hfu b hb
      refine ⟨⟨fun hx => absurd (e.symm.trans hx) (hn b (.now hb)), fun ⟨c, d, hc, hd, hx⟩ => ?_⟩, fun _ c hc => by rw [e, only c hc]⟩
      rw [only c hc, only d hd] at hx
      exact absurd rfl hx
    | @merge g h mg mh ig ih =>
      intro hn
      obtain ⟨g1, g2⟩ := ig fun b hb => hn b (.left hb)
      obtain ⟨h1, h2⟩ := ih fun b hb => hn b (.right hb)
      have e : f (run (.merge g h)) = mergeAttr (f (run g)) (f (run h)) := hfm _ _
      by_cases hx : f (run g) = f (run h)
      · rw [e, ← hx, mergeAttr_same]
        refine ⟨⟨fun hy => ?_, ?_⟩, fun hy b hb => ?_⟩
        · obtain ⟨b, c, hb, hc, hv⟩ := g1.1 hy
          exact ⟨b, c, .left hb, .left hc, hv⟩
        · rintro ⟨b, c, hb, hc, hv⟩
          refine Classical.byContradiction fun hy => ?_
          have all : ∀ b, Got (.merge g h) b → v b = f (run g) := by
            intro b hb
            cases hb with
            | left hb => exact (g2 hy b hb).symm
            | right hb => exact (h2 (hx ▸ hy) b hb).symm.trans hx.symm
          exact hv ((all b hb).trans (all c hc).symm)
        · cases hb with
          | left hb => exact g2 hy b hb
          | right hb => rw [hx]; exact h2 (hx ▸ hy) b hb
      · rw [e, mergeAttr_other hx]
        refine ⟨⟨fun _ => ?_, fun _ => rfl⟩, fun hy => absurd rfl hy⟩
        by_cases hg : f (run g) = some "multiple files"
        · obtain ⟨b, c, hb, hc, hv⟩ := g1.1 hg
          exact ⟨b, c, .left hb, .left hc, hv⟩
        · by_cases hh : f (run h) = some "multiple files"
          · obtain ⟨b, c, hb, hc, hv⟩ := h1.1 hh
            exact ⟨b, c, .right hb, .right hc, hv⟩
          · obtain ⟨b, hb⟩ := some_got mg
            obtain ⟨c, hc⟩ := some_got mh
            exact ⟨b, c, .left hb, .right hc, by rw [← g2 hg b hb, ← h2 hh c hc]; exact hx⟩
  obtain ⟨t1, t2⟩ := gen Origin.fileType (fun b => some b.type) (fun _ _ => rfl) (fun b hb => by simp [update, hb]) hm
    (fun b hb => by simpa using (hn b hb).1)
  obtain ⟨e1, e2⟩ := gen Origin.encoding Batch.encoding (fun _ _ => rfl)
    (fun b hb => by cases hbe : b.encoding <;> simp [update, hb, hbe, new]) hm (fun b hb => (hn b hb).2)
  exact ⟨by simpa using t1, e1, t2, e2⟩

/-- A CSV file, a JSON file, a data frame and an empty file. -/
def csv : Batch := ⟨some "utf-8", "csv", 3⟩
def json : Batch := ⟨some "latin-1", "json", 2⟩
def frame : Batch := ⟨none, "<class 'pandas.core.frame.DataFrame'>", 4⟩
def nothing : Batch := ⟨some "ascii", "text", 0⟩

example : ByMerging (.merge (.update .new csv) (.merge (.update .new json) (.update .new csv))) ∧
    run (.merge (.update .new csv) (.merge (.update .new json) (.update .new csv))) = ⟨some "multiple files", some "multiple files"⟩ ∧
    run (.merge (.update .new csv) (.update .new csv)) = ⟨some "utf-8", some "csv"⟩ :=
  ⟨.merge (.one _ (by decide)) (.merge (.one _ (by decide)) (.one _ (by decide))), by decide, by decide⟩

example : Fed (.merge (.update (.update .new csv) nothing) (.update .new csv)) ∧
    run (.merge (.update (.update .new csv) nothing) (.update .new csv)) = ⟨some "utf-8", some "csv"⟩ :=
  ⟨.merge (.update _ (.update _ .new)) (.update _ .new) ⟨csv, .before (.now (by decide))⟩ ⟨csv, .now (by decide)⟩, by decide⟩

/-- **Full statement fails.** A profiler updated with files of different types, and one updated after such files were merged, report only the
last type, although merging the same data reports several. -/
theorem C118_last_fails : ∃ b c : Batch, b.type ≠ c.type ∧ b.len ≠ 0 ∧ c.len ≠ 0 ∧
    (run (.merge (.update .new b) (.update .new c))).fileType = some "multiple files" ∧
    (run (.update (.update .new b) c)).fileType = some c.type ∧
    (run (.update (.merge (.update .new b) (.update .new c)) c)).fileType = some c.type :=
  ⟨csv, json, by decide, by decide, by decide, by decide, by decide, by decide⟩

/-- **Full statement fails.** The encoding and the file type can be those of different data. -/
theorem C118_apart_fails : ∃ b c : Batch, run (.update (.update .new b) c) = ⟨b.encoding, some c.type⟩ ∧ b.encoding ≠ c.encoding ∧ b.type ≠ c.type :=
  ⟨csv, frame, by decide, by decide, by decide⟩

/-- **Full statement fails.** Merging with a profiler without data reports several files where there is one. -/
theorem C118_empty_fails (b : Batch) (hb : b.len ≠ 0) :
    (run (.merge (.update .new b) .new)).fileType = some "multiple files" ∧ ∀ c, Got (.merge (.update .new b) .new) c → c = b := by
  refine ⟨by simp [run, merge, mergeAttr, update, new, hb], fun c hc => ?_⟩
  cases hc with
  | left hc => cases hc with
    | now _ => rfl
    | before hc => cases hc
  | right hc => cases hc

end Verif.Props.Origin
