import Verif.Spec.Metadata
import Verif.Props.Json

/-!
# C117: the metadata of a JSON document are what is outside its payload

For all documents and all histories of a reader.
-/

namespace Verif.Props.Metadata

open Verif Verif.Metadata Verif.Spec.Metadata
open Verif.Json (Key)

variable {V : Type}

theorem hasCell_iff (f : Frame V) : HasCell f ↔ empty f = false := by
  unfold HasCell empty
  rw [← Bool.not_eq_true, List.all_eq_true]
  push Not
  simp

theorem cellsAt_cons_succ (x : List (Key × V)) (a : Frame V) (i : ℕ) : cellsAt (x :: a) (i + 1) = cellsAt a i := by simp [cellsAt]

theorem cellsAt_nil (i : ℕ) : cellsAt ([] : Frame V) i = [] := by simp [cellsAt]

theorem concat_nil (a : Frame V) : concat a [] = a := by cases a <;> rfl

theorem concat_side (a b : Frame V) : SideBySide a b (concat a b) := by
  induction a generalizing b with
  | nil => exact ⟨by simp [concat], fun i => by simp [concat, cellsAt]⟩
  | cons x a ih =>
    cases b with
    | nil => exact ⟨by simp [concat], fun i => by simp [concat, cellsAt_nil]⟩
    | cons y b =>
      obtain ⟨h1, h2⟩ := ih b
      refine ⟨by simp only [concat, List.length_cons, h1]; omega, fun i => ?_⟩
      cases i with
      | zero => simp [concat, cellsAt]
      | succ i => simp only [concat, cellsAt_cons_succ, h2 i]

/-- Frames are determined by being side by side. -/
theorem side_unique {a b c c' : Frame V} (h : SideBySide a b c) (h' : SideBySide a b c') : c = c' := by
  apply List.ext_getElem (h.1.trans h'.1.symm)
  intro i h1 h2
  have := (h.2 i).trans (h'.2 i).symm
  simpa [cellsAt, h1, h2] using this

theorem concat_cells (a b : Frame V) : (concat a b).flatten.Perm (a.flatten ++ b.flatten) := by
  induction a generalizing b with
  | nil => simp [concat]
  | cons x a ih =>
    cases b with
    | nil => simp [concat]
    | cons y b =>
      simp only [concat, List.flatten_cons, List.append_assoc]
      refine List.Perm.append_left x ?_
      refine ((ih b).append_left y).trans ?_
      rw [← List.append_assoc, ← List.append_assoc]
      exact List.perm_append_comm.append_right _

theorem both_reader (d : Doc V) (r : Reader V) : (dataAndMetadata d r).1 = (data d r).1 := rfl

theorem data_format (d : Doc V) (r : Reader V) : (data d r).1.format = r.format := by
  unfold data
  split
  · split <;> simp_all
  all_goals rfl

theorem fold_format (d : Doc V) (steps : List Step) : ∀ r : Reader V, (steps.foldl (step d) r).format = formatAfter r.format steps := by
  induction steps with
  | nil => intro r; rfl
  | cons s steps ih =>
    intro r
    rw [List.foldl_cons, ih]
    cases s with
    | data => simp [step, formatAfter, data_format]
    | metadata => simp [step, formatAfter]
    | both => simp [step, formatAfter, both_reader, data_format]
    | format g => simp [step, formatAfter]

/-- What reading does to the metadata. -/
theorem data_metadata (d : Doc V) (r : Reader V) :
    (data d r).1.metadata = if r.format = .flattened then
      (match d.flat with | .ok (_, some m) => some m | _ => r.metadata) else r.metadata := by
  unfold data
  cases hf : r.format with
  | flattened =>
    simp only [if_true]
    split <;> simp_all
  | dataframe => simp
  | records => simp
  | json => simp

theorem fold_metadata {d : Doc V} {f : Frame V} {m : Frame V} (hd : d.flat = .ok (f, some m)) (steps : List Step) : ∀ r : Reader V,
    (Flattened r.format steps → (steps.foldl (step d) r).metadata = some m) ∧
    (¬ Flattened r.format steps → (steps.foldl (step d) r).metadata = r.metadata) ∧
    (r.metadata = some m → (steps.foldl (step d) r).metadata = some m) := by
  induction steps with
  | nil => intro r; exact ⟨fun h => h.elim, fun _ => rfl, fun h => h⟩
  | cons s steps ih =>
    intro r
    have read : ∀ s', step d r s' = (data d r).1 → (Flattened r.format (s' :: steps) ↔ r.format = .flattened ∨ Flattened r.format steps) →
        (Flattened r.format (s' :: steps) → ((s' :: steps).foldl (step d) r).metadata = some m) ∧
        (¬ Flattened r.format (s' :: steps) → ((s' :: steps).foldl (step d) r).metadata = r.metadata) ∧
        (r.metadata = some m → ((s' :: steps).foldl (step d) r).metadata = some m) := by
      intro s' hs hfl
      obtain ⟨i1, i2, i3⟩ := ih (data d r).1
      rw [data_format] at i1 i2
      rw [List.foldl_cons, hs, hfl]
      have hm := data_metadata d r
      rw [hd] at hm
      by_cases hf : r.format = .flattened
      · rw [if_pos hf] at hm
        exact ⟨fun _ => i3 hm, fun h => absurd (Or.inl hf) h, fun _ => i3 hm⟩
      · rw [if_neg hf] at hm
        refine ⟨fun h => i1 (h.resolve_left hf), fun h => (i2 fun hx => h (Or.inr hx)).trans hm, fun h => i3 (hm.trans h)⟩
    cases s with
    | data => exact read _ rfl Iff.rfl
    | both => exact read _ rfl Iff.rfl
    | metadata => exact ih r
    | format g => exact ih { r with format := g }

/-- For a document with a payload, `metadata` are what is outside the payload as soon as the data were read in the flattened format once,
and nothing before, after any steps. There is a warning unless there is a cell in them. -/
theorem C117_metadata {d : Doc V} {f m : Frame V} (hd : d.flat = .ok (f, some m)) (fmt : Format) (steps : List Step) :
    (Flattened fmt steps → (metadata (run d fmt steps)).1 = some m ∧ ((metadata (run d fmt steps)).2 = false ↔ HasCell m)) ∧
    (¬ Flattened fmt steps → metadata (run d fmt steps) = (none, true)) := by
  obtain ⟨h1, h2, -⟩ := fold_metadata hd steps (new fmt)
  refine ⟨fun h => ?_, fun h => ?_⟩
  · have e : (run d fmt steps).metadata = some m := h1 h
    unfold metadata
    rw [e]
    exact ⟨rfl, (hasCell_iff m).symm⟩
  · have e : (run d fmt steps).metadata = none := h2 h
    unfold metadata
    rw [e]

/-- In the flattened format, `data_and_metadata` has the metadata and the data side by side, after any steps; metadata without cells are left
out. -/
theorem C117_both {d : Doc V} {f m : Frame V} (hd : d.flat = .ok (f, some m)) (fmt : Format) (steps : List Step)
    (hf : formatAfter fmt steps = .flattened) :
    (HasCell m → ∃ c, (dataAndMetadata d (run d fmt steps)).2 = .ok (.frame c) ∧ SideBySide m f c) ∧
    (¬ HasCell m → (dataAndMetadata d (run d fmt steps)).2 = .ok (.frame f)) := by
  have e : (run d fmt steps).format = .flattened := (fold_format d steps (new fmt)).trans hf
  have hr : data d (run d fmt steps) = ({ run d fmt steps with metadata := some m }, .ok (.frame f)) := by
    unfold data
    simp only [e, hd]
  rw [hasCell_iff]
  unfold dataAndMetadata
  rw [hr]
  refine ⟨fun h => ⟨concat m f, ?_, concat_side m f⟩, fun h => ?_⟩
  · simp [Except.bind, h]
  · simp [Except.bind, h]

/-- For a document without a payload there are never metadata, and `data_and_metadata` is `data`, in every format and after any steps. -/
theorem C117_plain {d : Doc V} (hd : ∀ f m, d.flat ≠ .ok (f, some m)) (fmt : Format) (steps : List Step) :
    metadata (run d fmt steps) = (none, true) ∧ dataAndMetadata d (run d fmt steps) = data d (run d fmt steps) := by
  have keep : ∀ r : Reader V, r.metadata = none → (data d r).1.metadata = none := by
    intro r hr
    rw [data_metadata]
    split_ifs
    · split
      · rename_i f m h; exact absurd h (hd _ _)
      · exact hr
    · exact hr
  have inv : ∀ (steps : List Step) (r : Reader V), r.metadata = none → (steps.foldl (step d) r).metadata = none := by
    intro steps
    induction steps with
    | nil => intro r h; exact h
    | cons s steps ih =>
      intro r h
      rw [List.foldl_cons]
      apply ih
      cases s with
      | data => exact keep r h
      | metadata => exact h
      | both => exact keep r h
      | format g => exact h
  have h0 : (run d fmt steps).metadata = none := inv steps (new fmt) rfl
  refine ⟨by simp [metadata, h0], ?_⟩
  have h1 := keep _ h0
  unfold dataAndMetadata
  simp only [h1]
  cases h2 : (data d (run d fmt steps)).2 with
  | error e => simp [Except.bind, ← h2]
  | ok v => simp [Except.bind, ← h2]

/-- Every leaf of a document is in `data_and_metadata` once, if its payloads are objects. -/
theorem C117_cells_partial {A : Type} (sep : Key) (hs : sep ≠ []) (normalize : Json.J A → Except Err (List (Json.Row A))) (keys : List Key)
    (doc : PyDict Key (Json.J A)) (hw : PyDict.WF doc) (hu : Spec.Json.UsualKeys sep (.obj doc))
    (hp : ∀ key ∈ keys, ∀ j, PyDict.get? doc key = some j → j.isObj = true) (d : Doc (Json.J A))
    (hd : d.flat = Json.flattened sep normalize keys doc) (fmt : Format) (steps : List Step) (hf : formatAfter fmt steps = .flattened)
    {v : Value (Json.J A)} (hv : (dataAndMetadata d (run d fmt steps)).2 = .ok v) :
    ∃ c, v = .frame c ∧ c.flatten.Perm (Spec.Json.columns sep (.obj doc)) := by
  cases hfl : Json.flattened sep normalize keys doc with
  | error e =>
    have e1 : (run d fmt steps).format = .flattened := (fold_format d steps (new fmt)).trans hf
    unfold dataAndMetadata data at hv
    rw [e1, hd, hfl] at hv
    simp [Except.bind] at hv
  | ok p =>
    obtain ⟨f, x⟩ := p
    have hc := Json.C45_all_cells_partial sep hs normalize keys doc hw hu hp f x hfl
    rw [hfl] at hd
    cases x with
    | none =>
      obtain ⟨-, h2⟩ := C117_plain (d := d) (by rw [hd]; simp) fmt steps
      have e1 : (run d fmt steps).format = .flattened := (fold_format d steps (new fmt)).trans hf
      rw [h2] at hv
      unfold data at hv
      rw [e1, hd] at hv
      simp only [Except.ok.injEq] at hv
      exact ⟨f, hv.symm, by simpa using hc⟩
    | some m =>
      obtain ⟨h1, h2⟩ := C117_both hd fmt steps hf
      by_cases hm : HasCell m
      · obtain ⟨c, h3, h4⟩ := h1 hm
        rw [h3] at hv
        cases hv
        refine ⟨c, rfl, ?_⟩
        rw [side_unique h4 (concat_side m f)]
        exact (concat_cells m f).trans (List.perm_append_comm.trans hc)
      · rw [h2 hm] at hv
        cases hv
        refine ⟨f, rfl, ?_⟩
        have hz : m.flatten = [] := by
          rw [List.flatten_eq_nil_iff]
          intro row hrow
          by_contra hne
          exact hm ⟨row, hrow, hne⟩
        simpa [hz] using hc

/-- Metadata from an earlier reading stay when the format is changed: records and JSON then cannot be had with metadata, although they can
without an earlier reading, and a data frame that is not flattened gets them in addition to what it has. -/
theorem C117_format_fails {d : Doc V} {f m p : Frame V} {l j : List (List Char)} (hd : d.flat = .ok (f, some m)) (hm : HasCell m)
    (hr : d.records = .ok l) (hj : d.json = .ok j) (hp : d.plain = .ok p) :
    (dataAndMetadata d (run d .records [])).2 = .ok (.lines l) ∧
    (dataAndMetadata d (run d .flattened [.data, .format .records])).2 = .error .typeError ∧
    (dataAndMetadata d (run d .json [])).2 = .ok (.lines j) ∧
    (dataAndMetadata d (run d .flattened [.data, .format .json])).2 = .error .typeError ∧
    (dataAndMetadata d (run d .dataframe [])).2 = .ok (.frame p) ∧
    ∃ c, (dataAndMetadata d (run d .flattened [.data, .format .dataframe])).2 = .ok (.frame c) ∧ SideBySide m p c := by
  have he := (hasCell_iff m).mp hm
  refine ⟨?_, ?_, ?_, ?_, ?_, concat m p, ?_, concat_side m p⟩
  · simp [run, new, dataAndMetadata, data, hr, Except.map, Except.bind]
  · simp [run, new, step, dataAndMetadata, data, hd, hr, he, Except.map, Except.bind]
  · simp [run, new, dataAndMetadata, data, hj, Except.map, Except.bind]
  · simp [run, new, step, dataAndMetadata, data, hd, hj, he, Except.map, Except.bind]
  · simp [run, new, dataAndMetadata, data, hp, Except.map, Except.bind]
  · simp [run, new, step, dataAndMetadata, data, hd, hp, he, Except.map, Except.bind]

/-- A document with a payload of two rows. -/
def sample : Doc ℕ where
  flat := .ok ([[("d.x".toList, 1)], [("d.x".toList, 2)]], some [[("id".toList, 7)]])
  plain := .ok [[("id".toList, 7), ("d".toList, 0)]]
  records := .ok ["{}".toList]
  json := .ok ["[]".toList]

/-- Metadata asked for before data are missing. -/
theorem C117_early_fails : ∃ d : Doc ℕ, ∃ f m, d.flat = .ok (f, some m) ∧ HasCell m ∧ metadata (run d .flattened []) = (none, true) ∧
    (metadata (run d .flattened [.metadata, .data])).1 = some m :=
  ⟨sample, _, _, rfl, ⟨_, List.mem_singleton.mpr rfl, by simp⟩, rfl, rfl⟩

example : (dataAndMetadata sample (run sample .json [.data, .format .flattened])).2 =
    .ok (.frame [[("id".toList, 7), ("d.x".toList, 1)], [("d.x".toList, 2)]]) ∧
    formatAfter .json [.data, .format .flattened] = .flattened ∧ Flattened .json [.data, .format .flattened, .both] := by
  refine ⟨by decide +kernel, rfl, Or.inr (Or.inl rfl)⟩

/-- The document with two payloads beside C45, whose hypotheses of `C117_cells_partial` are shown there. -/
example : ∃ d : Doc (Json.J ℕ),
    d.flat = Json.flattened ['.'] (fun _ => .error .valueError) ["data".toList, "payload".toList] Json.twoPayloads ∧
    (dataAndMetadata d (run d .records [.metadata, .format .flattened])).2 =
      .ok (.frame [[("data.x".toList, .val 1), ("info".toList, .val 9), ("payload.y.z".toList, .val 2)], [("payload.y.z".toList, .val 3)]]) :=
  ⟨⟨Json.flattened ['.'] (fun _ => .error .valueError) ["data".toList, "payload".toList] Json.twoPayloads, .error .valueError,
    .error .valueError, .error .valueError⟩, rfl, rfl⟩

/-- A document without a payload, and one whose payload is everything. -/
example : ∃ d e : Doc ℕ, (∀ f m, d.flat ≠ .ok (f, some m)) ∧ (data d (run d .flattened [])).2 = .ok (.frame [[("a".toList, 1)]]) ∧
    e.flat = .ok ([[("data.a".toList, 1)]], some []) ∧ ¬ HasCell ([] : Frame ℕ) :=
  ⟨⟨.ok ([[("a".toList, 1)]], none), .ok [], .ok [], .ok []⟩, ⟨.ok ([[("data.a".toList, 1)]], some []), .ok [], .ok [], .ok []⟩,
    by simp, rfl, rfl, by simp [HasCell]⟩

end Verif.Props.Metadata
