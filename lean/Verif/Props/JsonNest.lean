import Verif.Lemmas.JsonNest

/-!
# C73: nested records
-/

namespace Verif.Props.JsonNest

open Verif Verif.Json Verif.JsonNest Verif.Spec.JsonNest

variable {A : Type}

/-- C73: each cell of a row is found in the record under the components of its key, unless there are others below it. -/
theorem C73_nested (blank : A → Bool) (row : PyDict Key (J A)) (hw : PyDict.WF row) (hleaf : ∀ x ∈ row, x.2.isObj = false)
    (hnest : Nestable blank row) (hne : row ≠ []) :
    ∃ d, nest blank row = .ok d ∧ Document (.obj d) ∧ (leavesF d).Perm (outermost row) := by
  obtain ⟨d, h1, h2, h3, h4⟩ := convert_row blank row hw hleaf hnest
  refine ⟨d, ?_, ?_, h4⟩
  · unfold nest
    rw [h1]
    exact convert_clean blank _ d fun x hx => (h3 x hx).1
  · apply fine_document ⟨h2, h3⟩
    intro hd
    have hl := h4.length_eq
    rw [hd, leavesF, List.length_nil, eq_comm, List.length_eq_zero_iff] at hl
    -- a cell with a longest path stays
    obtain ⟨x, hx, hmax⟩ : ∃ x ∈ row, ∀ y ∈ row, (parts y.1).length ≤ (parts x.1).length := by
      clear * - hne
      induction row with
      | nil => exact absurd rfl hne
      | cons a row ih =>
        by_cases hr : row = []
        · subst hr
          exact ⟨a, List.mem_cons_self, fun y hy => by rw [List.mem_singleton.1 hy]⟩
        · obtain ⟨x, hx, h⟩ := ih hr
          by_cases hle : (parts a.1).length ≤ (parts x.1).length
          · refine ⟨x, List.mem_cons_of_mem _ hx, fun y hy => ?_⟩
            rcases List.mem_cons.1 hy with rfl | hy
            · exact hle
            · exact h y hy
          · refine ⟨a, List.mem_cons_self, fun y hy => ?_⟩
            rcases List.mem_cons.1 hy with rfl | hy
            · exact Nat.le_refl _
            · have := h y hy
              omega
    have : (parts x.1, x.2) ∈ outermost row := by
      unfold outermost
      refine List.mem_filter.2 ⟨mem_cells.2 ⟨x, hx, rfl⟩, ?_⟩
      rw [List.all_eq_true]
      intro e he
      rw [decide_eq_true_eq]
      intro hp
      obtain ⟨y, hy, rfl⟩ := mem_cells.1 he
      exact (hp.eq_of_length_le (hmax y hy)).symm
    rw [hl] at this
    cases this

/-- Texts as cells; only the text "nan" is blank. -/
def nan (a : List Char) : Bool := a = "nan".toList

/-- A cell of an example. -/
def cell (k v : String) : Key × J (List Char) := (k.toList, .val v.toList)

/-- The row `{"x": "nan", "a.b": "1", "x.y.z": "2", "x.c": "3", "a.d": "4"}`. -/
def row : PyDict Key (J (List Char)) := [cell "x" "nan", cell "a.b" "1", cell "x.y.z" "2", cell "x.c" "3", cell "a.d" "4"]

example : PyDict.WF row ∧ Nestable nan row := by
  constructor
  · show (row.map (·.1)).Nodup
    decide +kernel
  · unfold Nestable
    decide +kernel

example : nest nan row = .ok [("x".toList, .obj [("y".toList, .obj [cell "z" "2"]), cell "c" "3"]),
    ("a".toList, .obj [cell "b" "1", cell "d" "4"])] := by rfl

/-- C73: if no key is above another, every cell is in the record. -/
theorem C73_all_kept (blank : A → Bool) (row : PyDict Key (J A)) (hw : PyDict.WF row) (hleaf : ∀ x ∈ row, x.2.isObj = false)
    (hne : row ≠ []) (hap : Apart (row.map fun x => parts x.1)) :
    ∃ d, nest blank row = .ok d ∧ Document (.obj d) ∧ (leavesF d).Perm (row.map fun x => (parts x.1, x.2)) := by
  obtain ⟨h1, h2⟩ := apart_nestable blank hap
  obtain ⟨d, h3, h4, h5⟩ := C73_nested blank row hw hleaf h1 hne
  exact ⟨d, h3, h4, by rw [h2] at h5; exact h5⟩

example : Apart (row.tail.map fun x => parts x.1) := by
  unfold Apart
  decide +kernel

/-- C73: a document made flat is given back, up to the order of the keys. -/
theorem C73_document (blank : A → Bool) (doc : List (Key × J A)) (h : Document (.obj doc)) :
    ∃ d, nest blank (flat doc) = .ok d ∧ Document (.obj d) ∧ (leavesF d).Perm (leavesF doc) := by
  obtain ⟨h1, h2, h3, h4⟩ := document_flat h
  have hne : flat doc ≠ [] := by
    intro h0
    have : leaves (.obj doc) = [] := by
      rw [leaves, ← h1, h0]
      rfl
    exact leaves_ne_nil h this
  obtain ⟨d, h5, h6, h7⟩ := C73_all_kept blank _ h2 h3 hne h4
  refine ⟨d, h5, h6, ?_⟩
  rw [← h1]
  exact h7

example : Document (A := List Char) (.obj [("a".toList, .obj [cell "b" "1", ("c".toList, .list [])]), cell "d" "2"]) := by
  refine .obj _ (by simp) (by decide +kernel) (by decide +kernel) ?_
  intro x hx
  rcases List.mem_cons.1 hx with rfl | hx
  · refine .obj _ (by simp) (by decide +kernel) (by decide +kernel) ?_
    intro x hx
    rcases List.mem_cons.1 hx with rfl | hx
    · exact .val _
    · rw [List.mem_singleton.1 hx]; exact .list _
  · rw [List.mem_singleton.1 hx]; exact .val _

/-- C73: the only error is a TypeError, and no key of a record has a dot. -/
theorem C73_error (blank : A → Bool) (row : PyDict Key (J A)) (hw : PyDict.WF row) (hdoc : ∀ x ∈ row, Document x.2) :
    nest blank row = .error .typeError ∨
    ∃ d, nest blank row = .ok d ∧ PyDict.WF d ∧ ∀ x ∈ d, '.' ∉ x.1 ∧ Document x.2 := by
  unfold nest
  rcases (convert_row_any blank row hw hdoc).1 with h | ⟨d, h, hf⟩
  · rw [h]; exact .inl rfl
  · rw [h]
    exact .inr ⟨d, convert_clean blank _ d fun x hx => (hf.2 x hx).1, hf.1, fun x hx => ⟨(cut_iff _).1 (hf.2 x hx).1, (hf.2 x hx).2⟩⟩

/-- C73: a value at the top with others below it is an error, unless it is blank. -/
theorem C73_refused (blank : A → Bool) (row : PyDict Key (J A)) (hw : PyDict.WF row) (hdoc : ∀ x ∈ row, Document x.2) (x y : Key × J A)
    (hx : x ∈ row) (hy : y ∈ row) (hdot : '.' ∉ x.1) (hleaf : x.2.isObj = false) (hb : blankJ blank x.2 = false)
    (hp : parts x.1 <+: parts y.1) (hne : x ≠ y) : nest blank row = .error .typeError := by
  unfold nest
  rw [(convert_row_any blank row hw hdoc).2 x hx y hy hdot hleaf hb hp hne]
  rfl

/-- C73 fails for the documents `[{"x": null}, {"x": {"a": 1}}]`: the first one as a row has the cells "None" and "nan". -/
theorem C73_null_fails : nest nan [cell "x" "None", cell "x.a" "nan"] = .error .typeError := by
  refine C73_refused nan _ ?_ ?_ (cell "x" "None") (cell "x.a" "nan") (by simp) (by simp) (by decide +kernel) rfl (by decide +kernel)
    (by decide +kernel) ?_
  · show (List.map _ _).Nodup
    decide +kernel
  · intro x hx
    rcases List.mem_cons.1 hx with rfl | hx
    · exact .val _
    · rw [List.mem_singleton.1 hx]; exact .val _
  · intro h
    have := congrArg Prod.fst h
    revert this
    decide +kernel

/-- C73 fails for the documents `[{"y": {"x": {"a": 1}}}, {"y": {"x": 5}}]`: in the first one the value 1 is lost. -/
theorem C73_lost_fails : nest nan [cell "y.x.a" "1", cell "y.x" "nan"] = .ok [("y".toList, .obj [cell "x" "nan"])] := rfl

end Verif.Props.JsonNest
