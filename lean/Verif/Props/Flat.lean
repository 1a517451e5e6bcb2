import Verif.Lemmas.Flat

/-!
# C32: flattening a report
-/

namespace Verif.FlatProps

open Verif Flat FlatSpec

variable {V : Type}

/-- Every entry of the flat report is a leaf under its joined path, and every leaf has an entry under its joined path. A leaf
is lost only to another one with the same joined path. -/
theorem C32_flat (items : List (Key × Tree V)) (hd : Distinct (.node items)) :
    PyDict.WF (flatDict (.node items)) ∧
      (∀ k v, (k, v) ∈ flatDict (.node items) → ∃ path, (path, v) ∈ leaves (.node items) ∧ name path = k) ∧
      ∀ path v, (path, v) ∈ leaves (.node items) →
        ∃ w, PyDict.get? (flatDict (.node items)) (name path) = some w ∧
          (w = v ∨ ∃ other, other ≠ path ∧ (other, w) ∈ leaves (.node items) ∧ name other = name path) := by
  have sound : ∀ k v, (k, v) ∈ flatDict (.node items) → ∃ path, (path, v) ∈ leaves (.node items) ∧ name path = k := by
    intro k v h
    obtain ⟨pv, hm, e⟩ := List.mem_map.1 (flat_sound _ _ _ h)
    rw [nameFrom_top] at e
    obtain ⟨rfl, rfl⟩ := Prod.mk.inj e
    exact ⟨pv.1, hm, rfl⟩
  refine ⟨wf_flat _ _, sound, fun path v h => ?_⟩
  have hk : name path ∈ PyDict.keys (flatDict (.node items)) := by
    unfold flatDict
    rw [flat_keys]
    refine List.mem_map.2 ⟨(name path, v), List.mem_map.2 ⟨(path, v), h, ?_⟩, rfl⟩
    rw [nameFrom_top]
  obtain ⟨w, hw⟩ := (PyDict.mem_keys_iff _ _).1 hk
  obtain ⟨other, hm, hn⟩ := sound _ _ (PyDict.mem_of_get? hw)
  refine ⟨w, hw, ?_⟩
  by_cases ho : other = path
  · subst ho
    left
    have hn := List.inj_on_of_nodup_map (leaves_nodup (.node items) hd) hm h rfl
    exact (Prod.mk.inj hn).2
  · exact Or.inr ⟨other, ho, hm, hn⟩

/-- If no two leaves have the same joined path, the flat report lists exactly the leaves, in order. -/
theorem C32_exact (items : List (Key × Tree V)) (h : ((leaves (.node items)).map fun pv => name pv.1).Nodup) :
    flatDict (.node items) = (leaves (.node items)).map fun pv => (name pv.1, pv.2) := by
  have e : names (.str []) (.node items) = (leaves (.node items)).map fun pv => (name pv.1, pv.2) :=
    List.map_congr_left fun pv _ => by rw [nameFrom_top]
  unfold flatDict
  rw [flat_exact, e]
  rw [e, List.map_map]
  exact h

/-- This is so for all dictionaries whose keys are non-empty texts without blanks and underscores. -/
theorem C32_plain (items : List (Key × Tree V)) (hd : Distinct (.node items))
    (hp : ∀ pv ∈ leaves (.node items), ∀ k ∈ pv.1, Plain k) :
    flatDict (.node items) = (leaves (.node items)).map fun pv => (name pv.1, pv.2) := by
  refine C32_exact items ?_
  have h1 := leaves_nodup (.node items) hd
  have e : ((leaves (.node items)).map fun pv => name pv.1) = ((leaves (.node items)).map Prod.fst).map name := by
    rw [List.map_map]; rfl
  rw [e]
  have hne : ∀ p ∈ (leaves (.node items)).map Prod.fst, p ≠ [] ∧ ∀ k ∈ p, Plain k := by
    intro p hp'
    obtain ⟨pv, hm, rfl⟩ := List.mem_map.1 hp'
    refine ⟨?_, hp pv hm⟩
    simp only [leaves] at hm
    obtain ⟨k, rest, e, _⟩ := leavesItems_head hm
    rw [e]; simp
  exact h1.map_on fun p hp q hq hpq => name_injective (hne p hp).1 (hne q hq).1 (hne p hp).2 (hne q hq).2 hpq

section Examples

private def k (s : String) : Key := .str s.toList

/-- A nested report. -/
private def sample : List (Key × Tree ℕ) :=
  [(k "global", .node [(k "rows", .leaf 3), (k "per col", .node [(k "a b", .leaf 1), (.int 7, .leaf 2)])]), (k "n", .leaf 9)]

example : flatDict (.node sample) =
    [(k "global_rows", 3), (k "global_per_col_a b", 1), (k "global_per_col_7", 2), (k "n", 9)] := by decide +kernel

example : ((leaves (.node sample)).map fun pv => name pv.1).Nodup := by decide +kernel

example : name [k "global", k "per col", k "a b"] = k "global_per_col_a b" := by decide +kernel

end Examples

/-- Not every leaf survives: an underscore in a key and one from joining are not told apart, neither are a blank and an
underscore, and a zero key vanishes. -/
theorem C32_collision_fails :
    flatDict (.node [(.str "a".toList, .node [(.str "b".toList, .leaf 1)]), (.str "a_b".toList, .leaf 2)]) =
        [(.str "a_b".toList, 2)] ∧
      flatDict (.node [(.str "a b".toList, .node [(.str "c".toList, .leaf 1)]),
        (.str "a_b".toList, .node [(.str "c".toList, .leaf 2)])]) = [(.str "a_b_c".toList, 2)] ∧
      flatDict (.node [(.int 0, .node [(.str "c".toList, .leaf 1)]), (.str "c".toList, .leaf 2)]) =
        [(.str "c".toList, 2)] := by decide +kernel

end Verif.FlatProps
