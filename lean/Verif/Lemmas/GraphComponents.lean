import Verif.Lemmas.Graph
import Mathlib.Data.List.Dedup

/-!
# A way to compute connected components

Shows that the assumption made on `nx.connected_components` can be met, and lets concrete graphs be
profiled.
-/

namespace Verif.Graph

open Verif Verif.Spec.Graph

variable {V : Type} [DecidableEq V]

/-- Start from single nodes and unite the classes of the two ends of every edge. -/
def classes (ns : List V) : List (Edge V) → List (List V)
  | [] => ns.map fun n => [n]
  | e :: es =>
    let cs := classes ns es
    match cs.find? (fun c => decide (e.u ∈ c)), cs.find? (fun c => decide (e.v ∈ c)) with
    | some a, some b =>
      if e.v ∈ a then cs else (a ++ b) :: cs.filter fun c => !decide (e.u ∈ c) && !decide (e.v ∈ c)
    | _, _ => cs

abbrev Reach (g : Net V) := Relation.ReflTransGen (Joined g)

omit [DecidableEq V] in
theorem reach_symm {g : Net V} {a b : V} (h : Reach g a b) : Reach g b a := by
  induction h with
  | refl => exact .refl
  | tail _ h2 ih => exact .head (joined_symm h2) ih

omit [DecidableEq V] in
theorem joined_mono {ns : List V} {e : Edge V} {es : List (Edge V)} {a b : V} (h : Joined ⟨ns, es⟩ a b) :
    Joined ⟨ns, e :: es⟩ a b := let ⟨f, hf, hh⟩ := h; ⟨f, List.mem_cons_of_mem _ hf, hh⟩

omit [DecidableEq V] in
theorem reach_mono {ns : List V} {e : Edge V} {es : List (Edge V)} {a b : V} (h : Reach ⟨ns, es⟩ a b) :
    Reach ⟨ns, e :: es⟩ a b := by
  induction h with
  | refl => exact .refl
  | tail _ h2 ih => exact ih.tail (joined_mono h2)

omit [DecidableEq V] in
/-- A path in the graph with one more edge. -/
theorem reach_cons {ns : List V} {e : Edge V} {es : List (Edge V)} {x m : V} :
    Reach ⟨ns, e :: es⟩ x m ↔ Reach ⟨ns, es⟩ x m ∨ (Reach ⟨ns, es⟩ x e.u ∧ Reach ⟨ns, es⟩ e.v m) ∨
      (Reach ⟨ns, es⟩ x e.v ∧ Reach ⟨ns, es⟩ e.u m) := by
  have huv : Joined ⟨ns, e :: es⟩ e.u e.v := ⟨e, List.mem_cons_self, Or.inl ⟨rfl, rfl⟩⟩
  constructor
  · intro h
    induction h with
    | refl => exact Or.inl .refl
    | @tail b c _ hbc ih =>
      obtain ⟨f, hf, hh⟩ := hbc
      rcases List.mem_cons.1 hf with rfl | hf
      · rcases hh with ⟨rfl, rfl⟩ | ⟨rfl, rfl⟩
        · rcases ih with h | h | h
          · exact Or.inr (Or.inl ⟨h, .refl⟩)
          · exact Or.inr (Or.inl ⟨h.1, .refl⟩)
          · exact Or.inl h.1
        · rcases ih with h | h | h
          · exact Or.inr (Or.inr ⟨h, .refl⟩)
          · exact Or.inl h.1
          · exact Or.inr (Or.inr ⟨h.1, .refl⟩)
      · have hj : Joined (⟨ns, es⟩ : Net V) b c := ⟨f, hf, hh⟩
        rcases ih with h | h | h
        · exact Or.inl (h.tail hj)
        · exact Or.inr (Or.inl ⟨h.1, h.2.tail hj⟩)
        · exact Or.inr (Or.inr ⟨h.1, h.2.tail hj⟩)
  · rintro (h | h | h)
    · exact reach_mono h
    · exact ((reach_mono h.1).tail huv).trans (reach_mono h.2)
    · exact ((reach_mono h.1).tail (joined_symm huv)).trans (reach_mono h.2)

/-- The invariant of `classes`. -/
structure Classes (ns : List V) (es : List (Edge V)) (cs : List (List V)) : Prop where
  nodup : ∀ c ∈ cs, c.Nodup
  ne : ∀ c ∈ cs, ∃ n ∈ ns, n ∈ c
  covers : ∀ n ∈ ns, ∃ c ∈ cs, n ∈ c
  reach : ∀ c ∈ cs, ∀ x ∈ c, ∀ m, m ∈ c ↔ Reach ⟨ns, es⟩ x m

theorem classes_spec (ns : List V) (es : List (Edge V)) (he : ∀ e ∈ es, e.u ∈ ns ∧ e.v ∈ ns) :
    Classes ns es (classes ns es) := by
  induction es with
  | nil =>
    refine ⟨?_, ?_, ?_, ?_⟩
    · intro c hc
      obtain ⟨n, _, rfl⟩ := List.mem_map.1 hc
      exact List.nodup_singleton n
    · intro c hc
      obtain ⟨n, hn, rfl⟩ := List.mem_map.1 hc
      exact ⟨n, hn, List.mem_singleton.2 rfl⟩
    · exact fun n hn => ⟨[n], List.mem_map.2 ⟨n, hn, rfl⟩, List.mem_singleton.2 rfl⟩
    · intro c hc x hx m
      obtain ⟨n, _, rfl⟩ := List.mem_map.1 hc
      rw [List.mem_singleton] at hx ⊢
      subst hx
      constructor
      · rintro rfl; exact .refl
      · intro h
        rcases Relation.ReflTransGen.cases_tail h with h | ⟨_, _, f, hf, _⟩
        · exact h
        · cases hf
  | cons e es ih =>
    have ih := ih fun f hf => he f (List.mem_cons_of_mem _ hf)
    obtain ⟨hu, hv⟩ := he e List.mem_cons_self
    unfold classes
    obtain ⟨a0, ha0, hua0⟩ := ih.covers _ hu
    obtain ⟨b0, hb0, hvb0⟩ := ih.covers _ hv
    revert ih ha0 hb0
    generalize classes ns es = cs
    intro ih ha0 hb0
    cases hfa : cs.find? (fun c => decide (e.u ∈ c)) with
    | none => exact absurd (decide_eq_true hua0) (by simpa using List.find?_eq_none.1 hfa a0 ha0)
    | some a =>
      cases hfb : cs.find? (fun c => decide (e.v ∈ c)) with
      | none => exact absurd (decide_eq_true hvb0) (by simpa using List.find?_eq_none.1 hfb b0 hb0)
      | some b =>
        have ha : a ∈ cs := List.mem_of_find?_eq_some hfa
        have hb : b ∈ cs := List.mem_of_find?_eq_some hfb
        have hua : e.u ∈ a := by simpa using List.find?_some hfa
        have hvb : e.v ∈ b := by simpa using List.find?_some hfb
        simp only [hfa, hfb]
        have memu : ∀ m, m ∈ a ↔ Reach ⟨ns, es⟩ e.u m := ih.reach a ha _ hua
        have memv : ∀ m, m ∈ b ↔ Reach ⟨ns, es⟩ e.v m := ih.reach b hb _ hvb
        by_cases hva : e.v ∈ a
        · rw [if_pos hva]
          refine ⟨ih.nodup, ih.ne, ih.covers, fun c hc x hx m => ?_⟩
          rw [ih.reach c hc x hx m, reach_cons]
          have huv : Reach ⟨ns, es⟩ e.u e.v := (memu _).1 hva
          constructor
          · exact Or.inl
          · rintro (h | h | h)
            · exact h
            · exact (h.1.trans huv).trans h.2
            · exact (h.1.trans (reach_symm huv)).trans h.2
        · rw [if_neg hva]
          have disj : ∀ m, m ∈ a → m ∈ b → False := fun m h1 h2 =>
            hva ((memu _).2 (((memu m).1 h1).trans (reach_symm ((memv m).1 h2))))
          refine ⟨?_, ?_, ?_, ?_⟩
          · intro c hc
            rcases List.mem_cons.1 hc with rfl | hc
            · exact List.nodup_append'.2 ⟨ih.nodup a ha, ih.nodup b hb, fun m h1 h2 => disj m h1 h2⟩
            · exact ih.nodup c (List.mem_filter.1 hc).1
          · intro c hc
            rcases List.mem_cons.1 hc with rfl | hc
            · exact ⟨e.u, hu, List.mem_append_left _ hua⟩
            · exact ih.ne c (List.mem_filter.1 hc).1
          · intro n hn
            obtain ⟨c, hc, hnc⟩ := ih.covers n hn
            by_cases huc : e.u ∈ c
            · exact ⟨_, List.mem_cons_self, List.mem_append_left _ ((memu n).2 ((ih.reach c hc _ huc n).1 hnc))⟩
            · by_cases hvc : e.v ∈ c
              · exact ⟨_, List.mem_cons_self, List.mem_append_right _ ((memv n).2 ((ih.reach c hc _ hvc n).1 hnc))⟩
              · exact ⟨c, List.mem_cons_of_mem _ (List.mem_filter.2 ⟨hc, by simp [huc, hvc]⟩), hnc⟩
          · intro c hc x hx m
            rw [reach_cons]
            rcases List.mem_cons.1 hc with rfl | hc
            · rw [List.mem_append] at hx ⊢
              rw [memu, memv]
              rcases hx with hx | hx
              · have hxu := reach_symm ((memu x).1 hx)
                constructor
                · rintro (h | h)
                  · exact Or.inl (hxu.trans h)
                  · exact Or.inr (Or.inl ⟨hxu, h⟩)
                · rintro (h | h | h)
                  · exact Or.inl ((reach_symm hxu).trans h)
                  · exact Or.inr h.2
                  · exact Or.inl h.2
              · have hxv := reach_symm ((memv x).1 hx)
                constructor
                · rintro (h | h)
                  · exact Or.inr (Or.inr ⟨hxv, h⟩)
                  · exact Or.inl (hxv.trans h)
                · rintro (h | h | h)
                  · exact Or.inr ((reach_symm hxv).trans h)
                  · exact Or.inr h.2
                  · exact Or.inl h.2
            · obtain ⟨hc, hn⟩ := List.mem_filter.1 hc
              simp only [Bool.and_eq_true, Bool.not_eq_true', decide_eq_false_iff_not] at hn
              rw [ih.reach c hc x hx m]
              constructor
              · exact Or.inl
              · rintro (h | h | h)
                · exact h
                · exact absurd ((ih.reach c hc x hx _).2 h.1) hn.1
                · exact absurd ((ih.reach c hc x hx _).2 h.1) hn.2

/-- A library whose components are computed by `classes`; scipy and numpy are given. -/
def toyLib (nnlf : ℕ → List Val → Option ℚ) (histogram : List Val → Except Err (List ℕ × List ℚ)) : Lib V where
  unique l := l.dedup
  components g := classes g.nodes g.edges
  nnlf := nnlf
  histogram := histogram

theorem toyLib_faithful (nnlf : ℕ → List Val → Option ℚ) (histogram : List Val → Except Err (List ℕ × List ℚ)) :
    Faithful (toyLib nnlf histogram : Lib V) where
  unique_nodup l := List.nodup_dedup l
  unique_mem l a := List.mem_dedup
  component g hg c hc := by
    have := classes_spec g.nodes g.edges hg.ends
    obtain ⟨n, hn, hnc⟩ := this.ne c hc
    exact ⟨this.nodup c hc, n, hn, this.reach c hc n hnc⟩
  covers g hg := (classes_spec g.nodes g.edges hg.ends).covers

end Verif.Graph
