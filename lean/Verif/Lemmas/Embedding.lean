import Verif.Spec.Embedding
import Mathlib.Data.List.Basic
import Mathlib.Data.List.Induction
import Mathlib.Data.List.Forall2

/-! # Lemmas about files of embeddings -/

namespace Verif.Embedding

open Verif Verif.Spec.Embedding

variable {sp : Char → Bool}

/-! ## Words of a line -/

theorem fields_blank {s : Text} (h : Blank sp s) (t : Text) : fieldsFrom sp [] (s ++ t) = fieldsFrom sp [] t := by
  induction s with
  | nil => rfl
  | cons c s ih =>
    have hc := h c (by simp)
    simp [fieldsFrom, hc, ih (fun x hx => h x (by simp [hx]))]

theorem fields_word {w : Text} (h : ∀ c ∈ w, sp c = false) (cur t : Text) : fieldsFrom sp cur (w ++ t) = fieldsFrom sp (cur ++ w) t := by
  induction w generalizing cur with
  | nil => simp
  | cons c w ih =>
    have hc := h c (by simp)
    simp [fieldsFrom, hc, ih (fun x hx => h x (by simp [hx]))]

theorem fields_of {t : Text} {ws : List Text} (h : Consists sp t ws) : fieldsFrom sp [] t = ws := by
  induction h with
  | blank h => have := fields_blank h []; simpa [fieldsFrom] using this
  | last h hw =>
    rename_i s w
    have := fields_word hw.2 [] []
    rw [fields_blank h, ← List.append_nil w, this]
    simp [fieldsFrom, hw.1]
  | word h hw hc _ ih =>
    rename_i s w c rest ws _
    rw [List.append_assoc, fields_blank h, fields_word hw.2]
    simp only [fieldsFrom, hc, if_true] at ih ⊢
    simp [hw.1, ih]

theorem consists_cons {c : Char} (hc : sp c = true) {t : Text} {ws : List Text} (h : Consists sp t ws) : Consists sp (c :: t) ws := by
  have blank : ∀ {s : Text}, Blank sp s → Blank sp (c :: s) := by
    intro s hs x hx
    rcases List.mem_cons.mp hx with rfl | hx
    · exact hc
    · exact hs x hx
  cases h with
  | blank h => exact .blank (blank h)
  | last h hw => rw [← List.cons_append]; exact .last (blank h) hw
  | word h hw hd hr => rw [← List.cons_append, ← List.cons_append]; exact .word (blank h) hw hd hr

theorem consists_fields (t : Text) : ∀ cur : Text, (∀ c ∈ cur, sp c = false) → Consists sp (cur ++ t) (fieldsFrom sp cur t) := by
  induction t with
  | nil =>
    intro cur h
    unfold fieldsFrom
    split
    · rename_i h0; rw [h0]; exact .blank (by simp [Blank])
    · rename_i h0
      simpa using Consists.last (s := []) (by simp [Blank]) ⟨h0, h⟩
  | cons c cs ih =>
    intro cur h
    unfold fieldsFrom
    by_cases hc : sp c = true
    · rw [if_pos hc]
      have h1 : Consists sp (c :: cs) (fieldsFrom sp [] cs) := consists_cons hc (by simpa using ih [] (by simp))
      split
      · rename_i h0; rw [h0]; exact h1
      · rename_i h0
        simpa using Consists.word (s := []) (by simp [Blank]) ⟨h0, h⟩ hc h1
    · rw [if_neg hc]
      have := ih (cur ++ [c]) (by
        intro x hx
        rcases List.mem_append.mp hx with hx | hx
        · exact h x hx
        · simp at hx; rw [hx]; simpa using hc)
      simpa using this

theorem fields_iff {t : Text} {ws : List Text} : fieldsFrom sp [] t = ws ↔ Consists sp t ws :=
  ⟨fun h => by rw [← h]; simpa using consists_fields (sp := sp) t [] (by simp), fields_of⟩

/-! ## Lines -/

theorem lines_skip {a : Text} (h : '\n' ∉ a) (cur t : Text) : linesFrom cur (a ++ t) = linesFrom (cur ++ a) t := by
  induction a generalizing cur with
  | nil => simp
  | cons c a ih =>
    have hc : c ≠ '\n' := by rintro rfl; exact h (by simp)
    simp [linesFrom, hc, ih (fun hx => h (by simp [hx]))]

theorem lines_of {ls : List Text} : ∀ {text : Text}, Lines text ls → linesFrom [] text = ls := by
  induction ls with
  | nil =>
    rintro text ⟨h, -⟩
    simp at h
    subst h
    rfl
  | cons l ls ih =>
    rintro text ⟨h1, h2, h3, h4⟩
    have hl := h2 l (by simp)
    have hd := h3 l (by simp)
    have e : l = l.dropLast ++ [l.getLast hl] := (List.dropLast_append_getLast hl).symm
    cases ls with
    | nil =>
      simp at h1
      subst h1
      have : linesFrom [] l = linesFrom l.dropLast [l.getLast hl] := by
        conv_lhs => rw [e]
        rw [lines_skip hd, List.nil_append]
      rw [this]
      simp only [linesFrom]
      split <;> (try simp) <;> exact e.symm
    | cons m ms =>
      have hx : l.getLast hl = '\n' := by
        have := h4 l (by simp)
        rw [List.getLast?_eq_some_getLast hl] at this
        simpa using this
      have := ih (text := (m :: ms).flatten) ⟨rfl, fun x hx => h2 x (List.mem_cons_of_mem _ hx),
        fun x hx => h3 x (List.mem_cons_of_mem _ hx), fun x hx => h4 x (by rw [List.dropLast_cons_of_ne_nil (by simp)]; exact List.mem_cons_of_mem _ hx)⟩
      have el : l = l.dropLast ++ ['\n'] := by rw [← hx]; exact e
      rw [← h1, List.flatten_cons]
      generalize (m :: ms).flatten = rest at this ⊢
      rw [← this]
      have : l ++ rest = l.dropLast ++ '\n' :: rest := by
        conv_lhs => rw [el]
        simp
      rw [this, lines_skip hd]
      simp only [linesFrom, if_true, List.nil_append]
      rw [← el]

theorem lines_exist (text : Text) : ∀ cur : Text, '\n' ∉ cur → Lines (cur ++ text) (linesFrom cur text) := by
  induction text with
  | nil =>
    intro cur h
    unfold linesFrom
    split
    · rename_i h0; simp [h0, Lines]
    · rename_i h0
      refine ⟨by simp, by simpa using h0, ?_, by simp⟩
      intro l hl
      simp at hl
      subst hl
      exact fun hx => h (List.dropLast_subset _ hx)
  | cons c cs ih =>
    intro cur h
    unfold linesFrom
    by_cases hc : c = '\n'
    · rw [if_pos hc]
      subst hc
      obtain ⟨h1, h2, h3, h4⟩ := ih [] (by simp)
      refine ⟨by simp at h1 ⊢; exact h1, ?_, ?_, ?_⟩
      · intro l hl
        rcases List.mem_cons.mp hl with rfl | hl
        · simp
        · exact h2 l hl
      · intro l hl
        rcases List.mem_cons.mp hl with rfl | hl
        · simpa using h
        · exact h3 l hl
      · intro l hl
        cases hr : linesFrom [] cs with
        | nil => rw [hr] at hl; simp at hl
        | cons m ms =>
          rw [hr] at hl h4
          rw [List.dropLast_cons_of_ne_nil (by simp)] at hl
          rcases List.mem_cons.mp hl with rfl | hl
          · simp
          · exact h4 l hl
    · rw [if_neg hc]
      have := ih (cur ++ [c]) (by simp [h]; exact fun h => hc h.symm)
      simpa using this

/-! ## The table -/

theorem universal_self {t : Text} (h : '\r' ∉ t) : universal t = t := by
  induction t with
  | nil => rfl
  | cons c t ih =>
    have hc : c ≠ '\r' := by rintro rfl; exact h (by simp)
    have := ih (fun hx => h (by simp [hx]))
    unfold universal
    split
    · rename_i he; simp at he; exact absurd he.1 hc
    · rename_i he; simp at he; exact absurd he.1 hc
    · rename_i he; simp at he; rw [← he.1, ← he.2, this]
    · rename_i he; simp at he

theorem universal_skip {a : Text} (h : '\r' ∉ a) (t : Text) : universal (a ++ t) = a ++ universal t := by
  induction a with
  | nil => rfl
  | cons c a ih =>
    have hc : c ≠ '\r' := by rintro rfl; exact h (by simp)
    have := ih (fun hx => h (by simp [hx]))
    rw [List.cons_append]
    conv_lhs => unfold universal
    split
    · rename_i he; simp at he; exact absurd he.1 hc
    · rename_i he; simp at he; exact absurd he.1 hc
    · rename_i he; simp at he; rw [← he.1, ← he.2, this]; rfl
    · rename_i he; simp at he

theorem foldlM_rows {ls : List Text} {rows : Table} (h : List.Forall₂ (fun l r => Consists sp l (r.1 :: r.2)) ls rows) (t : Table) :
    ls.foldlM (addLine sp) t = .ok (rows.foldl (fun t r => put r.1 r.2 t) t) := by
  induction h generalizing t with
  | nil => rfl
  | cons hr _ ih =>
    rename_i l r _ _ _
    rw [List.foldlM_cons]
    have : addLine sp t l = .ok (put r.1 r.2 t) := by unfold addLine; rw [fields_of hr]
    rw [this]
    exact ih _

theorem keys_put (w : Text) (v : List Text) (t : Table) :
    (put w v t).map Prod.fst = if w ∈ t.map Prod.fst then t.map Prod.fst else t.map Prod.fst ++ [w] := by
  induction t with
  | nil => simp [put]
  | cons x t ih =>
    unfold put
    by_cases h : x.1 = w
    · simp [h]
    · rw [if_neg h, List.map_cons, ih]
      have : (w ∈ (x :: t).map Prod.fst) ↔ w ∈ t.map Prod.fst := by simp [Ne.symm h]
      by_cases hm : w ∈ t.map Prod.fst
      · rw [if_pos hm, if_pos (this.mpr hm)]; rfl
      · rw [if_neg hm, if_neg (fun h => hm (this.mp h))]; rfl

theorem put_new {w : Text} {v : List Text} {t : Table} (h : w ∉ t.map Prod.fst) : put w v t = t ++ [(w, v)] := by
  induction t with
  | nil => rfl
  | cons x t ih =>
    simp only [List.map_cons, List.mem_cons, not_or] at h
    simp [put, Ne.symm h.1, ih h.2]

theorem mem_put {w : Text} {v : List Text} {t : Table} (hn : (t.map Prod.fst).Nodup) (a : Text) (b : List Text) :
    (a, b) ∈ put w v t ↔ (a = w ∧ b = v) ∨ (a ≠ w ∧ (a, b) ∈ t) := by
  induction t with
  | nil => simp [put]
  | cons x t ih =>
    simp only [List.map_cons, List.nodup_cons] at hn
    unfold put
    by_cases h : x.1 = w
    · rw [if_pos h]
      obtain ⟨x1, x2⟩ := x
      simp only at h hn
      subst h
      simp only [List.mem_cons, Prod.mk.injEq]
      constructor
      · rintro (h | h)
        · exact Or.inl h
        · refine Or.inr ⟨?_, Or.inr h⟩
          rintro rfl
          exact hn.1 (List.mem_map.mpr ⟨_, h, rfl⟩)
      · rintro (h | ⟨h1, h2 | h2⟩)
        · exact Or.inl h
        · exact absurd h2.1 h1
        · exact Or.inr h2
    · rw [if_neg h]
      simp only [List.mem_cons, ih hn.2]
      constructor
      · rintro (h' | h' | ⟨h1, h2⟩)
        · refine Or.inr ⟨?_, Or.inl h'⟩
          rintro rfl
          exact h (by rw [← h'])
        · exact Or.inl h'
        · exact Or.inr ⟨h1, Or.inr h2⟩
      · tauto

theorem vector_append (rows : Table) (r : Text × List Text) (w : Text) :
    vectorOf (rows ++ [r]) w = if r.1 = w then some r.2 else vectorOf rows w := by
  unfold vectorOf
  by_cases h : r.1 = w <;> simp [List.filter_append, h]

theorem table_spec (rows : Table) :
    ((rows.foldl (fun t r => put r.1 r.2 t) []).map Prod.fst).Nodup ∧
    ∀ w v, (w, v) ∈ rows.foldl (fun t r => put r.1 r.2 t) [] ↔ vectorOf rows w = some v := by
  induction rows using List.reverseRecOn with
  | nil => simp [vectorOf]
  | append_singleton rows r ih =>
    obtain ⟨h1, h2⟩ := ih
    rw [List.foldl_append]
    simp only [List.foldl_cons, List.foldl_nil]
    refine ⟨?_, ?_⟩
    · rw [keys_put]
      split
      · exact h1
      · rename_i hm
        rw [List.nodup_append]
        refine ⟨h1, by simp, ?_⟩
        intro a ha b hb
        simp at hb
        subst hb
        rintro rfl
        exact hm ha
    · intro w v
      rw [mem_put h1, vector_append, h2]
      by_cases h : r.1 = w
      · simp [h, eq_comm]
      · simp [h, Ne.symm h]

theorem table_distinct {rows : Table} (h : (rows.map Prod.fst).Nodup) : rows.foldl (fun t r => put r.1 r.2 t) [] = rows := by
  have main : ∀ (rows pre : Table), ((pre ++ rows).map Prod.fst).Nodup → rows.foldl (fun t r => put r.1 r.2 t) pre = pre ++ rows := by
    intro rows
    induction rows with
    | nil => simp
    | cons r rows ih =>
      intro pre hn
      have hr : r.1 ∉ pre.map Prod.fst := by
        rw [List.map_append, List.nodup_append] at hn
        exact fun hx => hn.2.2 _ hx _ (by simp) rfl
      rw [List.foldl_cons, put_new hr, ih _ (by simpa using hn)]
      simp
  simpa using main rows [] (by simpa using h)

/-! ## Writing -/

/-- A line of a file that is written. -/
def lineOf (r : Text × List Text) : Text := r.1 ++ ' ' :: (join r.2 ++ ['\n'])

theorem write_eq (t : Table) : write t = (t.map lineOf).flatten := by
  induction t with
  | nil => rfl
  | cons r t ih =>
    obtain ⟨w, v⟩ := r
    simp [write, lineOf, ih]

theorem consists_join (hu : Usual sp) {v : List Text} (h : ∀ x ∈ v, Word sp x) : Consists sp (' ' :: (join v ++ ['\n'])) v := by
  induction v with
  | nil => exact .blank (by intro c hc; simp [join] at hc; rcases hc with rfl | rfl; exacts [hu.1, hu.2.1])
  | cons x v ih =>
    have hx := h x (by simp)
    have hs : Blank sp [' '] := by intro c hc; simp at hc; rw [hc]; exact hu.1
    cases v with
    | nil =>
      have : Consists sp ['\n'] [] := .blank (by intro c hc; simp at hc; rw [hc]; exact hu.2.1)
      simpa [join] using Consists.word hs hx hu.2.1 this
    | cons y v =>
      have := ih (fun z hz => h z (by simp only [List.mem_cons] at hz ⊢; tauto))
      simpa [join] using Consists.word hs hx hu.1 this

theorem consists_line (hu : Usual sp) {r : Text × List Text} (hw : Word sp r.1) (hv : ∀ x ∈ r.2, Word sp x) :
    Consists sp (lineOf r) (r.1 :: r.2) := by
  simpa [lineOf] using Consists.word (s := []) (by simp [Blank]) hw hu.1 (consists_join hu hv)

theorem mem_join {v : List Text} {c : Char} (h : c ∈ join v) : c = ' ' ∨ ∃ x ∈ v, c ∈ x := by
  induction v with
  | nil => simp [join] at h
  | cons x v ih =>
    cases v with
    | nil => exact Or.inr ⟨x, by simp, by simpa [join] using h⟩
    | cons y v =>
      simp only [join, List.mem_append, List.mem_cons] at h
      rcases h with h | h | h
      · exact Or.inr ⟨x, by simp, h⟩
      · exact Or.inl h
      · rcases ih h with h | ⟨z, hz, hc⟩
        · exact Or.inl h
        · exact Or.inr ⟨z, by simp only [List.mem_cons] at hz ⊢; tauto, hc⟩

theorem clean_line {r : Text × List Text} (hw : Word sp r.1) (hv : ∀ x ∈ r.2, Word sp x) (c : Char) (hc : sp c = true)
    (hcb : c ≠ ' ') : c ∉ (lineOf r).dropLast := by
  have e : (lineOf r).dropLast = r.1 ++ ' ' :: join r.2 := by
    have : lineOf r = (r.1 ++ ' ' :: join r.2) ++ ['\n'] := by simp [lineOf]
    rw [this, List.dropLast_concat]
  rw [e]
  intro h
  simp only [List.mem_append, List.mem_cons] at h
  rcases h with h | h | h
  · have := hw.2 c h
    rw [hc] at this
    cases this
  · exact hcb h
  · rcases mem_join h with h | ⟨x, hx, h⟩
    · exact hcb h
    · have := (hv x hx).2 c h
      rw [hc] at this
      cases this

end Verif.Embedding
