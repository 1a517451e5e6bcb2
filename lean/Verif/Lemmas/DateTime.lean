import Verif.Spec.DateTime
import Mathlib.Data.List.Perm.Basic
import Mathlib.Tactic.SplitIfs
import Mathlib.Data.List.Induction

/-!
# Lemmas about date columns
-/

namespace Verif.DateTime

open Verif.DateTimeSpec

variable {D : Type} [LinearOrder D] [BoundedOrder D]

omit [BoundedOrder D] in
theorem argmin_spec : ∀ (b : String × D) (ps : List (String × D)),
    argmin b ps ∈ b :: ps ∧ ∀ p ∈ b :: ps, (argmin b ps).2 ≤ p.2
  | b, [] => by simp [argmin]
  | b, p :: ps => by
    rw [argmin]
    obtain ⟨h1, h2⟩ := argmin_spec (if p.2 < b.2 then p else b) ps
    have hb := h2 (if p.2 < b.2 then p else b) (by simp)
    refine ⟨?_, fun q hq => ?_⟩
    · rcases List.mem_cons.1 h1 with h | h
      · rw [h]; split_ifs <;> simp
      · exact List.mem_cons_of_mem _ (List.mem_cons_of_mem _ h)
    · have hle : (if p.2 < b.2 then p else b).2 ≤ p.2 ∧ (if p.2 < b.2 then p else b).2 ≤ b.2 := by
        split_ifs with hlt
        · exact ⟨le_refl _, hlt.le⟩
        · exact ⟨not_lt.1 hlt, le_refl _⟩
      rcases List.mem_cons.1 hq with rfl | hq
      · exact hb.trans hle.2
      · rcases List.mem_cons.1 hq with rfl | hq
        · exact hb.trans hle.1
        · exact h2 q (List.mem_cons_of_mem _ hq)

omit [BoundedOrder D] in
theorem argmax_spec : ∀ (b : String × D) (ps : List (String × D)),
    argmax b ps ∈ b :: ps ∧ ∀ p ∈ b :: ps, p.2 ≤ (argmax b ps).2
  | b, [] => by simp [argmax]
  | b, p :: ps => by
    rw [argmax]
    obtain ⟨h1, h2⟩ := argmax_spec (if b.2 < p.2 then p else b) ps
    have hb := h2 (if b.2 < p.2 then p else b) (by simp)
    refine ⟨?_, fun q hq => ?_⟩
    · rcases List.mem_cons.1 h1 with h | h
      · rw [h]; split_ifs <;> simp
      · exact List.mem_cons_of_mem _ (List.mem_cons_of_mem _ h)
    · have hle : p.2 ≤ (if b.2 < p.2 then p else b).2 ∧ b.2 ≤ (if b.2 < p.2 then p else b).2 := by
        split_ifs with hlt
        · exact ⟨le_refl _, hlt.le⟩
        · exact ⟨not_lt.1 hlt, le_refl _⟩
      rcases List.mem_cons.1 hq with rfl | hq
      · exact hle.2.trans hb
      · rcases List.mem_cons.1 hq with rfl | hq
        · exact hle.1.trans hb
        · exact h2 q (List.mem_cons_of_mem _ hq)

/-- A minimum with its date. -/
def MinInv (as : List (Reading D)) (obj : D) (text : Option String) : Prop :=
  (∀ b ∈ as, obj ≤ b.date) ∧
    ((∃ a ∈ as, text = some a.text ∧ a.date = obj) ∨ (text = none ∧ obj = ⊤))

/-- A maximum with its date. -/
def MaxInv (as : List (Reading D)) (obj : D) (text : Option String) : Prop :=
  (∀ b ∈ as, b.date ≤ obj) ∧
    ((∃ a ∈ as, text = some a.text ∧ a.date = obj) ∨ (text = none ∧ obj = ⊥))

theorem MinInv.isMin {as : List (Reading D)} {obj : D} {text : Option String} (h : MinInv as obj text) :
    IsMin as text := by
  obtain ⟨h1, ⟨a, ha, ht, hd⟩ | ⟨ht, ho⟩⟩ := h
  · exact Or.inl ⟨a, ha, ht, fun b hb => hd ▸ h1 b hb⟩
  · exact Or.inr ⟨ht, fun b hb => top_le_iff.1 (ho ▸ h1 b hb)⟩

theorem MaxInv.isMax {as : List (Reading D)} {obj : D} {text : Option String} (h : MaxInv as obj text) :
    IsMax as text := by
  obtain ⟨h1, ⟨a, ha, ht, hd⟩ | ⟨ht, ho⟩⟩ := h
  · exact Or.inl ⟨a, ha, ht, fun b hb => hd ▸ h1 b hb⟩
  · exact Or.inr ⟨ht, fun b hb => le_bot_iff.1 (ho ▸ h1 b hb)⟩

theorem MinInv.merge {as bs : List (Reading D)} {o o' : D} {t t' : Option String} (h : MinInv as o t)
    (h' : MinInv bs o' t') :
    MinInv (as ++ bs) (if o' < o then o' else o) (if o' < o then t' else t) ∧
      MinInv (as ++ bs) (if o < o' then o else o') (if o < o' then t else t') := by
  obtain ⟨h1, h2⟩ := h
  obtain ⟨h1', h2'⟩ := h'
  have keyA : o ≤ o' → MinInv (as ++ bs) o t := by
    intro hle
    refine ⟨fun b hb => ?_, ?_⟩
    · rcases List.mem_append.1 hb with hb | hb
      · exact h1 b hb
      · exact hle.trans (h1' b hb)
    · rcases h2 with ⟨a, ha, e⟩ | e
      · exact Or.inl ⟨a, List.mem_append_left _ ha, e⟩
      · exact Or.inr e
  have keyB : o' ≤ o → MinInv (as ++ bs) o' t' := by
    intro hle
    refine ⟨fun b hb => ?_, ?_⟩
    · rcases List.mem_append.1 hb with hb | hb
      · exact hle.trans (h1 b hb)
      · exact h1' b hb
    · rcases h2' with ⟨a, ha, e⟩ | e
      · exact Or.inl ⟨a, List.mem_append_right _ ha, e⟩
      · exact Or.inr e
  constructor
  · by_cases hlt : o' < o
    · simpa [hlt] using keyB hlt.le
    · simpa [hlt] using keyA (not_lt.1 hlt)
  · by_cases hlt : o < o'
    · simpa [hlt] using keyA hlt.le
    · simpa [hlt] using keyB (not_lt.1 hlt)

theorem MaxInv.merge {as bs : List (Reading D)} {o o' : D} {t t' : Option String} (h : MaxInv as o t)
    (h' : MaxInv bs o' t') :
    MaxInv (as ++ bs) (if o < o' then o' else o) (if o < o' then t' else t) ∧
      MaxInv (as ++ bs) (if o' < o then o else o') (if o' < o then t else t') := by
  obtain ⟨h1, h2⟩ := h
  obtain ⟨h1', h2'⟩ := h'
  have keyA : o' ≤ o → MaxInv (as ++ bs) o t := by
    intro hle
    refine ⟨fun b hb => ?_, ?_⟩
    · rcases List.mem_append.1 hb with hb | hb
      · exact h1 b hb
      · exact (h1' b hb).trans hle
    · rcases h2 with ⟨a, ha, e⟩ | e
      · exact Or.inl ⟨a, List.mem_append_left _ ha, e⟩
      · exact Or.inr e
  have keyB : o ≤ o' → MaxInv (as ++ bs) o' t' := by
    intro hle
    refine ⟨fun b hb => ?_, ?_⟩
    · rcases List.mem_append.1 hb with hb | hb
      · exact (h1 b hb).trans hle
      · exact h1' b hb
    · rcases h2' with ⟨a, ha, e⟩ | e
      · exact Or.inl ⟨a, List.mem_append_right _ ha, e⟩
      · exact Or.inr e
  constructor
  · by_cases hlt : o < o'
    · simpa [hlt] using keyB hlt.le
    · simpa [hlt] using keyA (not_lt.1 hlt)
  · by_cases hlt : o' < o
    · simpa [hlt] using keyA hlt.le
    · simpa [hlt] using keyB (not_lt.1 hlt)

/-- The readings a format makes of a list. -/
def readings (f : Format) (ps : List (String × D)) : List (Reading D) := ps.map fun p => ⟨p.1, f.text, p.2⟩

theorem extremes_min (s : Loop D) (f : Format) (ps : List (String × D)) {as : List (Reading D)}
    (h : MinInv as s.minObj s.minText) : MinInv (as ++ readings f ps) (extremes s ps).minObj (extremes s ps).minText := by
  rcases ps with _ | ⟨p, ps⟩
  · simpa [extremes, readings] using h
  · have hp : MinInv (readings f (p :: ps)) (argmin p ps).2 (some (argmin p ps).1) := by
      obtain ⟨h1, h2⟩ := argmin_spec p ps
      refine ⟨fun b hb => ?_, Or.inl ⟨_, List.mem_map.2 ⟨_, h1, rfl⟩, rfl, rfl⟩⟩
      obtain ⟨q, hq, rfl⟩ := List.mem_map.1 hb
      exact h2 q hq
    exact (h.merge hp).1

theorem extremes_max (s : Loop D) (f : Format) (ps : List (String × D)) {as : List (Reading D)}
    (h : MaxInv as s.maxObj s.maxText) : MaxInv (as ++ readings f ps) (extremes s ps).maxObj (extremes s ps).maxText := by
  rcases ps with _ | ⟨p, ps⟩
  · simpa [extremes, readings] using h
  · have hp : MaxInv (readings f (p :: ps)) (argmax p ps).2 (some (argmax p ps).1) := by
      obtain ⟨h1, h2⟩ := argmax_spec p ps
      refine ⟨fun b hb => ?_, Or.inl ⟨_, List.mem_map.2 ⟨_, h1, rfl⟩, rfl, rfl⟩⟩
      obtain ⟨q, hq, rfl⟩ := List.mem_map.1 hb
      exact h2 q hq
    exact (h.merge hp).1

/-- `Aside` for an entry of the list of formats. -/
def AsideF (parse : String → String → Option D) (isMay : D → Bool) (f : Format) (x : String) : Prop :=
  ∀ d, parse f.text x = some d → f.short = true ∧ isMay d = true

/-- `Proper` for entries of the list of formats. -/
def ProperF (parse : String → String → Option D) (isMay : D → Bool) (fs : List Format) (a : Reading D) : Prop :=
  parse a.format a.text = some a.date ∧
    ∃ pre f post, fs = pre ++ f :: post ∧ f.text = a.format ∧ ∀ g ∈ pre, AsideF parse isMay g a.text

theorem formats_text : formats.map (·.text) = supported := rfl

theorem short_iff : ∀ f ∈ formats, f.short = true ↔ Abbreviated f.text := by
  unfold Abbreviated
  decide +kernel

omit [LinearOrder D] [BoundedOrder D] in
theorem asideF_iff {parse : String → String → Option D} {isMay : D → Bool} {f : Format} (hf : f ∈ formats) (x : String) :
    AsideF parse isMay f x ↔ Aside parse isMay f.text x := by
  unfold AsideF Aside
  rw [short_iff f hf]

omit [LinearOrder D] [BoundedOrder D] in
theorem aside_all {parse : String → String → Option D} {isMay : D → Bool} {x : String} :
    (∀ f ∈ formats, AsideF parse isMay f x) ↔ ∀ f ∈ supported, Aside parse isMay f x := by
  constructor
  · intro h f hf
    rw [← formats_text] at hf
    obtain ⟨g, hg, rfl⟩ := List.mem_map.1 hf
    exact (asideF_iff hg x).1 (h g hg)
  · intro h f hf
    exact (asideF_iff hf x).2 (h _ (formats_text ▸ List.mem_map.2 ⟨f, hf, rfl⟩))

omit [LinearOrder D] [BoundedOrder D] in
theorem ProperF.proper {parse : String → String → Option D} {isMay : D → Bool} {a : Reading D}
    (h : ProperF parse isMay formats a) : Proper parse isMay supported a := by
  obtain ⟨h1, pre, f, post, e, h2, h3⟩ := h
  refine ⟨h1, pre.map (·.text), post.map (·.text), ?_, ?_⟩
  · rw [← formats_text, e, List.map_append, List.map_cons, h2]
  · intro g hg
    obtain ⟨k, hk, rfl⟩ := List.mem_map.1 hg
    exact (asideF_iff (e ▸ List.mem_append_left _ hk) _).1 (h3 k hk)

/-- The loop after the formats `done`, with the readings it made. -/
structure Inv (parse : String → String → Option D) (isMay : D → Bool) (xs : List String) (done : List Format)
    (as : List (Reading D)) (s : Loop D) : Prop where
  perm : (as.map (·.text) ++ s.rest).Perm xs
  count : s.count = as.length
  proper : ∀ a ∈ as, ProperF parse isMay done a
  rest : ∀ x ∈ s.rest, ∀ f ∈ done, AsideF parse isMay f x
  formats : ∀ f, f ∈ s.formats ↔ ∃ a ∈ as, a.format = f
  inOrder : s.formats.Sublist (done.map (·.text))
  min : MinInv as s.minObj s.minText
  max : MaxInv as s.maxObj s.maxText

omit [LinearOrder D] [BoundedOrder D] in
theorem proper_mono {parse : String → String → Option D} {isMay : D → Bool} {done : List Format} {a : Reading D}
    (h : ProperF parse isMay done a) (f : Format) : ProperF parse isMay (done ++ [f]) a := by
  obtain ⟨h1, pre, g, post, rfl, h2, h3⟩ := h
  exact ⟨h1, pre, g, post ++ [f], by simp, h2, h3⟩

omit [LinearOrder D] [BoundedOrder D] in
theorem recognised_perm (parse : String → String → Option D) (f : Format) : ∀ (xs : List String),
    ((recognised parse f xs).map (·.1) ++ xs.filter fun x => (parse f.text x).isNone).Perm xs
  | [] => by simp [recognised]
  | x :: xs => by
    have ih := recognised_perm parse f xs
    rcases h : parse f.text x with _ | d
    · have e1 : recognised parse f (x :: xs) = recognised parse f xs := by simp [recognised, h]
      rw [e1, List.filter_cons_of_pos (by simp [h])]
      exact List.perm_middle.trans (ih.cons x)
    · have e1 : recognised parse f (x :: xs) = (x, d) :: recognised parse f xs := by simp [recognised, h]
      rw [e1, List.filter_cons_of_neg (by simp [h])]
      exact ih.cons x

omit [LinearOrder D] [BoundedOrder D] in
theorem mem_recognised {parse : String → String → Option D} {f : Format} {xs : List String} {p : String × D} :
    p ∈ recognised parse f xs ↔ p.1 ∈ xs ∧ parse f.text p.1 = some p.2 := by
  simp only [recognised, List.mem_filterMap, Option.map_eq_some_iff]
  constructor
  · rintro ⟨x, hx, d, hd, rfl⟩
    exact ⟨hx, hd⟩
  · rintro ⟨hx, hd⟩
    exact ⟨p.1, hx, p.2, hd, rfl⟩

theorem step_inv (parse : String → String → Option D) (isMay : D → Bool) {xs : List String} {done : List Format}
    {as : List (Reading D)} {s : Loop D} (h : Inv parse isMay xs done as s) (f : Format) :
    ∃ bs, Inv parse isMay xs (done ++ [f]) bs (step parse isMay s f) := by
  have hsub : s.formats.Sublist ((done ++ [f]).map (·.text)) := by
    rw [List.map_append]
    exact h.inOrder.trans (List.sublist_append_left _ _)
  have hstep : step parse isMay s f = if s.rest = [] then s else
      if f.short = true ∧ recognised parse f s.rest ≠ [] ∧ ∀ p ∈ recognised parse f s.rest, isMay p.2 = true then s
      else
        { extremes s (recognised parse f s.rest) with
          rest := s.rest.filter fun x => (parse f.text x).isNone
          count := s.count + (recognised parse f s.rest).length
          formats := if recognised parse f s.rest = [] then s.formats else s.formats ++ [f.text] } := rfl
  rw [hstep]
  by_cases he : s.rest = []
  · rw [if_pos he]
    refine ⟨as, h.perm, h.count, fun a ha => proper_mono (h.proper a ha) f, ?_, h.formats, hsub, h.min, h.max⟩
    intro x hx
    rw [he] at hx
    exact nomatch hx
  rw [if_neg he]
  by_cases hm : f.short = true ∧ recognised parse f s.rest ≠ [] ∧ ∀ p ∈ recognised parse f s.rest, isMay p.2 = true
  · rw [if_pos hm]
    refine ⟨as, h.perm, h.count, fun a ha => proper_mono (h.proper a ha) f, ?_, h.formats, hsub, h.min, h.max⟩
    intro x hx g hg
    rcases List.mem_append.1 hg with hg | hg
    · exact h.rest x hx g hg
    · rw [List.mem_singleton] at hg
      subst hg
      intro d hd
      exact ⟨hm.1, hm.2.2 (x, d) (mem_recognised.2 ⟨hx, hd⟩)⟩
  · rw [if_neg hm]
    refine ⟨as ++ readings f (recognised parse f s.rest), ?_, ?_, ?_, ?_, ?_, ?_, ?_, ?_⟩
    · refine List.Perm.trans ?_ h.perm
      have hp := recognised_perm parse f s.rest
      simp only [List.map_append, readings, List.map_map, List.append_assoc]
      exact List.Perm.append_left _ hp
    · simp [h.count, readings]
    · intro a ha
      rcases List.mem_append.1 ha with ha | ha
      · exact proper_mono (h.proper a ha) f
      · obtain ⟨p, hp, rfl⟩ := List.mem_map.1 ha
        obtain ⟨hx, hd⟩ := mem_recognised.1 hp
        exact ⟨hd, done, f, [], rfl, rfl, fun g hg => h.rest p.1 hx g hg⟩
    · intro x hx g hg
      obtain ⟨hx, hn⟩ := List.mem_filter.1 hx
      rcases List.mem_append.1 hg with hg | hg
      · exact h.rest x hx g hg
      · rw [List.mem_singleton] at hg
        subst hg
        intro d hd
        simp [hd] at hn
    · intro t
      rcases hv : recognised parse f s.rest with _ | ⟨p, ps⟩
      · simpa [readings] using h.formats t
      · simp only [reduceCtorEq, if_false, List.mem_append, h.formats t, List.mem_singleton]
        constructor
        · rintro (⟨a, ha, e⟩ | rfl)
          · exact ⟨a, Or.inl ha, e⟩
          · exact ⟨⟨p.1, f.text, p.2⟩, Or.inr (by simp [readings]), rfl⟩
        · rintro ⟨a, ha | ha, e⟩
          · exact Or.inl ⟨a, ha, e⟩
          · obtain ⟨q, _, rfl⟩ := List.mem_map.1 ha
            exact Or.inr e.symm
    · rw [List.map_append]
      show List.Sublist (if recognised parse f s.rest = [] then s.formats else s.formats ++ [f.text]) _
      split_ifs
      · exact h.inOrder.trans (List.sublist_append_left _ _)
      · exact h.inOrder.append (List.Sublist.refl _)
    · exact extremes_min s f _ h.min
    · exact extremes_max s f _ h.max

theorem loop_inv (parse : String → String → Option D) (isMay : D → Bool) (xs : List String) (fs : List Format) :
    ∃ as, Inv parse isMay xs fs as (fs.foldl (step parse isMay) (start xs)) := by
  induction fs using List.reverseRecOn with
  | nil =>
    refine ⟨[], ?_⟩
    constructor
    · simp [start]
    · rfl
    · simp
    · simp
    · simp [start]
    · simp [start]
    · exact ⟨by simp, Or.inr ⟨rfl, rfl⟩⟩
    · exact ⟨by simp, Or.inr ⟨rfl, rfl⟩⟩
  | append_singleton fs f ih =>
    obtain ⟨as, h⟩ := ih
    rw [List.foldl_append]
    exact step_inv parse isMay h f

theorem combineUnique_mem (order : List String → List String) (ho : ∀ l, (order l).Perm l) (a b : List String) (c : String) :
    c ∈ combineUnique order a b ↔ c ∈ a ∨ c ∈ b := by
  unfold combineUnique
  split_ifs with h1 h2 h3
  · simp [h1.1, h1.2]
  · simp [(ho _).mem_iff, h2]
  · simp [(ho _).mem_iff, h3]
  · simp [(ho _).mem_iff]

theorem combineUnique_nodup (order : List String → List String) (ho : ∀ l, (order l).Perm l) (a b : List String) :
    (combineUnique order a b).Nodup := by
  unfold combineUnique
  split_ifs with h1 h2 h3
  · exact List.nodup_nil
  all_goals exact (ho _).nodup_iff.2 (List.nodup_dedup _)

end Verif.DateTime
