import Verif.Spec.NullMatch
import Verif.Lemmas.PyDict
import Mathlib.Tactic.Common
import Mathlib.Tactic.Tauto

/-! Helper lemmas about the null values of a column. -/

namespace Verif.NullMatch

open Verif Verif.Spec.NullMatch

theorem timesOf_none {c : Char} (h : ¬ Repeat c) : timesOf c = none := by
  unfold Repeat at h
  push Not at h
  simp [timesOf, h]

theorem timesOf_some {c : Char} (h : Repeat c) : ∃ t, timesOf c = some t ∧ t ≠ .once := by
  rcases h with rfl | rfl | rfl
  · exact ⟨.star, rfl, by decide⟩
  · exact ⟨.plus, rfl, by decide⟩
  · exact ⟨.opt, rfl, by decide⟩

theorem foreign_plain {c : Char} (h : Plain c) : foreign c = false := by
  have := h.2
  simp only [List.mem_cons, List.not_mem_nil, or_false, not_or] at this
  simp [foreign, this]

/-- The items of a simple null value. -/
def itemsOf : List Char → List Item
  | p :: r :: ps => match timesOf r with
    | some t => ⟨atomOf p, t⟩ :: itemsOf ps
    | none => ⟨atomOf p, .once⟩ :: itemsOf (r :: ps)
  | [p] => [⟨atomOf p, .once⟩]
  | [] => []

theorem Simple.head {ps : List Char} (h : Simple ps) : ∀ q ∈ ps.head?, ¬ Repeat q := by
  cases h <;> simp
  · rename_i h _; exact h.1
  · rename_i h _ _; exact h.1

theorem itemsOf_one {p : Char} {ps : List Char} (h : ∀ q ∈ ps.head?, ¬ Repeat q) :
    itemsOf (p :: ps) = ⟨atomOf p, .once⟩ :: itemsOf ps := by
  cases ps with
  | nil => simp [itemsOf]
  | cons q qs =>
    rw [itemsOf, timesOf_none (h q rfl)]

theorem itemsOf_rep {p r : Char} {ps : List Char} {t : Times} (h : timesOf r = some t) :
    itemsOf (p :: r :: ps) = ⟨atomOf p, t⟩ :: itemsOf ps := by
  rw [itemsOf, h]

theorem parseFrom_simple {k : List Char} (h : Simple k) (cur : List Item) :
    parseFrom cur k = .ok (cur.reverse ++ itemsOf k) := by
  induction h generalizing cur with
  | nil => simp [parseFrom, itemsOf]
  | one p ps hp hs ih =>
    rw [parseFrom, timesOf_none hp.1, itemsOf_one (Simple.head hs)]
    simp [foreign_plain hp, ih]
  | rep p r ps hp hr hs ih =>
    obtain ⟨t, ht, _⟩ := timesOf_some hr
    rw [parseFrom, timesOf_none hp.1, itemsOf_rep ht]
    simp [foreign_plain hp, parseFrom, ht, ih]

theorem parseAll_simple {ks : List (List Char)} (h : ∀ k ∈ ks, Simple k) : parseAll ks = .ok (ks.map itemsOf) := by
  induction ks with
  | nil => rfl
  | cons k ks ih =>
    rw [parseAll, parseFrom_simple (h k (by simp)), ih fun x hx => h x (by simp [hx])]
    simp

theorem parseAll_bad {ks rest : List (List Char)} {k : List Char} {c : Char} (h : ∀ k ∈ ks, Simple k) (hc : Repeat c) :
    parseAll (ks ++ (c :: k) :: rest) = .bad := by
  induction ks with
  | nil =>
    obtain ⟨t, ht, _⟩ := timesOf_some hc
    simp [parseAll, parseFrom, ht]
  | cons k' ks ih =>
    rw [List.cons_append, parseAll, parseFrom_simple (h k' (by simp)), ih fun x hx => h x (by simp [hx])]

theorem Simple.no_bar {k : List Char} (h : Simple k) : '|' ∉ k := by
  induction h with
  | nil => simp
  | one p ps hp _ ih =>
    have := hp.2
    simp only [List.mem_cons, not_or] at this ⊢
    exact ⟨fun e => this.2.2.2.2.2.2.2.1 e.symm, ih⟩
  | rep p r ps hp hr _ ih =>
    have := hp.2
    simp only [List.mem_cons, not_or] at this ⊢
    refine ⟨fun e => this.2.2.2.2.2.2.2.1 e.symm, ?_, ih⟩
    rintro rfl
    revert hr
    decide

theorem query_split {d : NullValues} (hd : d ≠ []) (h : ∀ k ∈ PyDict.keys d, '|' ∉ k.toList) :
    (query d).splitOn '|' = (PyDict.keys d).map String.toList := by
  unfold query
  apply List.splitOn_intercalate
  · intro l hl
    obtain ⟨k, hk, rfl⟩ := List.mem_map.1 hl
    exact h k hk
  · simpa [PyDict.keys] using hd

theorem atomOk_iff (same : Char → Char → Bool) (p c : Char) :
    atomOk same (atomOf p) c = true ↔ Single (fun p c => same p c = true) p c := by
  unfold atomOf Single
  split_ifs with h <;> simp [atomOk, h]

theorem starMatch_iff (ok : Char → Bool) (next : List Char → Bool) (s : List Char) :
    starMatch ok next s = true ↔ ∃ a b, s = a ++ b ∧ (∀ c ∈ a, ok c = true) ∧ next b = true := by
  induction s with
  | nil =>
    simp only [starMatch]
    constructor
    · intro h; exact ⟨[], [], rfl, by simp, h⟩
    · rintro ⟨a, b, e, _, h⟩
      obtain ⟨rfl, rfl⟩ := List.append_eq_nil_iff.1 e.symm
      exact h
  | cons c s ih =>
    simp only [starMatch, Bool.or_eq_true, Bool.and_eq_true, ih]
    constructor
    · rintro (h | ⟨h, a, b, rfl, ha, hb⟩)
      · exact ⟨[], c :: s, rfl, by simp, h⟩
      · exact ⟨c :: a, b, rfl, by simpa [h] using ha, hb⟩
    · rintro ⟨a, b, e, ha, hb⟩
      cases a with
      | nil => left; simp only [List.nil_append] at e; rw [e]; exact hb
      | cons x a =>
        simp only [List.cons_append, List.cons.injEq] at e
        obtain ⟨rfl, rfl⟩ := e
        exact Or.inr ⟨ha c (by simp), a, b, rfl, fun y hy => ha y (by simp [hy]), hb⟩

theorem oneMatch_iff (ok : Char → Bool) (next : List Char → Bool) (s : List Char) :
    oneMatch ok next s = true ↔ ∃ c t, s = c :: t ∧ ok c = true ∧ next t = true := by
  cases s <;> simp [oneMatch]

variable {eq : Char → Char → Prop}

theorem fits_nil (u : List Char) : Fits eq [] u ↔ u = [] := by
  constructor
  · intro h; cases h; rfl
  · rintro rfl; exact .nil

theorem fits_one {p : Char} {ps : List Char} (h : ∀ q ∈ ps.head?, ¬ Repeat q) (u : List Char) :
    Fits eq (p :: ps) u ↔ ∃ c t, u = c :: t ∧ Single eq p c ∧ Fits eq ps t := by
  constructor
  · intro hf
    cases hf with
    | one _ _ c t _ h1 h2 => exact ⟨c, t, rfl, h1, h2⟩
    | skip _ r ps _ hr _ => exact absurd (by rcases hr with rfl | rfl <;> decide) (h r rfl)
    | last _ r ps _ _ hr _ _ => exact absurd hr (h r rfl)
    | more _ r ps _ _ hr _ _ => exact absurd (by rcases hr with rfl | rfl <;> decide) (h r rfl)
  · rintro ⟨c, t, rfl, h1, h2⟩
    exact .one p ps c t h h1 h2

theorem fits_rep_to {p r : Char} {ps u : List Char} (h : Fits eq (p :: r :: ps) u) (hr : Repeat r) :
    ∃ a b, u = a ++ b ∧ (∀ c ∈ a, Single eq p c) ∧ Fits eq ps b ∧ (a = [] → r ≠ '+') ∧ (r = '?' → a.length ≤ 1) := by
  generalize hk : p :: r :: ps = k at h
  induction h with
  | nil => simp at hk
  | one _ _ c t hn h1 h2 _ =>
    simp only [List.cons.injEq] at hk
    obtain ⟨rfl, rfl⟩ := hk
    exact absurd hr (hn r rfl)
  | skip _ _ _ t hr' h2 _ =>
    simp only [List.cons.injEq] at hk
    obtain ⟨rfl, rfl, rfl⟩ := hk
    refine ⟨[], t, rfl, by simp, h2, fun _ => ?_, by simp⟩
    rcases hr' with rfl | rfl <;> decide
  | last _ _ _ c t hr' h1 h2 _ =>
    simp only [List.cons.injEq] at hk
    obtain ⟨rfl, rfl, rfl⟩ := hk
    exact ⟨[c], t, rfl, by simpa using h1, h2, by simp, by simp⟩
  | more _ _ _ c t hr' h1 _ ih =>
    simp only [List.cons.injEq] at hk
    obtain ⟨rfl, rfl, rfl⟩ := hk
    obtain ⟨a, b, rfl, ha, hb, _, _⟩ := ih rfl
    refine ⟨c :: a, b, rfl, by simpa using ⟨h1, ha⟩, hb, by simp, ?_⟩
    rintro rfl
    exact absurd hr' (by decide)

theorem fits_rep_of {p r : Char} {ps a b : List Char} (hr : Repeat r) (ha : ∀ c ∈ a, Single eq p c) (hb : Fits eq ps b)
    (h1 : a = [] → r ≠ '+') (h2 : r = '?' → a.length ≤ 1) : Fits eq (p :: r :: ps) (a ++ b) := by
  induction a with
  | nil =>
    refine .skip p r ps b ?_ hb
    rcases hr with rfl | rfl | rfl
    · exact Or.inl rfl
    · exact absurd rfl (h1 rfl)
    · exact Or.inr rfl
  | cons c a ih =>
    cases a with
    | nil => exact .last p r ps c b hr (ha c (by simp)) hb
    | cons x a =>
      refine .more p r ps c _ ?_ (ha c (by simp)) (ih (fun y hy => ha y (by simp [hy])) (by simp) ?_)
      · rcases hr with rfl | rfl | rfl
        · exact Or.inl rfl
        · exact Or.inr rfl
        · have := h2 rfl; simp at this
      · rintro rfl
        have := h2 rfl
        simp at this

theorem holds_cons (c : Char) (s u : List Char) : Holds (c :: s) (c :: u) ↔ Holds s u := by
  simp [Holds]

theorem holds_append (a s u : List Char) : Holds (a ++ s) (a ++ u) ↔ Holds s u := by
  simp [Holds, List.append_assoc]

/-- The sequence read from a simple null value matches what fits it, line end or not. -/
theorem seqMatch_iff {k : List Char} (h : Simple k) (same : Char → Char → Bool) (s : List Char) :
    seqMatch same (itemsOf k) s = true ↔ ∃ u, Holds s u ∧ Fits (fun p c => same p c = true) k u := by
  induction h generalizing s with
  | nil =>
    simp only [itemsOf, seqMatch, decide_eq_true_eq, fits_nil, exists_eq_right, Holds, List.nil_append]
  | one p ps hp hs ih =>
    rw [itemsOf_one (Simple.head hs), seqMatch, oneMatch_iff]
    simp only [fits_one (Simple.head hs), atomOk_iff, ih]
    constructor
    · rintro ⟨c, t, rfl, h1, u, h2, h3⟩
      exact ⟨c :: u, (holds_cons c t u).2 h2, c, u, rfl, h1, h3⟩
    · rintro ⟨_, h2, c, u, rfl, h1, h3⟩
      rcases h2 with rfl | rfl
      · exact ⟨c, u, rfl, h1, u, Or.inl rfl, h3⟩
      · exact ⟨c, u ++ ['\n'], rfl, h1, u, Or.inr rfl, h3⟩
  | rep p r ps hp hr hs ih =>
    have key : (∃ u, Holds s u ∧ Fits (fun p c => same p c = true) (p :: r :: ps) u) ↔
        ∃ a b, s = a ++ b ∧ (∀ c ∈ a, atomOk same (atomOf p) c = true) ∧ seqMatch same (itemsOf ps) b = true ∧
          (a = [] → r ≠ '+') ∧ (r = '?' → a.length ≤ 1) := by
      constructor
      · rintro ⟨u, hu, hf⟩
        obtain ⟨a, b, rfl, ha, hb, h1, h2⟩ := fits_rep_to hf hr
        rcases hu with rfl | rfl
        · exact ⟨a, b, rfl, fun c hc => (atomOk_iff same p c).2 (ha c hc), (ih b).2 ⟨b, Or.inl rfl, hb⟩, h1, h2⟩
        · exact ⟨a, b ++ ['\n'], by simp, fun c hc => (atomOk_iff same p c).2 (ha c hc),
            (ih _).2 ⟨b, Or.inr rfl, hb⟩, h1, h2⟩
      · rintro ⟨a, b, rfl, ha, hb, h1, h2⟩
        obtain ⟨u, hu, hf⟩ := (ih b).1 hb
        exact ⟨a ++ u, (holds_append a b u).2 hu,
          fits_rep_of hr (fun c hc => (atomOk_iff same p c).1 (ha c hc)) hf h1 h2⟩
    rw [key]
    rcases hr with rfl | rfl | rfl
    · rw [itemsOf_rep (t := .star) rfl, seqMatch, starMatch_iff]
      simp
    · rw [itemsOf_rep (t := .plus) rfl, seqMatch, oneMatch_iff]
      simp only [starMatch_iff]
      constructor
      · rintro ⟨c, t, rfl, h1, a, b, rfl, ha, hb⟩
        exact ⟨c :: a, b, rfl, by simpa using ⟨h1, ha⟩, hb, by simp, by simp⟩
      · rintro ⟨a, b, rfl, ha, hb, h1, _⟩
        cases a with
        | nil => exact absurd rfl (h1 rfl)
        | cons c a => exact ⟨c, a ++ b, rfl, ha c (by simp), a, b, rfl, fun x hx => ha x (by simp [hx]), hb⟩
    · rw [itemsOf_rep (t := .opt) rfl, seqMatch, Bool.or_eq_true, oneMatch_iff]
      constructor
      · rintro (h | ⟨c, t, rfl, h1, h2⟩)
        · exact ⟨[], s, rfl, by simp, h, by simp, by simp⟩
        · exact ⟨[c], t, rfl, by simpa using h1, h2, by simp, by simp⟩
      · rintro ⟨a, b, rfl, ha, hb, _, h2⟩
        match a, h2 rfl with
        | [], _ => exact Or.inl hb
        | [c], _ => exact Or.inr ⟨c, b, rfl, ha c (by simp), hb⟩

theorem fits_congr {eq eq' : Char → Char → Prop} {k u : List Char} (h : ∀ p ∈ k, ∀ c, eq p c ↔ eq' p c) (hf : Fits eq k u) :
    Fits eq' k u := by
  have hs : ∀ p ∈ k, ∀ c, Single eq p c → Single eq' p c := by
    rintro p hp c (h1 | ⟨h1, h2⟩)
    · exact Or.inl h1
    · exact Or.inr ⟨h1, (h p hp c).1 h2⟩
  clear h
  induction hf with
  | nil => exact .nil
  | one p ps c t hn h1 _ ih => exact .one p ps c t hn (hs p (by simp) c h1) (ih fun q hq => hs q (by simp [hq]))
  | skip p r ps t hr _ ih => exact .skip p r ps t hr (ih fun q hq => hs q (by simp [hq]))
  | last p r ps c t hr h1 _ ih => exact .last p r ps c t hr (hs p (by simp) c h1) (ih fun q hq => hs q (by simp [hq]))
  | more p r ps c t hr h1 _ ih => exact .more p r ps c t hr (hs p (by simp) c h1) (ih hs)

/-- A word without special characters fits what is equal to it character by character. -/
theorem fits_word {k : List Char} (hk : ∀ c ∈ k, Plain c ∧ c ≠ '.') (u : List Char) :
    Fits eq k u ↔ List.Forall₂ eq k u := by
  induction k generalizing u with
  | nil => simp [fits_nil]
  | cons p k ih =>
    have hh : ∀ q ∈ k.head?, ¬ Repeat q := by
      cases k with
      | nil => simp
      | cons q k => intro x hx; simp only [List.head?_cons, Option.mem_def, Option.some.injEq] at hx; subst hx; exact (hk q (by simp)).1.1
    rw [fits_one hh]
    constructor
    · rintro ⟨c, t, rfl, h1, h2⟩
      refine .cons ?_ ((ih (fun x hx => hk x (by simp [hx])) t).1 h2)
      rcases h1 with ⟨h1, _⟩ | ⟨_, h1⟩
      · exact absurd h1 (hk p (by simp)).2
      · exact h1
    · intro h
      cases h with
      | cons h1 h2 => exact ⟨_, _, rfl, Or.inr ⟨(hk p (by simp)).2, h1⟩, (ih (fun x hx => hk x (by simp [hx])) _).2 h2⟩

theorem simple_word {k : List Char} (hk : ∀ c ∈ k, Plain c) : Simple k := by
  induction k with
  | nil => exact .nil
  | cons p k ih => exact .one p k (hk p (by simp)) (ih fun x hx => hk x (by simp [hx]))

/-- A character followed by itself and a star stands for one or more of it. -/
theorem fits_run {p : Char} (hp : Plain p) (hd : p ≠ '.') (u : List Char) :
    Fits eq [p, p, '*'] u ↔ u ≠ [] ∧ ∀ c ∈ u, eq p c := by
  have hs : ∀ c, Single eq p c ↔ eq p c := by
    intro c; simp [Single, hd]
  rw [fits_one (by simpa using hp.1)]
  constructor
  · rintro ⟨c, t, rfl, h1, h2⟩
    obtain ⟨a, b, rfl, ha, hb, _, _⟩ := fits_rep_to h2 (Or.inl rfl)
    rw [fits_nil] at hb
    subst hb
    refine ⟨by simp, ?_⟩
    intro x hx
    simp only [List.append_nil, List.mem_cons] at hx
    rcases hx with rfl | hx
    · exact (hs x).1 h1
    · exact (hs x).1 (ha x hx)
  · rintro ⟨hne, ha⟩
    cases u with
    | nil => exact absurd rfl hne
    | cons c t =>
      refine ⟨c, t, rfl, (hs c).2 (ha c (by simp)), ?_⟩
      have := fits_rep_of (eq := eq) (p := p) (r := '*') (ps := []) (a := t) (b := []) (Or.inl rfl)
        (fun x hx => (hs x).2 (ha x (by simp [hx]))) .nil (by simp) (by simp)
      simpa using this

theorem keys_update (d e : NullValues) (k : String) : k ∈ PyDict.keys (update d e) ↔ k ∈ PyDict.keys d ∨ k ∈ PyDict.keys e := by
  unfold update
  induction e generalizing d with
  | nil => simp [PyDict.keys]
  | cons kv e ih =>
    rw [List.foldl_cons, ih, PyDict.keys_set]
    have he : PyDict.keys (kv :: e) = kv.1 :: PyDict.keys e := rfl
    rw [he, List.mem_cons]
    split_ifs with h
    · constructor
      · rintro (h1 | h1)
        · exact Or.inl h1
        · exact Or.inr (Or.inr h1)
      · rintro (h1 | rfl | h1)
        · exact Or.inl h1
        · exact Or.inl h
        · exact Or.inr h1
    · simp only [List.mem_append, List.mem_singleton]
      tauto

end Verif.NullMatch
