import Mathlib.Tactic.Ring
import Mathlib.Tactic.Linarith
import Mathlib.Tactic.Push
import Mathlib.Data.Rat.Cast.Order
import Mathlib.Data.List.Sort
import Verif.Spec.Plot
import Verif.Lemmas.PyDict

/-!
# Lemmas about the plot of missing values
-/

namespace Verif.Plot

open Verif Verif.Spec.Plot

/-- The rows a bar takes, whichever way it was drawn. -/
def covers (b : Bar) (r : ℤ) : Prop := (b.start ≤ r ∧ r < b.start + b.height) ∨ (b.start + b.height ≤ r ∧ r < b.start)

/-- Some bar takes the row. -/
def hit (bs : List Bar) (r : ℤ) : Prop := ∃ b ∈ bs, covers b r

theorem hit_cons (b : Bar) (bs : List Bar) (r : ℤ) : hit (b :: bs) r ↔ covers b r ∨ hit bs r := by simp [hit]

/-- After the index, some index stands alone and is not the last one. -/
def iso : ℤ → List ℤ → Prop
  | _, [] => False
  | _, [_] => False
  | v, x :: y :: rest => (x - v ≠ 1 ∧ y - x ≠ 1) ∨ iso x (y :: rest)

theorem scan_right (rest : List ℤ) : ∀ ys ye v : ℤ, ys ≤ v → (v :: rest).Pairwise (· < ·) → ¬iso v rest →
    (ye = v ∨ (ys = v ∧ ∀ x ∈ rest.head?, x = v + 1)) →
    ∀ r, hit (scan ys ye v rest) r ↔ ((ys ≤ r ∧ r ≤ v) ∨ r ∈ rest) := by
  induction rest with
  | nil =>
    intro ys ye v hv _ _ _ r
    simp only [scan, hit_cons, covers]
    simp [hit]
    omega
  | cons x rest ih =>
    intro ys ye v hv hs hni hye r
    have hsp := List.pairwise_cons.mp hs
    have hvx : v < x := hsp.1 x List.mem_cons_self
    rw [scan]
    by_cases h1 : x - v = 1
    · rw [if_pos h1]
      have hni' : ¬iso x rest := by
        cases rest with
        | nil => exact fun h => h
        | cons y t => exact fun h => hni (Or.inr h)
      rw [ih ys x x (by omega) hsp.2 hni' (Or.inl rfl) r, List.mem_cons]
      constructor
      · rintro (h | h)
        · by_cases hr : r = x
          · exact Or.inr (Or.inl hr)
          · exact Or.inl (by omega)
        · exact Or.inr (Or.inr h)
      · rintro (h | h | h)
        · exact Or.inl (by omega)
        · exact Or.inl (by omega)
        · exact Or.inr h
    · rw [if_neg h1]
      have hye' : ye = v := by
        rcases hye with h | ⟨_, h⟩
        · exact h
        · exact absurd (h x rfl) (by omega)
      have hni' : ¬iso x rest := by
        cases rest with
        | nil => exact fun h => h
        | cons y t => exact fun h => hni (Or.inr h)
      have hhead : ∀ y ∈ rest.head?, y = x + 1 := by
        cases rest with
        | nil => intro y hy; cases hy
        | cons y t =>
          intro z hz
          cases hz
          by_contra hne
          exact hni (Or.inl ⟨h1, by omega⟩)
      rw [hit_cons, ih x ye x (le_refl _) hsp.2 hni' (Or.inr ⟨rfl, hhead⟩) r, List.mem_cons]
      simp only [covers]
      subst hye'
      constructor
      · rintro ((h | h) | h | h)
        · exact Or.inl (by omega)
        · omega
        · exact Or.inr (Or.inl (by omega))
        · exact Or.inr (Or.inr h)
      · rintro (h | h | h)
        · exact Or.inl (Or.inl (by omega))
        · exact Or.inr (Or.inl (by omega))
        · exact Or.inr (Or.inr h)

theorem scan_wrong (rest : List ℤ) : ∀ ys ye v : ℤ, ys ≤ v → ye ≤ v → (v :: rest).Pairwise (· < ·) → iso v rest →
    ∃ r, hit (scan ys ye v rest) r ∧ v < r ∧ r ∉ rest := by
  induction rest with
  | nil => intro _ _ _ _ _ _ h; exact h.elim
  | cons x rest ih =>
    intro ys ye v hv hye hs hi
    have hsp := List.pairwise_cons.mp hs
    have hvx : v < x := hsp.1 x List.mem_cons_self
    cases rest with
    | nil => exact hi.elim
    | cons y t =>
      have hxy : x < y := (List.pairwise_cons.mp hsp.2).1 y List.mem_cons_self
      rcases hi with ⟨h1, h2⟩ | hi
      · refine ⟨x - 1, ?_, by omega, ?_⟩
        · rw [scan, if_neg h1, scan, if_neg h2, hit_cons, hit_cons]
          refine Or.inr (Or.inl (Or.inr ?_))
          simp only
          omega
        · intro hm
          rcases List.mem_cons.mp hm with h | h
          · omega
          · have := (List.pairwise_cons.mp hsp.2).1 _ h
            omega
      · by_cases h1 : x - v = 1
        · rw [scan, if_pos h1]
          obtain ⟨r, hr, hxr, hn⟩ := ih ys x x (by omega) (le_refl _) hsp.2 hi
          refine ⟨r, hr, by omega, ?_⟩
          intro hm
          rcases List.mem_cons.mp hm with h | h
          · omega
          · exact hn h
        · rw [scan, if_neg h1]
          obtain ⟨r, hr, hxr, hn⟩ := ih x ye x (le_refl _) (by omega) hsp.2 hi
          refine ⟨r, (hit_cons _ _ _).mpr (Or.inr hr), by omega, ?_⟩
          intro hm
          rcases List.mem_cons.mp hm with h | h
          · omega
          · exact hn h

theorem iso_iff (rest : List ℤ) : ∀ v : ℤ, (v :: rest).Pairwise (· < ·) →
    (iso v rest ↔ ∃ r ∈ rest, r - 1 ∉ v :: rest ∧ r + 1 ∉ rest ∧ ∃ b ∈ rest, r < b) := by
  induction rest with
  | nil => intro v _; simp [iso]
  | cons x rest ih =>
    intro v hs
    have hsp := List.pairwise_cons.mp hs
    have hvx : v < x := hsp.1 x List.mem_cons_self
    cases rest with
    | nil =>
      simp only [iso, false_iff]
      rintro ⟨r, hr, _, _, b, hb, hlt⟩
      rw [List.mem_singleton] at hr hb
      omega
    | cons y t =>
      have hx := (List.pairwise_cons.mp hsp.2).1
      have hxy : x < y := hx y List.mem_cons_self
      have hy := (List.pairwise_cons.mp (List.pairwise_cons.mp hsp.2).2).1
      rw [iso, ih x hsp.2]
      constructor
      · rintro (⟨h1, h2⟩ | ⟨r, hr, hp, hn, b, hb, hlt⟩)
        · refine ⟨x, List.mem_cons_self, ?_, ?_, y, by simp, hxy⟩
          · intro hm
            rcases List.mem_cons.mp hm with h | h
            · omega
            · rcases List.mem_cons.mp h with h | h
              · omega
              · have := hx _ h; omega
          · intro hm
            rcases List.mem_cons.mp hm with h | h
            · omega
            · rcases List.mem_cons.mp h with h | h
              · omega
              · have := hy _ h; omega
        · have hxr := hx r hr
          refine ⟨r, List.mem_cons_of_mem _ hr, ?_, ?_, b, List.mem_cons_of_mem _ hb, hlt⟩
          · intro hm
            rcases List.mem_cons.mp hm with h | h
            · omega
            · exact hp h
          · intro hm
            rcases List.mem_cons.mp hm with h | h
            · omega
            · exact hn h
      · rintro ⟨r, hr, hp, hn, b, hb, hlt⟩
        rcases List.mem_cons.mp hr with rfl | hr'
        · refine Or.inl ⟨?_, ?_⟩
          · intro h
            exact hp (List.mem_cons.mpr (Or.inl (by omega)))
          · intro h
            exact hn (List.mem_cons.mpr (Or.inr (List.mem_cons.mpr (Or.inl (by omega)))))
        · have hxr := hx r hr'
          refine Or.inr ⟨r, hr', fun h => hp (List.mem_cons_of_mem _ h), fun h => hn (List.mem_cons_of_mem _ h), ?_⟩
          rcases List.mem_cons.mp hb with h | h
          · omega
          · exact ⟨b, h, hlt⟩

theorem iso_lonely {a : ℤ} {rest : List ℤ} (hs : (a :: rest).Pairwise (· < ·)) :
    iso a rest ↔ ∃ r, Lonely (a :: rest) r := by
  rw [iso_iff rest a hs]
  have hsp := (List.pairwise_cons.mp hs).1
  constructor
  · rintro ⟨r, hr, hp, hn, b, hb, hlt⟩
    have := hsp r hr
    refine ⟨r, List.mem_cons_of_mem _ hr, hp, ?_, ⟨a, List.mem_cons_self, this⟩, b, List.mem_cons_of_mem _ hb, hlt⟩
    intro hm
    rcases List.mem_cons.mp hm with h | h
    · omega
    · exact hn h
  · rintro ⟨r, hr, hp, hn, ⟨c, hc, hcr⟩, b, hb, hlt⟩
    have har : a < r := by
      rcases List.mem_cons.mp hc with h | h
      · omega
      · have := hsp c h; omega
    refine ⟨r, ?_, hp, fun h => hn (List.mem_cons_of_mem _ h), b, ?_, hlt⟩
    · rcases List.mem_cons.mp hr with h | h
      · omega
      · exact h
    · rcases List.mem_cons.mp hb with h | h
      · omega
      · exact h

theorem bars_iff {rows : List ℤ} (hs : rows.Pairwise (· < ·)) {bs : List Bar} (hb : bars rows = .ok bs) :
    (∀ r, hit bs r ↔ r ∈ rows) ↔ ¬∃ r, Lonely rows r := by
  cases rows with
  | nil => cases hb
  | cons a rest =>
    cases hb
    rw [← iso_lonely hs]
    constructor
    · intro h hi
      obtain ⟨r, hr, har, hn⟩ := scan_wrong rest a a a (le_refl _) (le_refl _) hs hi
      rcases List.mem_cons.mp ((h r).mp hr) with h' | h'
      · omega
      · exact hn h'
    · intro hi r
      rw [scan_right rest a a a (le_refl _) hs hi (Or.inl rfl) r, List.mem_cons]
      constructor
      · rintro (h | h)
        · exact Or.inl (by omega)
        · exact Or.inr h
      · rintro (h | h)
        · exact Or.inl (by omega)
        · exact Or.inr h

theorem scan_ne (ys ye v : ℤ) (rest : List ℤ) : scan ys ye v rest ≠ [] := by
  induction rest generalizing ys ye v with
  | nil => simp [scan]
  | cons x rest ih =>
    rw [scan]
    split_ifs
    · exact ih _ _ _
    · simp

theorem bars_ok {rows : List ℤ} (h : rows ≠ []) : ∃ bs, bars rows = .ok bs ∧ bs ≠ [] := by
  cases rows with
  | nil => exact absurd rfl h
  | cons a rest => exact ⟨_, rfl, scan_ne _ _ _ _⟩

/-! ## Places on the figure -/

theorem quote_inj {s t : String} (h : "\"" ++ s ++ "\"" = "\"" ++ t ++ "\"") : s = t := by
  rw [← String.toList_inj] at h ⊢
  simpa using h

theorem inside_rect (i j : ℕ) (c t : String) (b : Bar) (r : ℤ) :
    Inside (rectOf j c t b) ((i : ℚ) + 1 / 2) r ↔ j = i ∧ covers b r := by
  unfold Inside rectOf covers width
  simp only
  have hx : ((j : ℚ) - 8 / 10 / 2 + 1 / 2 < (i : ℚ) + 1 / 2 ∧ (i : ℚ) + 1 / 2 < (j : ℚ) - 8 / 10 / 2 + 1 / 2 + 8 / 10) ↔ j = i := by
    constructor
    · rintro ⟨h1, h2⟩
      have e1 : (j : ℚ) < i + 1 := by linarith
      have e2 : (i : ℚ) < j + 1 := by linarith
      have e1' : j < i + 1 := by exact_mod_cast e1
      have e2' : i < j + 1 := by exact_mod_cast e2
      omega
    · rintro rfl
      constructor <;> linarith
  have hlow : ∀ a : ℤ, ((a : ℚ) - 1 / 2 < r ↔ a ≤ r) := by
    intro a
    constructor
    · intro h
      have : (a : ℚ) < r + 1 := by linarith
      have : a < r + 1 := by exact_mod_cast this
      omega
    · intro h
      have : (a : ℚ) ≤ r := by exact_mod_cast h
      linarith
  have hup : ∀ a : ℤ, ((r : ℚ) < (a : ℚ) - 1 / 2 ↔ r < a) := by
    intro a
    constructor
    · intro h
      have : (r : ℚ) < a := by linarith
      exact_mod_cast this
    · intro h
      have : r + 1 ≤ a := h
      have : (r : ℚ) + 1 ≤ a := by exact_mod_cast this
      linarith
  have hsum : (b.start : ℚ) - 1 / 2 + (b.height : ℚ) = ((b.start + b.height : ℤ) : ℚ) - 1 / 2 := by push_cast; ring
  rw [hx, hsum, hlow, hup, hlow, hup]

/-! ## Colours -/

/-- The colour of the null value found at a place. -/
def colorAt (palette : List String) (k : ℕ) : String := palette.getD (k % palette.length) ""

/-- Null values with their colours, under a name. -/
def table (palette : List String) (f : String → String) (seen : List String) : PyDict String String :=
  seen.zipIdx.map fun p => (f p.1, colorAt palette p.2)

theorem table_snoc (palette : List String) (f : String → String) (seen : List String) (t : String) :
    table palette f (seen ++ [t]) = table palette f seen ++ [(f t, colorAt palette seen.length)] := by
  unfold table
  simp [List.zipIdx_append]

theorem keys_table (palette : List String) (f : String → String) (seen : List String) :
    PyDict.keys (table palette f seen) = seen.map f := by
  unfold PyDict.keys table
  rw [List.map_map]
  have : (Prod.fst ∘ fun p : String × ℕ => (f p.1, colorAt palette p.2)) = f ∘ Prod.fst := rfl
  rw [this, ← List.map_map, List.zipIdx_map_fst]

theorem wf_table (palette : List String) {f : String → String} (hf : Function.Injective f) {seen : List String}
    (h : seen.Nodup) : PyDict.WF (table palette f seen) := by
  unfold PyDict.WF
  rw [keys_table]
  exact h.map hf

theorem get_table (palette : List String) {f : String → String} (hf : Function.Injective f) {seen : List String}
    (h : seen.Nodup) {t : String} {k : ℕ} (hk : seen[k]? = some t) :
    PyDict.get? (table palette f seen) (f t) = some (colorAt palette k) := by
  refine PyDict.get?_of_mem (wf_table palette hf h) ?_
  unfold table
  refine List.mem_map.mpr ⟨(t, k), ?_, rfl⟩
  rw [List.mem_zipIdx_iff_getElem?]
  exact hk

theorem set_same {K V : Type} [DecidableEq K] {d : PyDict K V} {k : K} {v : V} (h : PyDict.get? d k = some v) :
    PyDict.set d k v = d := by
  induction d with
  | nil => cases h
  | cons p d ih =>
    obtain ⟨k', v'⟩ := p
    rw [PyDict.get?_cons] at h
    by_cases hk : k' = k
    · rw [if_pos hk] at h
      cases h
      rw [PyDict.set, if_pos hk, hk]
    · rw [if_neg hk] at h
      rw [PyDict.set, if_neg hk, ih h]

/-- Remember a null value. -/
def note (seen : List String) (t : String) : List String := if t ∈ seen then seen else seen ++ [t]

theorem note_nodup {seen : List String} (h : seen.Nodup) (t : String) : (note seen t).Nodup := by
  unfold note
  split_ifs with hm
  · exact h
  · rw [List.nodup_append]
    exact ⟨h, by simp, by intro a ha b hb; rw [List.mem_singleton] at hb; subst hb; exact fun e => hm (e ▸ ha)⟩

theorem note_prefix (seen : List String) (t : String) : seen <+: note seen t := by
  unfold note
  split_ifs
  · exact List.prefix_refl _
  · exact List.prefix_append _ _

theorem foldl_prefix (ts seen : List String) : seen <+: ts.foldl note seen := by
  induction ts generalizing seen with
  | nil => exact List.prefix_refl _
  | cons t ts ih => exact (note_prefix seen t).trans (ih _)

theorem foldl_nodup (ts : List String) {seen : List String} (h : seen.Nodup) : (ts.foldl note seen).Nodup := by
  induction ts generalizing seen with
  | nil => exact h
  | cons t ts ih => exact ih (note_nodup h t)

theorem prefix_get {seen final : List String} (h : seen <+: final) {k : ℕ} {t : String} (hk : seen[k]? = some t) :
    final[k]? = some t := by
  obtain ⟨r, rfl⟩ := h
  rw [List.getElem?_append_left]
  · exact hk
  · obtain ⟨hl, _⟩ := List.getElem?_eq_some_iff.mp hk
    exact hl

/-- The state after the null values seen. -/
def stateOf (palette seen : List String) : Colors :=
  ⟨table palette id seen, palette.drop (seen.length % palette.length)⟩

theorem colorOf_ok {palette : List String} (hp : palette ≠ []) {seen : List String} (hn : seen.Nodup) (t : String) :
    ∃ k, (note seen t)[k]? = some t ∧
      colorOf palette (stateOf palette seen) t = .ok (colorAt palette k, stateOf palette (note seen t)) := by
  have hpos : 0 < palette.length := List.length_pos_iff.mpr hp
  unfold note
  by_cases hm : t ∈ seen
  · obtain ⟨k, hk⟩ := List.mem_iff_getElem?.mp hm
    refine ⟨k, by rw [if_pos hm]; exact hk, ?_⟩
    have hg : PyDict.get? (table palette id seen) t = some (colorAt palette k) :=
      get_table palette (f := id) (fun _ _ h => h) hn hk
    unfold colorOf stateOf
    simp only
    rw [hg, if_pos hm]
  · refine ⟨seen.length, by rw [if_neg hm]; simp, ?_⟩
    have hg : PyDict.get? (table palette id seen) t = none := by
      rw [PyDict.get?_eq_none_iff, keys_table]
      simpa using hm
    have hlt : seen.length % palette.length < palette.length := Nat.mod_lt _ hpos
    have hd : palette.drop (seen.length % palette.length) =
        colorAt palette seen.length :: palette.drop (seen.length % palette.length + 1) := by
      rw [List.drop_eq_getElem_cons hlt]
      congr 1
      unfold colorAt
      simp [List.getD_eq_getElem?_getD, hlt]
    have hset : PyDict.set (table palette id seen) t (colorAt palette seen.length) = table palette id (seen ++ [t]) := by
      rw [table_snoc, PyDict.set_of_not_mem (by rw [keys_table]; simpa using hm)]
      rfl
    unfold colorOf stateOf
    simp only
    rw [hg, if_neg hm]
    simp only
    rw [hd]
    simp only
    rw [hset]
    congr 3
    rw [List.length_append, List.length_singleton]
    by_cases hend : seen.length % palette.length + 1 = palette.length
    · have h1 : (seen.length + 1) % palette.length = 0 := by
        rw [Nat.add_mod]
        by_cases h1 : palette.length = 1
        · rw [h1, Nat.mod_one]
        · rw [Nat.mod_eq_of_lt (show 1 < palette.length by omega), hend, Nat.mod_self]
      rw [h1, hend]
      simp
    · have h1 : (seen.length + 1) % palette.length = seen.length % palette.length + 1 := by
        rw [Nat.add_mod, Nat.mod_eq_of_lt (show 1 < palette.length by omega), Nat.mod_eq_of_lt (by omega)]
      rw [h1]
      have : (palette.drop (seen.length % palette.length + 1)).isEmpty = false := by
        rw [List.isEmpty_eq_false_iff]
        intro h
        rw [List.drop_eq_nil_iff] at h
        omega
      rw [this]
      rfl

/-! ## The loops -/

/-- Name of a null value on the figure. -/
def quoted (t : String) : String := "\"" ++ t ++ "\""

theorem quoted_inj : Function.Injective quoted := fun _ _ h => quote_inj h

theorem legendOf_append (a b : List Rect) (d : PyDict String String) :
    legendOf (a ++ b) d = legendOf b (legendOf a d) := by
  induction a generalizing d with
  | nil => rfl
  | cons r rs ih =>
    rw [List.cons_append, legendOf, legendOf]
    cases r.label with
    | none => exact ih d
    | some l => exact ih _

theorem legend_bars (col : ℕ) (c t : String) (bs : List Bar) (hne : bs ≠ []) (d : PyDict String String) :
    legendOf (bs.map (rectOf col c t)) d = PyDict.set d (quoted t) c := by
  have again : ∀ (bs : List Bar) (d : PyDict String String), PyDict.get? d (quoted t) = some c →
      legendOf (bs.map (rectOf col c t)) d = d := by
    intro bs
    induction bs with
    | nil => intro d _; rfl
    | cons b bs ih =>
      intro d hd
      show legendOf (bs.map (rectOf col c t)) (PyDict.set d (quoted t) c) = d
      rw [set_same hd]
      exact ih d hd
  cases bs with
  | nil => exact absurd rfl hne
  | cons b bs =>
    show legendOf (bs.map (rectOf col c t)) (PyDict.set d (quoted t) c) = _
    exact again bs _ (by rw [PyDict.get?_set]; simp)

theorem set_table {palette seen : List String} (hn : seen.Nodup) {t : String} {k : ℕ}
    (hk : (note seen t)[k]? = some t) :
    PyDict.set (table palette quoted seen) (quoted t) (colorAt palette k) = table palette quoted (note seen t) := by
  by_cases hm : t ∈ seen
  · rw [note, if_pos hm] at hk ⊢
    exact set_same (get_table palette quoted_inj hn hk)
  · rw [note, if_neg hm] at hk ⊢
    have : k = seen.length := by
      obtain ⟨hl, he⟩ := List.getElem?_eq_some_iff.mp hk
      by_contra hne
      have hlt : k < seen.length := by simp at hl; omega
      rw [List.getElem_append_left hlt] at he
      exact hm (he ▸ List.getElem_mem hlt)
    subst this
    rw [table_snoc, PyDict.set_of_not_mem]
    rw [keys_table, List.mem_map]
    rintro ⟨s, hs, he⟩
    exact hm (quoted_inj he ▸ hs)

/-- What is known of the rectangles drawn: labels are null values with the colour of their place, in this column. -/
def Known (palette final : List String) (rects : List Rect) : Prop :=
  ∀ r ∈ rects, ∀ l, r.label = some l → ∃ k t, final[k]? = some t ∧ l = quoted t ∧ r.color = colorAt palette k

theorem drawNulls_ok {palette : List String} (hp : palette ≠ []) {order : List ℤ → List ℤ}
    (col : ℕ) (nulls : PyDict String (List ℤ)) : ∀ seen : List String, seen.Nodup → (∀ p ∈ nulls, order p.2 ≠ []) →
    ∃ rects, drawNulls palette order col nulls (stateOf palette seen) =
        .ok (rects, stateOf palette ((PyDict.keys nulls).foldl note seen)) ∧
      Known palette ((PyDict.keys nulls).foldl note seen) rects ∧
      legendOf rects (table palette quoted seen) = table palette quoted ((PyDict.keys nulls).foldl note seen) ∧
      (∀ i t r, Marks rects i t r ↔ i = col ∧ ∃ rows bs, (t, rows) ∈ nulls ∧ bars (order rows) = .ok bs ∧ hit bs r) ∧
      (∀ q ∈ rects, q.label.isNone = false) := by
  induction nulls with
  | nil =>
    intro seen _ _
    refine ⟨[], rfl, ?_, rfl, ?_, ?_⟩
    · intro r hr; cases hr
    · intro i t r
      simp [Marks]
    · intro q hq; cases hq
  | cons p rest ih =>
    obtain ⟨t, rows⟩ := p
    intro seen hn hne
    obtain ⟨k, hk, hc⟩ := colorOf_ok hp hn t
    obtain ⟨bs, hb, hbn⟩ := bars_ok (hne (t, rows) List.mem_cons_self)
    obtain ⟨more, hm, hK, hL, hM, hS⟩ := ih (note seen t) (note_nodup hn t) fun p hp => hne p (List.mem_cons_of_mem _ hp)
    have hkeys : PyDict.keys ((t, rows) :: rest) = t :: PyDict.keys rest := rfl
    rw [hkeys, List.foldl_cons]
    refine ⟨bs.map (rectOf col (colorAt palette k) t) ++ more, ?_, ?_, ?_, ?_, ?_⟩
    · rw [drawNulls, hc]
      show (do let bs ← bars (order rows); _) = _
      rw [hb]
      show (do let x ← drawNulls palette order col rest (stateOf palette (note seen t)); _) = _
      rw [hm]
      rfl
    · intro r hr l hl
      rcases List.mem_append.mp hr with h | h
      · obtain ⟨b, _, rfl⟩ := List.mem_map.mp h
        cases hl
        exact ⟨k, t, prefix_get (foldl_prefix _ _) hk, rfl, rfl⟩
      · exact hK r h l hl
    · rw [legendOf_append, legend_bars _ _ _ _ hbn, set_table hn hk, hL]
    · intro i t' r
      unfold Marks
      constructor
      · rintro ⟨q, hq, hl, hin⟩
        rcases List.mem_append.mp hq with h | h
        · obtain ⟨b, hbm, rfl⟩ := List.mem_map.mp h
          have ht : t = t' := quote_inj (Option.some.inj hl)
          rw [inside_rect] at hin
          subst ht
          exact ⟨hin.1.symm, rows, bs, List.mem_cons_self, hb, b, hbm, hin.2⟩
        · obtain ⟨hi, rows', bs', hm', hb', hh⟩ := (hM i t' r).mp ⟨q, h, hl, hin⟩
          exact ⟨hi, rows', bs', List.mem_cons_of_mem _ hm', hb', hh⟩
      · rintro ⟨hi, rows', bs', hm', hb', hh⟩
        rcases List.mem_cons.mp hm' with h | h
        · cases h
          rw [hb] at hb'
          cases hb'
          obtain ⟨b, hbm, hcv⟩ := hh
          exact ⟨_, List.mem_append.mpr (Or.inl (List.mem_map.mpr ⟨b, hbm, rfl⟩)), rfl,
            (inside_rect _ _ _ _ _ _).mpr ⟨hi.symm, hcv⟩⟩
        · obtain ⟨q, hq, hl, hin⟩ := (hM i t' r).mpr ⟨hi, rows', bs', h, hb', hh⟩
          exact ⟨q, List.mem_append.mpr (Or.inr hq), hl, hin⟩
    · intro q hq
      rcases List.mem_append.mp hq with h | h
      · obtain ⟨b, _, rfl⟩ := List.mem_map.mp h
        rfl
      · exact hS q h

theorem marks_append (a b : List Rect) (i : ℕ) (t : String) (r : ℤ) :
    Marks (a ++ b) i t r ↔ Marks a i t r ∨ Marks b i t r := by
  unfold Marks
  constructor
  · rintro ⟨q, hq, h⟩
    rcases List.mem_append.mp hq with h' | h'
    · exact Or.inl ⟨q, h', h⟩
    · exact Or.inr ⟨q, h', h⟩
  · rintro (⟨q, hq, h⟩ | ⟨q, hq, h⟩)
    · exact ⟨q, List.mem_append.mpr (Or.inl hq), h⟩
    · exact ⟨q, List.mem_append.mpr (Or.inr hq), h⟩

theorem drawColumns_ok {palette : List String} (hp : palette ≠ []) {order : List ℤ → List ℤ}
    (cols : List NullColumn) : ∀ (n : ℕ) (seen : List String), seen.Nodup →
    (∀ c ∈ cols, ∀ p ∈ c.nulls, order p.2 ≠ []) →
    ∃ rects, drawColumns palette order n cols (stateOf palette seen) =
        .ok (rects, stateOf palette ((cols.flatMap fun c => PyDict.keys c.nulls).foldl note seen)) ∧
      Known palette ((cols.flatMap fun c => PyDict.keys c.nulls).foldl note seen) rects ∧
      legendOf rects (table palette quoted seen) =
        table palette quoted ((cols.flatMap fun c => PyDict.keys c.nulls).foldl note seen) ∧
      (∀ i t r, Marks rects i t r ↔ ∃ c rows bs, n ≤ i ∧ cols[i - n]? = some c ∧ (t, rows) ∈ c.nulls ∧
        bars (order rows) = .ok bs ∧ hit bs r) ∧
      (rects.filter fun r => r.label.isNone) = (cols.zipIdx n).map fun p => ground p.2 p.1.sampleSize := by
  induction cols with
  | nil =>
    intro n seen _ _
    refine ⟨[], rfl, ?_, rfl, ?_, rfl⟩
    · intro r hr; cases hr
    · intro i t r
      simp [Marks]
  | cons c cs ih =>
    intro n seen hn hne
    obtain ⟨here, hh, hK1, hL1, hM1, hS1⟩ := drawNulls_ok hp (order := order) n c.nulls seen hn (hne c List.mem_cons_self)
    obtain ⟨more, hm, hK2, hL2, hM2, hG⟩ := ih (n + 1) _ (foldl_nodup (PyDict.keys c.nulls) hn)
      fun c hc => hne c (List.mem_cons_of_mem _ hc)
    rw [List.flatMap_cons, List.foldl_append]
    refine ⟨ground n c.sampleSize :: here ++ more, ?_, ?_, ?_, ?_, ?_⟩
    · rw [drawColumns, hh]
      show (do let x ← drawColumns palette order (n + 1) cs _; _) = _
      rw [hm]
      rfl
    · intro r hr l hl
      rcases List.mem_append.mp hr with h | h
      · rcases List.mem_cons.mp h with rfl | h
        · cases hl
        · obtain ⟨k, t, hk, e1, e2⟩ := hK1 r h l hl
          exact ⟨k, t, prefix_get (foldl_prefix _ _) hk, e1, e2⟩
      · exact hK2 r h l hl
    · rw [List.cons_append]
      show legendOf (here ++ more) _ = _
      rw [legendOf_append, hL1, hL2]
    · intro i t r
      rw [List.cons_append, show ground n c.sampleSize :: (here ++ more) = [ground n c.sampleSize] ++ (here ++ more) from rfl,
        marks_append, marks_append, hM1, hM2]
      have h0 : ¬Marks [ground n c.sampleSize] i t r := by
        rintro ⟨q, hq, hl, _⟩
        rw [List.mem_singleton] at hq
        subst hq
        cases hl
      constructor
      · rintro (h | ⟨rfl, rows, bs, h1, h2, h3⟩ | ⟨c', rows, bs, hle, h1, h2, h3, h4⟩)
        · exact absurd h h0
        · exact ⟨c, rows, bs, le_refl _, by simp, h1, h2, h3⟩
        · refine ⟨c', rows, bs, by omega, ?_, h2, h3, h4⟩
          have : i - n = (i - (n + 1)) + 1 := by omega
          rw [this, List.getElem?_cons_succ]
          exact h1
      · rintro ⟨c', rows, bs, hle, h1, h2, h3, h4⟩
        by_cases hi : i = n
        · subst hi
          rw [Nat.sub_self] at h1
          cases h1
          exact Or.inr (Or.inl ⟨rfl, rows, bs, h2, h3, h4⟩)
        · have : i - n = (i - (n + 1)) + 1 := by omega
          rw [this, List.getElem?_cons_succ] at h1
          exact Or.inr (Or.inr ⟨c', rows, bs, by omega, h1, h2, h3, h4⟩)
    · have hnone : here.filter (fun r => r.label.isNone) = [] := by
        rw [List.filter_eq_nil_iff]
        intro q hq
        rw [hS1 q hq]
        simp
      rw [List.cons_append, List.filter_cons_of_pos (by rfl), List.filter_append, hnone, hG]
      rfl

end Verif.Plot
