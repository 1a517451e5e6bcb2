import Verif.Lemmas.HistogramPct

namespace Verif.Histogram

open Verif Verif.HistSpec

/-! ## Mass to the left of a point -/

/-- Mass of the bins up to `x`, each spread evenly. -/
def segMass : List ℚ → List ℚ → ℚ → ℚ
  | c :: cs, e0 :: e1 :: es, x => c * max 0 (min e1 x - e0) / (e1 - e0) + segMass cs (e1 :: es) x
  | _, _, _ => 0

theorem segMass_zero (cs es : List ℚ) (x : ℚ) (h : ∀ e ∈ es, x ≤ e) : segMass cs es x = 0 := by
  induction cs generalizing es with
  | nil => simp [segMass]
  | cons c cs ih =>
    match es, h with
    | [], _ => simp [segMass]
    | [_], _ => simp [segMass]
    | e0 :: e1 :: es, h =>
      rw [segMass, ih (e1 :: es) fun e he => h e (List.mem_cons_of_mem _ he)]
      have : max 0 (min e1 x - e0) = 0 := by
        apply max_eq_left
        have := min_le_right e1 x
        have := h e0 (by simp)
        linarith
      rw [this]; simp

theorem interp_cum (acc : ℚ) (cs es : List ℚ) (hs : es.Pairwise (· < ·)) (hlen : es.length = cs.length + 1)
    (x : ℚ) (hx : ∀ e, es.head? = some e → e ≤ x) :
    interp (es.zip (acc :: cumsum acc cs)) x = acc + segMass cs es x := by
  induction cs generalizing acc es with
  | nil =>
    match es, hlen with
    | [e], _ => simp [interp, cumsum, segMass]
  | cons c cs ih =>
    match es, hlen with
    | [], h => simp at h
    | [_], h => simp at h
    | e0 :: e1 :: es, hlen =>
      have hx0 : e0 ≤ x := hx e0 rfl
      have h01 : e0 < e1 := (List.pairwise_cons.1 hs).1 e1 (by simp)
      have hs' := (List.pairwise_cons.1 hs).2
      have hd : (0 : ℚ) < e1 - e0 := by linarith
      simp only [cumsum, List.zip_cons_cons]
      rw [interp, if_neg (by simpa using hx0)]
      simp only
      by_cases h1 : x < e1
      · rw [if_pos h1, segMass, segMass_zero cs (e1 :: es) x]
        · rw [min_eq_right h1.le, max_eq_right (by linarith)]
          ring
        · intro e he
          rcases List.mem_cons.1 he with rfl | he
          · exact h1.le
          · exact le_trans h1.le ((List.pairwise_cons.1 hs').1 e he).le
      · rw [if_neg h1]
        push Not at h1
        have := ih (acc + c) (e1 :: es) hs' (by simpa using hlen) (by
          intro e he
          simp only [List.head?_cons, Option.some.injEq] at he
          subst he; exact h1)
        rw [List.zip_cons_cons] at this
        rw [this, segMass, min_eq_left h1, max_eq_right hd.le, mul_div_assoc, div_self hd.ne']
        ring

theorem segTerm_mono (c e0 e1 x y : ℚ) (hc : 0 ≤ c) (h : e0 ≤ e1) (hxy : x ≤ y) :
    c * max 0 (min e1 x - e0) / (e1 - e0) ≤ c * max 0 (min e1 y - e0) / (e1 - e0) := by
  apply div_le_div_of_nonneg_right _ (by linarith)
  apply mul_le_mul_of_nonneg_left _ hc
  have : min e1 x ≤ min e1 y := min_le_min_left _ hxy
  exact max_le_max_left _ (by linarith)

theorem segMass_mono (cs es : List ℚ) (hc : ∀ c ∈ cs, 0 ≤ c) (hs : es.Pairwise (· < ·)) (x y : ℚ)
    (hxy : x ≤ y) : segMass cs es x ≤ segMass cs es y := by
  induction cs generalizing es with
  | nil => simp [segMass]
  | cons c cs ih =>
    match es, hs with
    | [], _ => simp [segMass]
    | [_], _ => simp [segMass]
    | e0 :: e1 :: es, hs =>
      rw [segMass, segMass]
      have h01 : e0 < e1 := (List.pairwise_cons.1 hs).1 e1 (by simp)
      have := ih (e1 :: es) (fun c h => hc c (List.mem_cons_of_mem _ h)) (List.pairwise_cons.1 hs).2
      have := segTerm_mono c e0 e1 x y (hc c (by simp)) h01.le hxy
      linarith

theorem segTerm_linear (c e0 e1 u v t : ℚ) (h01 : e0 < e1) (h0 : e0 ≤ u ∨ v ≤ e0) (h1 : e1 ≤ u ∨ v ≤ e1)
    (hut : u ≤ t) (htv : t ≤ v) (huv : u < v) :
    c * max 0 (min e1 t - e0) / (e1 - e0) = c * max 0 (min e1 u - e0) / (e1 - e0) +
      (c * max 0 (min e1 v - e0) / (e1 - e0) - c * max 0 (min e1 u - e0) / (e1 - e0)) / (v - u) * (t - u) := by
  have hd : e1 - e0 ≠ 0 := by linarith
  have hd2 : v - u ≠ 0 := by linarith
  rcases h0 with h0 | h0
  · rcases h1 with h1 | h1
    · rw [min_eq_left (by linarith), min_eq_left h1, min_eq_left (by linarith)]
      simp
    · rw [min_eq_right (by linarith), min_eq_right (by linarith), min_eq_right h1,
        max_eq_right (by linarith), max_eq_right (by linarith), max_eq_right (by linarith)]
      field_simp
      ring
  · have : ∀ s, s ≤ v → max 0 (min e1 s - e0) = 0 := by
      intro s hs
      apply max_eq_left
      have := min_le_right e1 s
      linarith
    rw [this t htv, this u huv.le, this v (le_refl _)]
    simp

theorem segMass_linear (cs es : List ℚ) (hs : es.Pairwise (· < ·)) (u v t : ℚ)
    (hno : ∀ e ∈ es, e ≤ u ∨ v ≤ e) (hut : u ≤ t) (htv : t ≤ v) (huv : u < v) :
    segMass cs es t = segMass cs es u + (segMass cs es v - segMass cs es u) / (v - u) * (t - u) := by
  induction cs generalizing es with
  | nil => simp [segMass]
  | cons c cs ih =>
    match es, hs, hno with
    | [], _, _ => simp [segMass]
    | [_], _, _ => simp [segMass]
    | e0 :: e1 :: es, hs, hno =>
      rw [segMass, segMass, segMass]
      have h01 : e0 < e1 := (List.pairwise_cons.1 hs).1 e1 (by simp)
      have h1 := ih (e1 :: es) (List.pairwise_cons.1 hs).2 (fun e h => hno e (List.mem_cons_of_mem _ h))
      have h2 := segTerm_linear c e0 e1 u v t h01 (hno e0 (by simp)) (hno e1 (by simp)) hut htv huv
      rw [h1, h2]
      ring

/-! ## Mass around a point -/

theorem massWithin_cons (c : ℚ) (cs : List ℚ) (e0 e1 : ℚ) (es : List ℚ) (lo hi : ℚ) :
    massWithin (c :: cs) (e0 :: e1 :: es) lo hi =
      c * overlap e0 e1 lo hi / (e1 - e0) + massWithin cs (e1 :: es) lo hi := by
  simp [massWithin]

theorem massWithin_nil (es : List ℚ) (lo hi : ℚ) : massWithin [] es lo hi = 0 := by
  simp [massWithin]

theorem massWithin_append (A B E : List ℚ) (e : ℚ) (E' : List ℚ) (h : A.length = E.length) (lo hi : ℚ) :
    massWithin (A ++ B) (E ++ e :: E') lo hi =
      massWithin A (E ++ [e]) lo hi + massWithin B (e :: E') lo hi := by
  induction A generalizing E with
  | nil =>
    have : E = [] := List.length_eq_zero_iff.1 h.symm
    subst this
    simp [massWithin_nil]
  | cons a A ih =>
    match E, h with
    | [x], h =>
      have : A = [] := List.length_eq_zero_iff.1 (by simpa using h)
      subst this
      simp only [List.cons_append, List.nil_append]
      rw [massWithin_cons, massWithin_cons, massWithin_nil]
      ring
    | x :: y :: E, h =>
      have := ih (y :: E) (by simpa using h)
      simp only [List.cons_append] at this ⊢
      rw [massWithin_cons, massWithin_cons, this]
      ring

theorem massWithin_right (cs es : List ℚ) (x : ℚ) (hx : 0 ≤ x) (h : ∀ e ∈ es, 0 ≤ e) :
    massWithin cs es (-x) x = segMass cs es x := by
  induction cs generalizing es with
  | nil => simp [massWithin_nil, segMass]
  | cons c cs ih =>
    match es, h with
    | [], _ => simp [massWithin, segMass]
    | [_], _ => simp [massWithin, segMass]
    | e0 :: e1 :: es, h =>
      rw [massWithin_cons, segMass, ih (e1 :: es) fun e he => h e (List.mem_cons_of_mem _ he)]
      have h0 := h e0 (by simp)
      rw [overlap, max_eq_left (by linarith : -x ≤ e0)]

theorem massWithin_left (cs es : List ℚ) (e : ℚ) (hlen : cs.length = es.length) (x : ℚ) (hx : 0 ≤ x)
    (h : ∀ y ∈ es ++ [e], y ≤ 0) :
    massWithin cs (es ++ [e]) (-x) x = segMass cs.reverse (-e :: es.reverse.map (- ·)) x := by
  induction cs using List.reverseRecOn generalizing es e with
  | nil =>
    simp [massWithin_nil, segMass]
  | append_singleton cs c ih =>
    rcases List.eq_nil_or_concat es with rfl | ⟨es, u, rfl⟩
    · simp at hlen
    · have hlen' : cs.length = es.length := by simpa using hlen
      rw [List.concat_eq_append, List.append_assoc, List.singleton_append]
      rw [massWithin_append cs [c] es u [e] hlen', massWithin_cons, massWithin_nil]
      have hu : u ≤ 0 := h u (by simp)
      have he : e ≤ 0 := h e (by simp)
      rw [ih es u hlen' (fun y hy => h y (by
        simp only [List.concat_eq_append, List.mem_append, List.mem_singleton] at hy ⊢; tauto))]
      rw [List.reverse_append, List.reverse_append]
      simp only [List.reverse_singleton, List.singleton_append, List.map_cons]
      rw [segMass, overlap, min_eq_left (by linarith : e ≤ x)]
      have h1 : e - max u (-x) = min (-u) x - -e := by
        rcases le_total u (-x) with h1 | h1
        · rw [max_eq_right h1, min_eq_right (by linarith)]; ring
        · rw [max_eq_left h1, min_eq_left (by linarith)]; ring
      rw [h1]
      have h2 : e - u = -u - -e := by ring
      rw [h2]
      ring

/-! ## Evenly spaced edges -/

/-- `s, s + w, s + 2w, …`, `k` entries. -/
def AP (s w : ℚ) (k : ℕ) : List ℚ := (List.range k).map fun i : ℕ => s + (i : ℚ) * w

theorem AP_get (s w : ℚ) (k i : ℕ) (h : i < k) : (AP s w k)[i]? = some (s + i * w) := by
  simp only [AP, List.getElem?_map, List.getElem?_range h]
  rfl

theorem AP_length (s w : ℚ) (k : ℕ) : (AP s w k).length = k := by simp [AP]

theorem AP_succ (s w : ℚ) (k : ℕ) : AP s w (k + 1) = s :: AP (s + w) w k := by
  apply List.ext_getElem?
  intro i
  cases i with
  | zero => rw [AP_get s w (k + 1) 0 (by omega)]; simp
  | succ i =>
    simp only [List.getElem?_cons_succ]
    by_cases h : i < k
    · rw [AP_get s w (k + 1) (i + 1) (by omega), AP_get _ w k i h]
      push_cast; congr 1; ring
    · rw [List.getElem?_eq_none (by rw [AP_length]; omega), List.getElem?_eq_none (by rw [AP_length]; omega)]

theorem AP_sorted (s w : ℚ) (k : ℕ) (hw : 0 < w) : (AP s w k).Pairwise (· < ·) := by
  unfold AP
  rw [List.pairwise_map]
  refine List.Pairwise.imp ?_ (List.pairwise_lt_range (n := k))
  intro i j hij
  have h2 : (i : ℚ) < j := by exact_mod_cast hij
  nlinarith

theorem AP_drop (s w : ℚ) (k z : ℕ) : (AP s w k).drop z = AP (s + z * w) w (k - z) := by
  apply List.ext_getElem?
  intro i
  rw [List.getElem?_drop]
  by_cases h : z + i < k
  · rw [AP_get s w k (z + i) h, AP_get _ w (k - z) i (by omega)]
    push_cast; congr 1; ring
  · rw [List.getElem?_eq_none (by rw [AP_length]; omega), List.getElem?_eq_none (by rw [AP_length]; omega)]

theorem AP_take (s w : ℚ) (k z : ℕ) (h : z ≤ k) : (AP s w k).take z = AP s w z := by
  apply List.ext_getElem?
  intro i
  by_cases hi : i < z
  · rw [List.getElem?_take_of_lt hi, AP_get s w k i (by omega), AP_get s w z i hi]
  · rw [List.getElem?_eq_none (by rw [List.length_take, AP_length]; omega),
      List.getElem?_eq_none (by rw [AP_length]; omega)]

theorem AP_reverse_neg (s w : ℚ) (z : ℕ) :
    (AP s w z).reverse.map (- ·) = AP (-(s + (z - 1 : ℚ) * w)) w z := by
  apply List.ext_getElem?
  intro i
  by_cases hi : i < z
  · rw [List.getElem?_map, List.getElem?_reverse (by rw [AP_length]; exact hi), AP_length,
      AP_get s w z (z - 1 - i) (by omega), AP_get _ w z i hi]
    simp only [Option.map_some, Option.some.injEq]
    have : ((z - 1 - i : ℕ) : ℚ) = z - 1 - i := by
      rw [Nat.cast_sub (by omega), Nat.cast_sub (by omega)]; simp
    rw [this]; ring
  · rw [List.getElem?_eq_none (by simp [AP_length]; omega), List.getElem?_eq_none (by rw [AP_length]; omega)]

theorem linspace_shift (a b m : ℚ) (n : ℕ) :
    (linspace a b n).map (· - m) = AP (a - m) ((b - a) / n) (n + 1) := by
  unfold linspace AP
  rw [List.map_map]
  apply List.map_congr_left
  intro i _
  simp only [Function.comp]
  ring

/-! ## Interleaving -/

theorem interleave_mem (A B : List ℚ) (x : ℚ) : x ∈ interleave A B ↔ x ∈ A ∨ x ∈ B := by
  induction A generalizing B with
  | nil => simp [interleave]
  | cons a A ih =>
    cases B with
    | nil => simp [interleave]
    | cons b B =>
      simp only [interleave, List.mem_cons, ih]
      tauto

theorem interleave_AP_sorted (s t w : ℚ) (j k : ℕ) (hw : 0 < w) (h1 : s ≤ t) (h2 : t ≤ s + w) :
    (interleave (AP s w j) (AP t w k)).Pairwise (· ≤ ·) ∧
    ∀ x ∈ interleave (AP s w j) (AP t w k), s ≤ x := by
  induction j generalizing s t k with
  | zero =>
    have : AP s w 0 = [] := rfl
    rw [this, interleave]
    refine ⟨(AP_sorted t w k hw).imp fun h => h.le, ?_⟩
    intro x hx
    simp only [AP, List.mem_map] at hx
    obtain ⟨i, _, rfl⟩ := hx
    have : 0 ≤ (i : ℚ) * w := by positivity
    linarith
  | succ j ih =>
    rw [AP_succ]
    cases k with
    | zero =>
      have : AP t w 0 = [] := rfl
      rw [this, interleave, ← AP_succ]
      refine ⟨(AP_sorted s w (j + 1) hw).imp fun h => h.le, ?_⟩
      intro x hx
      simp only [AP, List.mem_map] at hx
      obtain ⟨i, _, rfl⟩ := hx
      have : 0 ≤ (i : ℚ) * w := by positivity
      linarith
    | succ k =>
      rw [AP_succ, interleave]
      obtain ⟨g1, g2⟩ := ih (s + w) (t + w) k (by linarith) (by linarith)
      have g3 : ∀ x ∈ interleave (AP (s + w) w j) (AP (t + w) w k), t ≤ x := by
        intro x hx; have := g2 x hx; linarith
      refine ⟨List.pairwise_cons.2 ⟨?_, List.pairwise_cons.2 ⟨g3, g1⟩⟩, ?_⟩
      · intro x hx
        rcases List.mem_cons.1 hx with rfl | hx
        · exact h1
        · exact le_trans h1 (g3 x hx)
      · intro x hx
        rcases List.mem_cons.1 hx with rfl | hx
        · exact le_refl _
        · rcases List.mem_cons.1 hx with rfl | hx
          · exact h1
          · exact le_trans h1 (g3 x hx)

/-! ## Removing repeated edges -/

theorem keepRising_mem (prev : ℚ) (l : List ℚ) : ∀ x ∈ keepRising prev l, x ∈ l := by
  induction l generalizing prev with
  | nil => simp [keepRising]
  | cons y l ih =>
    intro x hx
    rw [keepRising] at hx
    split_ifs at hx with h
    · rcases List.mem_cons.1 hx with rfl | hx
      · simp
      · exact List.mem_cons_of_mem _ (ih y x hx)
    · exact List.mem_cons_of_mem _ (ih y x hx)

theorem keepRising_sorted (prev : ℚ) (l : List ℚ) (h : (prev :: l).Pairwise (· ≤ ·)) :
    (prev :: keepRising prev l).Pairwise (· < ·) := by
  have key : ∀ (l : List ℚ) (prev base : ℚ), base ≤ prev → (prev :: l).Pairwise (· ≤ ·) →
      (base :: keepRising prev l).Pairwise (· < ·) := by
    intro l
    induction l with
    | nil => intro prev base _ _; simp [keepRising]
    | cons y l ih =>
      intro prev base hb h
      have hpy : prev ≤ y := (List.pairwise_cons.1 h).1 y (by simp)
      have h' := (List.pairwise_cons.1 h).2
      rw [keepRising]
      split_ifs with hk
      · have hlt : prev < y := by
          have : (0 : ℚ) < 1 / 10 ^ 14 := by norm_num
          linarith
        refine List.pairwise_cons.2 ⟨?_, ih y y (le_refl _) h'⟩
        intro x hx
        rcases List.mem_cons.1 hx with rfl | hx
        · linarith
        · have : y ≤ x := (List.pairwise_cons.1 h').1 x (keepRising_mem y l x hx)
          linarith
      · exact ih y base (by linarith) h'
  exact key l prev prev (le_refl _) h

/-- With edges either equal or more than 1e-14 apart, no edge is lost. -/
theorem keepRising_complete (prev : ℚ) (l : List ℚ) (h : (prev :: l).Pairwise (· ≤ ·))
    (hsep : ∀ x ∈ prev :: l, ∀ y ∈ prev :: l, x < y → 1 / 10 ^ 14 < y - x) :
    ∀ x ∈ l, x ∈ prev :: keepRising prev l := by
  induction l generalizing prev with
  | nil => simp
  | cons y l ih =>
    have hpy : prev ≤ y := (List.pairwise_cons.1 h).1 y (by simp)
    have h' := (List.pairwise_cons.1 h).2
    have ih' := ih y h' (fun a ha b hb => hsep a (List.mem_cons_of_mem _ ha) b (List.mem_cons_of_mem _ hb))
    intro x hx
    rw [keepRising]
    split_ifs with hk
    · rcases List.mem_cons.1 hx with rfl | hx
      · simp
      · exact List.mem_cons_of_mem _ (ih' x hx)
    · have heq : prev = y := by
        by_contra hne
        exact hk (hsep prev (by simp) y (by simp) (lt_of_le_of_ne hpy hne))
      subst heq
      rcases List.mem_cons.1 hx with rfl | hx
      · simp
      · exact ih' x hx

/-! ## Inverting a piecewise linear function -/

theorem interp_inverse (F : ℚ → ℚ) (a : ℚ) (l : List ℚ) (hs : (a :: l).Pairwise (· < ·))
    (hlin : ∀ u v t, u ∈ a :: l → v ∈ a :: l → (∀ e ∈ a :: l, e ≤ u ∨ v ≤ e) → u ≤ t → t ≤ v → u < v →
      F t = F u + (F v - F u) / (v - u) * (t - u))
    (b y : ℚ) (hb : (a :: l).getLast? = some b) (h1 : F a ≤ y) (h2 : y ≤ F b) :
    F (interp (((a :: l).map F).zip (a :: l)) y) = y := by
  induction l generalizing a with
  | nil =>
    simp only [List.getLast?_singleton, Option.some.injEq] at hb
    subst hb
    simp only [List.map_cons, List.map_nil, List.zip_cons_cons, List.zip_nil_left, interp]
    exact le_antisymm h1 h2
  | cons r l ih =>
    have hs' := (List.pairwise_cons.1 hs).2
    have har : a < r := (List.pairwise_cons.1 hs).1 r (by simp)
    simp only [List.map_cons, List.zip_cons_cons]
    rw [interp, if_neg (by simpa using h1)]
    simp only
    by_cases hy : y < F r
    · rw [if_pos hy]
      have hd : 0 < F r - F a := by linarith
      have hno : ∀ e ∈ a :: r :: l, e ≤ a ∨ r ≤ e := by
        intro e he
        rcases List.mem_cons.1 he with rfl | he
        · exact Or.inl (le_refl _)
        · rcases List.mem_cons.1 he with rfl | he
          · exact Or.inr (le_refl _)
          · exact Or.inr ((List.pairwise_cons.1 hs').1 e he).le
      set t := a + (r - a) / (F r - F a) * (y - F a) with ht
      have hta : a ≤ t := by
        have : 0 ≤ (r - a) / (F r - F a) * (y - F a) :=
          mul_nonneg (div_nonneg (by linarith) hd.le) (by linarith)
        linarith
      have htr : t ≤ r := interp_segment (F a, a) (F r, r) y har.le h1 hy
      rw [hlin a r t (by simp) (by simp) hno hta htr har]
      have hra : r - a ≠ 0 := by linarith
      have : t - a = (r - a) / (F r - F a) * (y - F a) := by rw [ht]; ring
      rw [this]
      field_simp
      ring
    · rw [if_neg hy]
      push Not at hy
      have := ih r hs' (by
        intro u v t hu hv hno hut htv huv
        refine hlin u v t (List.mem_cons_of_mem _ hu) (List.mem_cons_of_mem _ hv) ?_ hut htv huv
        intro e he
        rcases List.mem_cons.1 he with rfl | he
        · left
          rcases List.mem_cons.1 hu with rfl | hu
          · exact har.le
          · exact le_trans har.le ((List.pairwise_cons.1 hs').1 u hu).le
        · exact hno e he) (by rwa [List.getLast?_cons_cons] at hb) hy
      simpa only [List.map_cons, List.zip_cons_cons] using this

end Verif.Histogram
