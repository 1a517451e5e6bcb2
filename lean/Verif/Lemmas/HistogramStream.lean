import Verif.Lemmas.HistogramMode

namespace Verif.Histogram

open Verif Verif.HistSpec

/-! ## Smallest and largest value -/

theorem foldl_min_spec (vs : List ℚ) (a : ℚ) :
    vs.foldl min a ≤ a ∧ (∀ v ∈ vs, vs.foldl min a ≤ v) ∧ (vs.foldl min a = a ∨ vs.foldl min a ∈ vs) := by
  induction vs generalizing a with
  | nil => simp
  | cons x vs ih =>
    obtain ⟨h1, h2, h3⟩ := ih (min a x)
    simp only [List.foldl_cons]
    refine ⟨le_trans h1 (min_le_left _ _), ?_, ?_⟩
    · intro v hv
      rcases List.mem_cons.1 hv with rfl | hv
      · exact le_trans h1 (min_le_right _ _)
      · exact h2 v hv
    · rcases h3 with h3 | h3
      · rw [h3]
        rcases min_choice a x with h | h
        · exact Or.inl h
        · exact Or.inr (by rw [h]; simp)
      · exact Or.inr (List.mem_cons_of_mem _ h3)

theorem foldl_max_spec (vs : List ℚ) (a : ℚ) :
    a ≤ vs.foldl max a ∧ (∀ v ∈ vs, v ≤ vs.foldl max a) ∧ (vs.foldl max a = a ∨ vs.foldl max a ∈ vs) := by
  induction vs generalizing a with
  | nil => simp
  | cons x vs ih =>
    obtain ⟨h1, h2, h3⟩ := ih (max a x)
    simp only [List.foldl_cons]
    refine ⟨le_trans (le_max_left _ _) h1, ?_, ?_⟩
    · intro v hv
      rcases List.mem_cons.1 hv with rfl | hv
      · exact le_trans (le_max_right _ _) h1
      · exact h2 v hv
    · rcases h3 with h3 | h3
      · rw [h3]
        rcases max_choice a x with h | h
        · exact Or.inl h
        · exact Or.inr (by rw [h]; simp)
      · exact Or.inr (List.mem_cons_of_mem _ h3)

/-- `x` is the smallest element of `vs`. -/
def Least (x : ℚ) (vs : List ℚ) : Prop := x ∈ vs ∧ ∀ v ∈ vs, x ≤ v

/-- `x` is the largest element of `vs`. -/
def Greatest (x : ℚ) (vs : List ℚ) : Prop := x ∈ vs ∧ ∀ v ∈ vs, v ≤ x

theorem lo_least (vs : List ℚ) (h : vs ≠ []) : Least (vs.foldl min (vs.headD 0)) vs := by
  cases vs with
  | nil => exact absurd rfl h
  | cons x vs =>
    obtain ⟨_, h2, h3⟩ := foldl_min_spec (x :: vs) x
    refine ⟨?_, h2⟩
    rcases h3 with h3 | h3
    · simp only [List.headD_cons]; rw [h3]; simp
    · exact h3

theorem hi_greatest (vs : List ℚ) (h : vs ≠ []) : Greatest (vs.foldl max (vs.headD 0)) vs := by
  cases vs with
  | nil => exact absurd rfl h
  | cons x vs =>
    obtain ⟨_, h2, h3⟩ := foldl_max_spec (x :: vs) x
    refine ⟨?_, h2⟩
    rcases h3 with h3 | h3
    · simp only [List.headD_cons]; rw [h3]; simp
    · exact h3

theorem Least.unique {x y : ℚ} {vs : List ℚ} (hx : Least x vs) (hy : Least y vs) : x = y :=
  le_antisymm (hx.2 y hy.1) (hy.2 x hx.1)

theorem Greatest.unique {x y : ℚ} {vs : List ℚ} (hx : Greatest x vs) (hy : Greatest y vs) : x = y :=
  le_antisymm (hy.2 x hx.1) (hx.2 y hy.1)

/-! ## Binning values -/

theorem countP_split (vs : List ℚ) (a b l : ℚ) (hab : a ≤ b) (hbl : b ≤ l) :
    (vs.countP fun v => decide (a ≤ v ∧ v < b)) + (vs.countP fun v => decide (b ≤ v ∧ v ≤ l)) =
      vs.countP fun v => decide (a ≤ v ∧ v ≤ l) := by
  induction vs with
  | nil => rfl
  | cons v vs ihv =>
    simp only [List.countP_cons, decide_eq_true_eq]
    have : (if a ≤ v ∧ v < b then 1 else 0) + (if b ≤ v ∧ v ≤ l then 1 else 0) =
        if a ≤ v ∧ v ≤ l then 1 else 0 := by
      by_cases h1 : v < b
      · have h2 : ¬ b ≤ v := not_le.2 h1
        have h3 : v ≤ l := by linarith
        simp [h1, h2, h3]
      · have h2 : b ≤ v := not_lt.1 h1
        have h3 : a ≤ v := by linarith
        simp [h1, h2, h3]
    omega

theorem binValues_sum (vs : List ℚ) (a b : ℚ) (es : List ℚ) (l : ℚ)
    (hs : (a :: b :: es).Pairwise (· ≤ ·)) (hl : (a :: b :: es).getLast? = some l) :
    (binValues vs (a :: b :: es)).sum = vs.countP fun v => decide (a ≤ v ∧ v ≤ l) := by
  induction es generalizing a b with
  | nil =>
    simp only [List.getLast?_cons_cons, List.getLast?_singleton, Option.some.injEq] at hl
    subst hl
    simp [binValues]
  | cons c es ih =>
    have hs' := (List.pairwise_cons.1 hs).2
    have hab : a ≤ b := (List.pairwise_cons.1 hs).1 b (by simp)
    have hl' : (b :: c :: es).getLast? = some l := by rwa [List.getLast?_cons_cons] at hl
    have hbl : b ≤ l := by
      rcases List.mem_cons.1 (List.mem_of_getLast? hl') with h | h
      · rw [h]
      · exact (List.pairwise_cons.1 hs').1 l h
    rw [binValues, List.sum_cons, ih b c hs' hl']
    exact countP_split vs a b l hab hbl

theorem binValues_length (vs : List ℚ) (es : List ℚ) (h : es ≠ []) :
    es.length = (binValues vs es).length + 1 := by
  match es with
  | [] => exact absurd rfl h
  | [_] => rfl
  | [_, _] => rfl
  | a :: b :: c :: es =>
    rw [binValues]
    have := binValues_length vs (b :: c :: es) (by simp)
    simp only [List.length_cons] at this ⊢
    omega

/-- The count of each bin, spelled out. -/
theorem binValues_get (vs : List ℚ) (es : List ℚ) (i : ℕ) (a b : ℚ) (ha : es[i]? = some a)
    (hb : es[i + 1]? = some b) :
    (binValues vs es)[i]? = some (vs.countP fun v =>
      decide (a ≤ v ∧ (if i + 2 = es.length then v ≤ b else v < b))) := by
  match es with
  | [] => simp at ha
  | [_] => simp at hb
  | [x, y] =>
    have hi : i = 0 := by
      have := (List.getElem?_eq_some_iff.1 hb).1
      simp at this; omega
    subst hi
    simp only [List.getElem?_cons_zero, Option.some.injEq, zero_add, List.getElem?_cons_succ] at ha hb
    subst ha hb
    simp [binValues]
  | x :: y :: z :: es =>
    rw [binValues]
    cases i with
    | zero =>
      simp only [List.getElem?_cons_zero, Option.some.injEq, zero_add, List.getElem?_cons_succ] at ha hb
      subst ha hb
      simp
    | succ i =>
      simp only [List.getElem?_cons_succ] at ha hb ⊢
      rw [binValues_get vs (y :: z :: es) i a b (by simpa using ha) (by simpa using hb)]
      simp [List.length_cons]

/-! ## Expanding a histogram -/

theorem expand_length (cs : List ℕ) (es : List ℚ) (h : es.length = cs.length + 1) :
    (expand cs es).length = cs.sum := by
  induction cs generalizing es with
  | nil => simp [expand]
  | cons c cs ih =>
    match cs, es, h with
    | [], [a, b], _ =>
      simp only [expand, List.length_append, List.length_replicate, List.sum_cons, List.sum_nil]
      omega
    | d :: cs, a :: es, h =>
      rw [expand]
      · rw [List.length_append, List.length_replicate, ih es (by simpa using h)]; simp
      · simp

theorem expand_mem (cs : List ℕ) (es : List ℚ) (x : ℚ) (hx : x ∈ expand cs es) : x ∈ es := by
  induction cs generalizing es with
  | nil => simp [expand] at hx
  | cons c cs ih =>
    match cs, es, hx with
    | _, [], hx => simp [expand] at hx
    | [], [a, b], hx =>
      simp only [expand, List.mem_append, List.mem_replicate] at hx
      rcases hx with ⟨_, rfl⟩ | ⟨_, rfl⟩ <;> simp
    | [], [a], hx =>
      simp only [expand, List.mem_replicate, List.append_nil] at hx
      simp [hx.2]
    | [], a :: b :: c' :: es, hx =>
      simp only [expand, List.mem_replicate, List.append_nil] at hx
      simp [hx.2]
    | d :: cs, a :: es, hx =>
      rw [expand] at hx
      · rcases List.mem_append.1 hx with h | h
        · simp only [List.mem_replicate] at h; simp [h.2]
        · exact List.mem_cons_of_mem _ (ih es h)
      · simp

theorem expand_head_mem (c d : ℕ) (cs : List ℕ) (a : ℚ) (es : List ℚ) (hc : 0 < c) :
    a ∈ expand (c :: d :: cs) (a :: es) := by
  rw [expand]
  · apply List.mem_append_left
    simp only [List.mem_replicate, and_true]; omega
  · simp

theorem expand_last_mem (cs : List ℕ) (es : List ℚ) (h : es.length = cs.length + 1) (c : ℕ) (l : ℚ)
    (hc : cs.getLast? = some c) (hpos : 0 < c) (hl : es.getLast? = some l) : l ∈ expand cs es := by
  induction cs generalizing es with
  | nil => simp at hc
  | cons c' cs ih =>
    match cs, es, h with
    | [], [a, b], _ =>
      simp only [List.getLast?_singleton, Option.some.injEq] at hc
      subst hc
      simp only [List.getLast?_cons_cons, List.getLast?_singleton, Option.some.injEq] at hl
      subst hl
      simp only [expand]
      apply List.mem_append_right
      simp only [List.mem_replicate, and_true]; omega
    | d :: cs, a :: b :: es, h =>
      rw [expand]
      · apply List.mem_append_right
        exact ih (b :: es) (by simpa using h) (by rwa [List.getLast?_cons_cons] at hc)
          (by rwa [List.getLast?_cons_cons] at hl)
      · simp

/-! ## The stored histogram as a stand-in for the values seen -/

/-- What the stored histogram retains: total, outer edges, and that re-expanding it keeps both. -/
structure Retains (h : IHist) (n : ℕ) (lo hi : ℚ) : Prop where
  len : h.edges.length = h.counts.length + 1
  total : h.counts.sum = n
  head : h.edges.head? = some lo
  last : h.edges.getLast? = some hi
  sorted : h.edges.Pairwise (· ≤ ·)
  loMem : lo ∈ expand h.counts h.edges
  hiMem : hi ∈ expand h.counts h.edges

theorem Retains.bounds {h : IHist} {n : ℕ} {lo hi : ℚ} (r : Retains h n lo hi) :
    ∀ e ∈ h.edges, lo ≤ e ∧ e ≤ hi := by
  intro e he
  have hs := r.sorted
  have h1 := r.head
  have h2 := r.last
  constructor
  · cases hE : h.edges with
    | nil => rw [hE] at he; simp at he
    | cons a es =>
      rw [hE] at h1 hs he
      simp only [List.head?_cons, Option.some.injEq] at h1
      subst h1
      rcases List.mem_cons.1 he with rfl | he
      · exact le_refl _
      · exact (List.pairwise_cons.1 hs).1 e he
  · have hne : h.edges ≠ [] := fun h0 => by rw [h0] at he; simp at he
    rw [List.getLast?_eq_some_getLast hne, Option.some.injEq] at h2
    obtain ⟨i, hi', rfl⟩ := List.getElem_of_mem he
    rw [← h2, List.getLast_eq_getElem]
    rcases Nat.lt_or_ge i (h.edges.length - 1) with hlt | hge
    · exact List.pairwise_iff_getElem.1 hs i _ hi' (by omega) hlt
    · have : i = h.edges.length - 1 := by omega
      subst this; exact le_refl _

theorem linspace_lt (a b : ℚ) (n : ℕ) (hn : 0 < n) (hab : a < b) (i j : ℕ) (hij : i < j) :
    a + (i : ℚ) * ((b - a) / n) < a + (j : ℚ) * ((b - a) / n) := by
  have h1 : 0 < (b - a) / n := div_pos (by linarith) (by exact_mod_cast hn)
  have h2 : (i : ℚ) < j := by exact_mod_cast hij
  nlinarith

theorem getHistogram_retains (vs : List ℚ) (n : ℕ) (hn : 0 < n) (hne : vs ≠ []) (lo hi : ℚ)
    (hlo : Least lo vs) (hhi : Greatest hi vs) : Retains (getHistogram vs n) vs.length lo hi := by
  have e1 := (lo_least vs hne).unique hlo
  have e2 := (hi_greatest vs hne).unique hhi
  unfold getHistogram
  rw [e1, e2]
  simp only
  have hpos : 0 < vs.length := List.length_pos_iff.2 hne
  split_ifs with heq
  · subst heq
    refine ⟨rfl, by simp, rfl, rfl, by simp, ?_, ?_⟩
    · exact expand_last_mem [vs.length] [lo, lo] rfl vs.length lo rfl hpos rfl
    · exact expand_last_mem [vs.length] [lo, lo] rfl vs.length lo rfl hpos rfl
  · have hlt : lo < hi := lt_of_le_of_ne (hlo.2 hi hhi.1) heq
    have hlen := linspace_length lo hi n
    have hsorted := linspace_sorted lo hi n hlt.le
    have hhead := linspace_head lo hi n
    have hlast := linspace_last lo hi n hn
    have hes : linspace lo hi n ≠ [] := by
      intro h; rw [h] at hlen; simp at hlen
    have hblen := binValues_length vs (linspace lo hi n) hes
    have hcl : (binValues vs (linspace lo hi n)).length = n := by omega
    have hsum : (binValues vs (linspace lo hi n)).sum = vs.length := by
      obtain ⟨a, b, es, hE⟩ : ∃ a b es, linspace lo hi n = a :: b :: es := by
        match hE : linspace lo hi n, hlen with
        | a :: b :: es, _ => exact ⟨a, b, es, rfl⟩
        | [_], h => simp at h; omega
      rw [hE] at hsorted hlast hhead ⊢
      simp only [List.head?_cons, Option.some.injEq] at hhead
      subst hhead
      rw [binValues_sum vs a b es hi hsorted hlast, List.countP_eq_length]
      intro v hv
      simp [hlo.2 v hv, hhi.2 v hv]
    -- the first and the last bin are occupied
    have hfirst : ∀ c, (binValues vs (linspace lo hi n))[0]? = some c → 0 < c := by
      intro c hc
      have hg := binValues_get vs (linspace lo hi n) 0 _ _ (linspace_get lo hi n 0 (Nat.zero_le _))
        (linspace_get lo hi n 1 hn)
      rw [hg] at hc
      simp only [Option.some.injEq] at hc
      rw [← hc]
      apply List.countP_pos_iff.2
      refine ⟨lo, hlo.1, ?_⟩
      have := linspace_lt lo hi n hn hlt 0 1 Nat.zero_lt_one
      simp only [Nat.cast_zero, zero_mul, add_zero] at this
      simp only [Nat.cast_zero, zero_mul, add_zero, le_refl, true_and, decide_eq_true_eq]
      split_ifs
      · exact this.le
      · exact this
    have hlastc : ∀ c, (binValues vs (linspace lo hi n))[n - 1]? = some c → 0 < c := by
      intro c hc
      have hg := binValues_get vs (linspace lo hi n) (n - 1) _ _
        (linspace_get lo hi n (n - 1) (by omega)) (linspace_get lo hi n (n - 1 + 1) (by omega))
      rw [hg] at hc
      simp only [Option.some.injEq] at hc
      rw [← hc]
      apply List.countP_pos_iff.2
      refine ⟨hi, hhi.1, ?_⟩
      have h2 : n - 1 + 1 = n := by omega
      have h3 : n - 1 + 2 = (linspace lo hi n).length := by rw [hlen]; omega
      have hnq : (n : ℚ) ≠ 0 := by exact_mod_cast hn.ne'
      have hend : lo + (n : ℚ) * ((hi - lo) / n) = hi := by field_simp; ring
      simp only [h2, if_pos h3, hend, le_refl, and_true, decide_eq_true_eq]
      have := linspace_lt lo hi n hn hlt (n - 1) n (by omega)
      rw [hend] at this
      exact this.le
    refine ⟨by simpa using hblen, hsum, hhead, hlast, hsorted, ?_, ?_⟩
    · have hmain : ∀ (B : List ℕ) (E : List ℚ), E.length = n + 1 → B.length = n → E.head? = some lo →
          B.sum = vs.length → (∀ c, B[0]? = some c → 0 < c) → lo ∈ expand B E := by
        intro B E hE hB hh hs hf
        match B, E, hB, hE, hh, hs, hf with
        | [], _, h, _, _, _, _ => simp at h; omega
        | [c], [a, b], _, _, hh, hs, _ =>
          simp only [List.head?_cons, Option.some.injEq] at hh
          subst hh
          simp only [List.sum_cons, List.sum_nil, add_zero] at hs
          simp only [expand]
          apply List.mem_append_left
          have h2 : 2 ≤ c := by
            by_contra hcon
            have : vs.length = 1 := by omega
            obtain ⟨x, hx⟩ := List.length_eq_one_iff.1 this
            have ha := hlo.1
            have hb := hhi.1
            rw [hx] at ha hb
            simp only [List.mem_singleton] at ha hb
            exact heq (ha.trans hb.symm)
          simp only [List.mem_replicate, and_true]; omega
        | [c], [], h1, h2, _, _, _ => simp at h2
        | [c], [_], h1, h2, _, _, _ => simp at h1 h2; omega
        | [c], _ :: _ :: _ :: _, h1, h2, _, _, _ => simp at h1 h2; omega
        | c :: d :: cs, a :: es, _, _, hh, _, hf =>
          simp only [List.head?_cons, Option.some.injEq] at hh
          subst hh
          exact expand_head_mem c d cs a es (hf c rfl)
        | c :: d :: cs, [], _, h, _, _, _ => simp at h
      exact hmain _ _ hlen hcl hhead hsum hfirst
    · have hcne : binValues vs (linspace lo hi n) ≠ [] := by
        intro h; rw [h] at hcl; simp at hcl; omega
      refine expand_last_mem _ _ hblen ((binValues vs (linspace lo hi n)).getLast hcne) hi
        (List.getLast?_eq_some_getLast hcne) ?_ hlast
      apply hlastc
      rw [List.getLast_eq_getElem, List.getElem?_eq_getElem (by omega)]
      simp [hcl]

/-- A value that `np.round` leaves alone. -/
def IsInt (x : ℚ) : Prop := ∃ z : ℤ, x = z

theorem toArray_spec (h : IHist) (n : ℕ) (lo hi : ℚ) (r : Retains h n lo hi) (isFloat : Bool)
    (hint : isFloat = false → IsInt lo ∧ IsInt hi) :
    (toArray h isFloat).length = n ∧ Least lo (toArray h isFloat) ∧ Greatest hi (toArray h isFloat) := by
  have hlen := expand_length h.counts h.edges r.len
  have hb : ∀ x ∈ expand h.counts h.edges, lo ≤ x ∧ x ≤ hi := fun x hx =>
    r.bounds x (expand_mem _ _ _ hx)
  unfold toArray
  cases isFloat with
  | true =>
    simp only [if_true]
    refine ⟨by rw [hlen, r.total], ⟨r.loMem, fun v hv => (hb v hv).1⟩, ⟨r.hiMem, fun v hv => (hb v hv).2⟩⟩
  | false =>
    obtain ⟨⟨zl, rfl⟩, ⟨zh, rfl⟩⟩ := hint rfl
    simp only [Bool.false_eq_true, if_false]
    refine ⟨by rw [List.length_map, hlen, r.total], ⟨?_, ?_⟩, ⟨?_, ?_⟩⟩
    · exact List.mem_map.2 ⟨_, r.loMem, by rw [pyRound_int]⟩
    · intro v hv
      obtain ⟨x, hx, rfl⟩ := List.mem_map.1 hv
      exact_mod_cast le_pyRound zl x (hb x hx).1
    · exact List.mem_map.2 ⟨_, r.hiMem, by rw [pyRound_int]⟩
    · intro v hv
      obtain ⟨x, hx, rfl⟩ := List.mem_map.1 hv
      exact_mod_cast pyRound_le zh x (hb x hx).2

theorem Least.append {x y : ℚ} {a b : List ℚ} (hx : Least x a) (hy : Least y b) :
    Least (min x y) (a ++ b) := by
  refine ⟨?_, ?_⟩
  · rcases min_choice x y with h | h
    · rw [h]; exact List.mem_append_left _ hx.1
    · rw [h]; exact List.mem_append_right _ hy.1
  · intro v hv
    rcases List.mem_append.1 hv with h | h
    · exact le_trans (min_le_left _ _) (hx.2 v h)
    · exact le_trans (min_le_right _ _) (hy.2 v h)

theorem Greatest.append {x y : ℚ} {a b : List ℚ} (hx : Greatest x a) (hy : Greatest y b) :
    Greatest (max x y) (a ++ b) := by
  refine ⟨?_, ?_⟩
  · rcases max_choice x y with h | h
    · rw [h]; exact List.mem_append_left _ hx.1
    · rw [h]; exact List.mem_append_right _ hy.1
  · intro v hv
    rcases List.mem_append.1 hv with h | h
    · exact le_trans (hx.2 v h) (le_max_left _ _)
    · exact le_trans (hy.2 v h) (le_max_right _ _)

/-- The state after some batches with values `data`. -/
def Tracks (s : Stored) (data : List ℚ) : Prop :=
  (data = [] ∧ s = .absent) ∨
  (∃ h lo hi, s = .ints h ∧ Retains h data.length lo hi ∧ Least lo data ∧ Greatest hi data)

theorem tracks_update (isFloat : Bool) (s : Stored) (data batch : List ℚ) (n : ℕ) (hn : 0 < n)
    (hint : isFloat = false → ∀ v ∈ data ++ batch, IsInt v) (h : Tracks s data) :
    Tracks (updateSafely isFloat s batch n) (data ++ batch) := by
  unfold updateSafely updateHistogram
  by_cases hb : batch = []
  · subst hb; simpa using h
  · have hbe : batch.isEmpty = false := by cases batch <;> simp_all
    rw [hbe]
    simp only [Bool.false_eq_true, if_false]
    right
    rcases h with ⟨rfl, rfl⟩ | ⟨h, lo, hi, rfl, hr, hlo, hhi⟩
    · refine ⟨_, _, _, rfl, ?_, by simpa using lo_least batch hb, by simpa using hi_greatest batch hb⟩
      simpa using getHistogram_retains batch n hn hb _ _ (lo_least batch hb) (hi_greatest batch hb)
    · obtain ⟨t1, t2, t3⟩ := toArray_spec h data.length lo hi hr isFloat (fun hf =>
        ⟨hint hf lo (List.mem_append_left _ hlo.1), hint hf hi (List.mem_append_left _ hhi.1)⟩)
      have hA := (lo_least batch hb).append t2
      have hB := (hi_greatest batch hb).append t3
      have hA' := hlo.append (lo_least batch hb)
      have hB' := hhi.append (hi_greatest batch hb)
      rw [min_comm] at hA'
      rw [max_comm] at hB'
      refine ⟨_, _, _, rfl, ?_, hA', hB'⟩
      have := getHistogram_retains (batch ++ toArray h isFloat) n hn (by simp [hb]) _ _ hA hB
      rw [List.length_append, t1] at this
      rw [List.length_append, Nat.add_comm]
      exact this

theorem tracks_run (isFloat : Bool) (s : Stored) (data : List ℚ) (bs : List (List ℚ × ℕ))
    (hn : ∀ b ∈ bs, 0 < b.2)
    (hint : isFloat = false → ∀ v ∈ data ++ (bs.map Prod.fst).flatten, IsInt v) (h : Tracks s data) :
    Tracks (runUpdates isFloat s bs) (data ++ (bs.map Prod.fst).flatten) := by
  induction bs generalizing s data with
  | nil => simpa [runUpdates] using h
  | cons b bs ih =>
    obtain ⟨b, n⟩ := b
    simp only [runUpdates, List.map_cons, List.flatten_cons, ← List.append_assoc]
    refine ih _ _ (fun x hx => hn x (List.mem_cons_of_mem _ hx)) ?_ ?_
    · simpa using hint
    · refine tracks_update isFloat s data b n (hn (b, n) (by simp)) ?_ h
      intro hf v hv
      apply hint hf v
      simp only [List.map_cons, List.flatten_cons, List.mem_append] at hv ⊢
      tauto

end Verif.Histogram
