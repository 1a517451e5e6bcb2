import Mathlib.Tactic.Linarith
import Mathlib.Tactic.Ring
import Mathlib.Tactic.FieldSimp
import Mathlib.Tactic.Positivity
import Mathlib.Tactic.NormNum
import Mathlib.Algebra.Order.Floor.Ring
import Verif.Model.Histogram
import Verif.Spec.Histogram

namespace Verif.Histogram

open Verif Verif.HistSpec

/-! ## Rounding -/

theorem le_pyRound (a : ℤ) (x : ℚ) (h : (a : ℚ) ≤ x) : a ≤ pyRound x := by
  have := Int.le_floor.2 h
  unfold pyRound
  split_ifs <;> omega

theorem pyRound_le (b : ℤ) (x : ℚ) (h : x ≤ (b : ℚ)) : pyRound x ≤ b := by
  have h1 : ⌊x⌋ ≤ b := by
    have := Int.floor_le x
    have : ((⌊x⌋ : ℤ) : ℚ) ≤ (b : ℚ) := le_trans this h
    exact_mod_cast this
  unfold pyRound
  split_ifs with h2 h3 h4
  · exact h1
  · by_contra hc
    have : ⌊x⌋ = b := by omega
    rw [this] at h3; linarith
  · exact h1
  · by_contra hc
    have : ⌊x⌋ = b := by omega
    rw [this] at h2; linarith

theorem pyRound_int (a : ℤ) : pyRound (a : ℚ) = a := by
  simp [pyRound]

/-! ## Writing into an array -/

theorem take_sum_set (l : List ℚ) (k : ℕ) (y x : ℚ) (h : l[k]? = some y) (j : ℕ) :
    ((l.set k (y + x)).take j).sum = (l.take j).sum + if k < j then x else 0 := by
  induction l generalizing k j with
  | nil => simp at h
  | cons a l ih =>
    cases j with
    | zero => simp
    | succ j =>
      cases k with
      | zero =>
        simp only [List.getElem?_cons_zero, Option.some.injEq] at h
        subst h
        simp; ring
      | succ k =>
        simp only [List.getElem?_cons_succ] at h
        simp only [List.set_cons_succ, List.take_succ_cons, List.sum_cons, ih k h j,
          Nat.add_lt_add_iff_right]
        ring

theorem sum_set (l : List ℚ) (k : ℕ) (y x : ℚ) (h : l[k]? = some y) :
    (l.set k (y + x)).sum = l.sum + x := by
  have hk : k < l.length := (List.getElem?_eq_some_iff.1 h).1
  have := take_sum_set l k y x h l.length
  rw [if_pos hk] at this
  rw [List.take_of_length_le (by simp), List.take_length] at this
  exact this

theorem addAt_ok (l : List ℚ) (k : ℕ) (x : ℚ) (hk : k < l.length) :
    ∃ y l', l[k]? = some y ∧ addAt l k x = .ok l' ∧ l' = l.set k (y + x) := by
  refine ⟨l[k], l.set k (l[k] + x), List.getElem?_eq_getElem hk, ?_, rfl⟩
  simp [addAt, List.getElem?_eq_getElem hk]

theorem idx_ok {α : Type} (l : List α) (k : ℕ) (hk : k < l.length) : idx l k = .ok l[k] := by
  simp [idx, List.getElem?_eq_getElem hk]

theorem idx_ok' {α : Type} (l : List α) (k : ℕ) (y : α) (h : l[k]? = some y) : idx l k = .ok y := by
  simp [idx, h]

/-! ## The search for the destination bin -/

theorem advance_spec (d : List ℚ) (n : ℕ) (e0 : ℚ) (k : ℕ) (hd : d.length = n + 1) (hk : k < n) :
    ∃ k', advance d n e0 k = .ok k' ∧ k ≤ k' ∧ k' < n ∧
      (k' = k ∨ ∃ l, d[k']? = some l ∧ l ≤ e0) ∧
      (k' + 1 = n ∨ ∃ r, d[k' + 1]? = some r ∧ e0 < r) := by
  induction hm : n - k generalizing k with
  | zero => omega
  | succ m ih =>
    rw [advance]
    have hlt : k + 1 < d.length := by omega
    rw [List.getElem?_eq_getElem hlt]
    simp only
    split_ifs with hc
    · obtain ⟨k', h1, h2, h3, h4, h5⟩ := ih (k + 1) hc.2 (by omega)
      refine ⟨k', h1, by omega, h3, ?_, h5⟩
      rcases h4 with rfl | h4
      · exact Or.inr ⟨_, List.getElem?_eq_getElem hlt, hc.1⟩
      · exact Or.inr h4
    · refine ⟨k, rfl, Nat.le_refl _, hk, Or.inl rfl, ?_⟩
      by_cases h : k + 1 = n
      · exact Or.inl h
      · refine Or.inr ⟨_, List.getElem?_eq_getElem hlt, ?_⟩
        have : ¬ d[k + 1] ≤ e0 := fun hh => hc ⟨hh, by omega⟩
        linarith

theorem _root_.Verif.HistSpec.Whole.add {a b : ℚ} (ha : Whole a) (hb : Whole b) : Whole (a + b) := by
  obtain ⟨m, rfl⟩ := ha
  obtain ⟨n, rfl⟩ := hb
  exact ⟨m + n, by push_cast; ring⟩

theorem _root_.Verif.HistSpec.Whole.nonneg {a : ℚ} (ha : Whole a) : 0 ≤ a := by
  obtain ⟨m, rfl⟩ := ha
  positivity

/-- The number put in the left bin is whole and at most the count. -/
theorem left_whole (c e0 e1 r : ℚ) (hc : Whole c) (h0 : e0 < r) (h1 : r ≤ e1) :
    Whole (pyRound (c * ((r - e0) / (e1 - e0))) : ℚ) ∧
    Whole (c - (pyRound (c * ((r - e0) / (e1 - e0))) : ℚ)) := by
  obtain ⟨m, rfl⟩ := hc
  have hpos : 0 < e1 - e0 := by linarith
  have hp0 : 0 ≤ (r - e0) / (e1 - e0) := div_nonneg (by linarith) hpos.le
  have hp1 : (r - e0) / (e1 - e0) ≤ 1 := (div_le_one hpos).2 (by linarith)
  have hm : (0 : ℚ) ≤ m := by positivity
  have hge : (0 : ℤ) ≤ pyRound (m * ((r - e0) / (e1 - e0))) :=
    le_pyRound 0 _ (by push_cast; exact mul_nonneg hm hp0)
  have hle : pyRound (m * ((r - e0) / (e1 - e0))) ≤ (m : ℤ) :=
    pyRound_le _ _ (by push_cast; nlinarith)
  generalize pyRound (m * ((r - e0) / (e1 - e0))) = z at hge hle
  obtain ⟨z', rfl⟩ := Int.eq_ofNat_of_zero_le hge
  refine ⟨⟨z', by simp⟩, ⟨m - z', ?_⟩⟩
  have : z' ≤ m := by exact_mod_cast hle
  push_cast [Nat.cast_sub this]
  ring

theorem whole_set {l : List ℚ} (hl : ∀ x ∈ l, Whole x) (k : ℕ) (y x : ℚ) (h : l[k]? = some y)
    (hx : Whole x) : ∀ z ∈ l.set k (y + x), Whole z := by
  intro z hz
  rcases List.mem_or_eq_of_mem_set hz with h1 | h1
  · exact hl z h1
  · subst h1
    exact (hl y (List.mem_of_getElem? h)).add hx

/-- What one iteration of the loop does to the destination. -/
theorem aStep_spec (d : List ℚ) (n : ℕ) (e0 e1 c : ℚ) (s : AState)
    (hd : d.length = n + 1) (hs : s.dest.length = n) (hk : s.newId < n) :
    ∃ s', aStep d n e0 e1 c s = .ok s' ∧ s'.dest.length = n ∧ s'.newId < n ∧
      s'.dest.sum = s.dest.sum + c ∧
      (Whole c → (∀ x ∈ s.dest, Whole x) → ∀ x ∈ s'.dest, Whole x) ∧
      (Whole c → 0 ≤ s.loss → 0 ≤ s'.loss) ∧
      (d.Pairwise (· ≤ ·) → e0 ≤ e1 → Whole c →
        (s.newId = 0 ∨ ∃ l, d[s.newId]? = some l ∧ l ≤ e0) →
        ((s'.newId = 0 ∨ ∃ l, d[s'.newId]? = some l ∧ l ≤ e1) ∧
          ∀ j x, 0 < j → j < n → d[j]? = some x →
            (if e1 < x then c else 0) ≤ (s'.dest.take j).sum - (s.dest.take j).sum ∧
            (s'.dest.take j).sum - (s.dest.take j).sum ≤ (if e0 < x then c else 0))) := by
  unfold aStep
  split_ifs with hc0
  · subst hc0
    refine ⟨s, rfl, hs, hk, by simp, fun _ h => h, fun _ h => h, ?_⟩
    intro _ hle _ h
    refine ⟨?_, by intro j x _ _ _; simp⟩
    rcases h with h | ⟨l, h1, h2⟩
    · exact Or.inl h
    · exact Or.inr ⟨l, h1, le_trans h2 hle⟩
  obtain ⟨k, hadv, hkk, hkn, hleft, hright⟩ := advance_spec d n e0 s.newId hd hk
  have hkd : k < d.length := by omega
  have hkd1 : k + 1 < d.length := by omega
  simp only [hadv, bind, Except.bind, place, idx_ok d k hkd, idx_ok d (k + 1) hkd1]
  have mono : d.Pairwise (· ≤ ·) → ∀ (i j : ℕ) a b, i ≤ j → d[i]? = some a → d[j]? = some b → a ≤ b := by
    intro hp i j a b hij ha hb
    obtain ⟨hi, rfl⟩ := List.getElem?_eq_some_iff.1 ha
    obtain ⟨hj, rfl⟩ := List.getElem?_eq_some_iff.1 hb
    rcases Nat.lt_or_ge i j with h | h
    · exact List.pairwise_iff_getElem.1 hp i j hi hj h
    · have : i = j := by omega
      subst this; exact le_refl _
  have hlinv : (s.newId = 0 ∨ ∃ l, d[s.newId]? = some l ∧ l ≤ e0) →
      (k = 0 ∨ ∃ l, d[k]? = some l ∧ l ≤ e0) := by
    intro h
    rcases hleft with h1 | h1
    · rw [h1]; exact h
    · exact Or.inr h1
  by_cases hin : e1 < d[k + 1] ∨ k + 1 = n
  · rw [if_pos hin]
    obtain ⟨y, l', hy, hadd, rfl⟩ := addAt_ok s.dest k c (by omega)
    rw [hadd]
    refine ⟨_, rfl, by simp [hs], hkn, sum_set _ _ _ _ hy, ?_, ?_, ?_⟩
    · intro hw hwl
      exact whole_set hwl k y c hy hw
    · intro hw hl
      have := hw.nonneg
      simp only [midLoss]
      positivity
    · intro hp hle hw hinv
      have hinv' := hlinv hinv
      have hwn := hw.nonneg
      refine ⟨?_, ?_⟩
      · rcases hinv' with h | ⟨l, h1, h2⟩
        · exact Or.inl h
        · exact Or.inr ⟨l, h1, le_trans h2 hle⟩
      · intro j x hj0 hjn hx
        rw [take_sum_set _ _ _ _ hy]
        have hA : e1 < x → k < j := by
          intro hlt
          rcases hinv' with rfl | ⟨l, h1, h2⟩
          · exact hj0
          · by_contra hge
            have := mono hp j k x l (by omega) hx h1
            linarith
        have hB : k < j → e0 < x := by
          intro hkj
          rcases hright with h | ⟨r, h1, h2⟩
          · omega
          · have := mono hp (k + 1) j r x hkj h1 hx
            linarith
        constructor
        · split_ifs with h1 h2 <;> first | linarith | (exact absurd (hA h1) h2)
        · split_ifs with h1 h2 <;> first | linarith | (exact absurd (hB h1) h2)
  · rw [if_neg hin]
    push Not at hin
    obtain ⟨hge, hnl⟩ := hin
    have hr : e0 < d[k + 1] := by
      rcases hright with h | ⟨r, h1, h2⟩
      · exact absurd h hnl
      · rw [List.getElem?_eq_getElem hkd1] at h1
        cases h1; exact h2
    rw [if_pos hr]
    set r := d[k + 1] with hrdef
    set left : ℚ := (pyRound (c * ((r - e0) / (e1 - e0))) : ℚ) with hleftdef
    obtain ⟨y, l', hy, hadd, hl'⟩ := addAt_ok s.dest k left (by omega)
    obtain ⟨y2, l2, hy2, hadd2, hl2⟩ := addAt_ok l' (k + 1) (c - left) (by
      rw [hl', List.length_set]; omega)
    have hk2 : k + 2 < d.length := by omega
    simp only [straddle, ← hleftdef, hadd, hadd2, idx_ok d (k + 2) hk2, bind, Except.bind]
    refine ⟨_, rfl, ?_, by simp; omega, ?_, ?_, ?_, ?_⟩
    · simp [hl2, hl', hs]
    · simp only
      rw [hl2, sum_set _ _ _ _ hy2, hl', sum_set _ _ _ _ hy]; ring
    · intro hw hwl
      obtain ⟨w1, w2⟩ := left_whole c e0 e1 r hw hr hge
      simp only
      rw [hl2]
      refine whole_set ?_ (k + 1) y2 _ hy2 w2
      rw [hl']
      exact whole_set hwl k y _ hy w1
    · intro hw hl
      obtain ⟨w1, w2⟩ := left_whole c e0 e1 r hw hr hge
      have h1 := w1.nonneg
      have h2 := w2.nonneg
      rw [← hleftdef] at h1 h2
      simp only [midLoss]
      have := mul_nonneg (sq_nonneg ((r + d[k] - (e1 + e0)) / 2)) h1
      have := mul_nonneg (sq_nonneg ((d[k + 2] + r - (e1 + e0)) / 2)) h2
      linarith
    · intro hp hle hw hinv
      have hinv' := hlinv hinv
      obtain ⟨w1, w2⟩ := left_whole c e0 e1 r hw hr hge
      have h1 := w1.nonneg
      have h2 := w2.nonneg
      rw [← hleftdef] at h1 h2
      have hrx : d[k + 1]? = some r := List.getElem?_eq_getElem hkd1
      refine ⟨Or.inr ⟨r, hrx, hge⟩, ?_⟩
      intro j x hj0 hjn hx
      simp only
      rw [hl2, take_sum_set _ _ _ _ hy2, hl', take_sum_set _ _ _ _ hy]
      have hA : e1 < x → k + 1 < j := by
        intro hlt
        by_contra hge'
        have := mono hp j (k + 1) x r (by omega) hx hrx
        linarith
      have hB : k < j → e0 < x := by
        intro hkj
        have := mono hp (k + 1) j r x hkj hrx hx
        linarith
      constructor
      · by_cases h3 : e1 < x
        · have := hA h3
          rw [if_pos h3, if_pos (by omega : k < j), if_pos this]; linarith
        · rw [if_neg h3]
          split_ifs <;> linarith
      · by_cases h3 : k < j
        · rw [if_pos (hB h3), if_pos h3]
          split_ifs <;> linarith
        · rw [if_neg h3, if_neg (by omega : ¬ k + 1 < j)]
          split_ifs
          · linarith
          · linarith

theorem aLoop_cons (d : List ℚ) (n : ℕ) (c : ℚ) (cs : List ℚ) (e0 e1 : ℚ) (es : List ℚ) (s : AState) :
    aLoop d n (c :: cs) (e0 :: e1 :: es) s =
      (aStep d n e0 e1 c s).bind fun s' => aLoop d n cs (e1 :: es) s' := by
  rw [aLoop]; rfl

theorem endingBefore_cons (c : ℚ) (cs : List ℚ) (e0 e1 : ℚ) (es : List ℚ) (x : ℚ) :
    endingBefore (c :: cs) (e0 :: e1 :: es) x =
      (if e1 < x then c else 0) + endingBefore cs (e1 :: es) x := by
  simp only [endingBefore, List.tail_cons, List.zip_cons_cons, List.filter_cons]
  split_ifs <;> simp_all

theorem startingBefore_cons (c : ℚ) (cs : List ℚ) (e0 : ℚ) (es : List ℚ) (x : ℚ) :
    startingBefore (c :: cs) (e0 :: es) x =
      (if e0 < x then c else 0) + startingBefore cs es x := by
  simp only [startingBefore, List.zip_cons_cons, List.filter_cons]
  split_ifs <;> simp_all

theorem startingBy_cons (c : ℚ) (cs : List ℚ) (e0 : ℚ) (es : List ℚ) (x : ℚ) :
    startingBy (c :: cs) (e0 :: es) x =
      (if e0 ≤ x then c else 0) + startingBy cs es x := by
  simp only [startingBy, List.zip_cons_cons, List.filter_cons]
  split_ifs <;> simp_all

/-- The whole loop. -/
theorem aLoop_spec (d : List ℚ) (n : ℕ) (hd : d.length = n + 1) (cs es : List ℚ) (s : AState)
    (hlen : es.length = cs.length + 1) (hs : s.dest.length = n) (hk : s.newId < n) :
    ∃ s', aLoop d n cs es s = .ok s' ∧ s'.dest.length = n ∧
      s'.dest.sum = s.dest.sum + cs.sum ∧
      ((∀ c ∈ cs, Whole c) → (∀ x ∈ s.dest, Whole x) → ∀ x ∈ s'.dest, Whole x) ∧
      ((∀ c ∈ cs, Whole c) → 0 ≤ s.loss → 0 ≤ s'.loss) ∧
      (d.Pairwise (· ≤ ·) → es.Pairwise (· ≤ ·) → (∀ c ∈ cs, Whole c) →
        (s.newId = 0 ∨ ∃ l e, d[s.newId]? = some l ∧ es.head? = some e ∧ l ≤ e) →
        ∀ j x, 0 < j → j < n → d[j]? = some x →
          endingBefore cs es x ≤ (s'.dest.take j).sum - (s.dest.take j).sum ∧
          (s'.dest.take j).sum - (s.dest.take j).sum ≤ startingBefore cs es x) := by
  induction cs generalizing es s with
  | nil =>
    refine ⟨s, by simp [aLoop], hs, by simp, fun _ h => h, fun _ h => h, ?_⟩
    intro _ _ _ _ j x _ _ _
    simp [endingBefore, startingBefore]
  | cons c cs ih =>
    obtain ⟨e0, e1, es', rfl⟩ : ∃ e0 e1 es', es = e0 :: e1 :: es' := by
      match es, hlen with
      | e0 :: e1 :: es', _ => exact ⟨e0, e1, es', rfl⟩
    obtain ⟨s1, h1, h2, h3, h4, h5, h5', h6⟩ := aStep_spec d n e0 e1 c s hd hs hk
    obtain ⟨s2, g1, g2, g3, g4, g4', g5⟩ := ih (e1 :: es') s1 (by simpa using hlen) h2 h3
    refine ⟨s2, ?_, g2, ?_, ?_, ?_, ?_⟩
    · rw [aLoop_cons, h1]; exact g1
    · rw [g3, h4, List.sum_cons]; ring
    · intro hw hwd
      exact g4 (fun x hx => hw x (List.mem_cons_of_mem _ hx))
        (h5 (hw c (by simp)) hwd)
    · intro hw hl
      exact g4' (fun x hx => hw x (List.mem_cons_of_mem _ hx)) (h5' (hw c (by simp)) hl)
    · intro hp hpe hw hinv j x hj0 hjn hx
      have he01 : e0 ≤ e1 := (List.pairwise_cons.1 hpe).1 e1 (by simp)
      have hinv0 : s.newId = 0 ∨ ∃ l, d[s.newId]? = some l ∧ l ≤ e0 := by
        rcases hinv with h | ⟨l, e, ha, hb, hc⟩
        · exact Or.inl h
        · simp only [List.head?_cons, Option.some.injEq] at hb
          subst hb
          exact Or.inr ⟨l, ha, hc⟩
      obtain ⟨k1, k2⟩ := h6 hp he01 (hw c (by simp)) hinv0
      obtain ⟨b1, b2⟩ := k2 j x hj0 hjn hx
      have hinv1 : s1.newId = 0 ∨ ∃ l e, d[s1.newId]? = some l ∧ (e1 :: es').head? = some e ∧ l ≤ e := by
        rcases k1 with h | ⟨l, ha, hb⟩
        · exact Or.inl h
        · exact Or.inr ⟨l, e1, ha, rfl, hb⟩
      obtain ⟨a1, a2⟩ := g5 hp (List.pairwise_cons.1 hpe).2
        (fun x hx => hw x (List.mem_cons_of_mem _ hx)) hinv1 j x hj0 hjn hx
      rw [endingBefore_cons, startingBefore_cons]
      constructor <;> linarith

/-! ## `np.linspace` -/

theorem linspace_length (a b : ℚ) (n : ℕ) : (linspace a b n).length = n + 1 := by
  simp [linspace]

theorem linspace_get (a b : ℚ) (n i : ℕ) (hi : i ≤ n) :
    (linspace a b n)[i]? = some (a + i * ((b - a) / n)) := by
  simp only [linspace, List.getElem?_map]
  rw [List.getElem?_range (by omega)]
  rfl

theorem linspace_sorted (a b : ℚ) (n : ℕ) (h : a ≤ b) : (linspace a b n).Pairwise (· ≤ ·) := by
  unfold linspace
  rw [List.pairwise_map]
  refine List.Pairwise.imp ?_ (List.pairwise_lt_range (n := n + 1))
  intro i j hij
  have h1 : 0 ≤ (b - a) / n := div_nonneg (by linarith) (by positivity)
  have h2 : (i : ℚ) ≤ j := by exact_mod_cast hij.le
  nlinarith

theorem linspace_head (a b : ℚ) (n : ℕ) : (linspace a b n).head? = some a := by
  rw [List.head?_eq_getElem?, linspace_get a b n 0 (Nat.zero_le _)]
  simp

theorem linspace_last (a b : ℚ) (n : ℕ) (hn : 0 < n) : (linspace a b n).getLast? = some b := by
  rw [List.getLast?_eq_getElem?, linspace_length, Nat.add_sub_cancel, linspace_get a b n n (Nat.le_refl _)]
  have : (n : ℚ) ≠ 0 := by positivity
  congr 1
  field_simp
  ring

theorem firstLast_ok (l : List ℚ) (a b : ℚ) (ha : l.head? = some a) (hb : l.getLast? = some b) :
    firstLast l = .ok (a, b) := by
  simp [firstLast, ha, hb]

theorem firstLast_linspace (a b : ℚ) (n : ℕ) (hn : 0 < n) : firstLast (linspace a b n) = .ok (a, b) :=
  firstLast_ok _ _ _ (linspace_head a b n) (linspace_last a b n hn)

end Verif.Histogram
