import Verif.Model.ClassReport
import Verif.Spec.ClassReport
import Verif.Lemmas.PyDict
import Verif.Lemmas.LabelMap
import Verif.Lemmas.Postprocess
import Mathlib.Algebra.BigOperators.Group.List.Basic
import Mathlib.Tactic.SplitIfs
import Mathlib.Tactic.Ring
import Mathlib.Tactic.Linarith
import Mathlib.Tactic.FieldSimp
import Mathlib.Algebra.Order.Field.Rat
import Mathlib.Algebra.Order.Field.Basic
import Mathlib.Data.List.Perm.Basic

/-!
# Lemmas about the evaluation of predictions
-/

namespace Verif.ClassReport

open Verif Verif.Spec.ClassReport

/-! ### Counting -/

theorem count_eq_hits (ts ps : List ℕ) (i j : ℕ) : (ts.zip ps).count (i, j) = hits ts ps i j := by
  induction ts generalizing ps with
  | nil => rfl
  | cons t ts ih =>
    cases ps with
    | nil => rfl
    | cons p ps =>
      rw [List.zip_cons_cons, List.count_cons, ih, hits, Nat.add_comm]
      congr 1
      simp

theorem sum_indicator (n p : ℕ) (h : p < n) (c : ℕ) : ((List.range n).map fun j => if p = j then c else 0).sum = c := by
  induction n with
  | zero => omega
  | succ n ih =>
    rw [List.range_succ, List.map_append, List.sum_append]
    by_cases hp : p = n
    · subst hp
      have : ((List.range p).map fun j => if p = j then c else 0) = (List.range p).map fun _ => 0 := by
        refine List.map_congr_left fun j hj => ?_
        rw [List.mem_range] at hj
        rw [if_neg (by omega)]
      rw [this]
      simp
    · rw [ih (by omega)]
      simp [hp]

theorem row_sum (n i : ℕ) (ts ps : List ℕ) (hl : ts.length = ps.length) (hp : ∀ p ∈ ps, p < n) :
    ((List.range n).map fun j => hits ts ps i j).sum = occ i ts := by
  induction ts generalizing ps with
  | nil => cases ps with
    | nil => simp [hits, occ]
    | cons p ps => simp at hl
  | cons t ts ih =>
    cases ps with
    | nil => simp at hl
    | cons p ps =>
      have h1 : ((List.range n).map fun j => hits (t :: ts) (p :: ps) i j)
          = (List.range n).map fun j => (if p = j then (if t = i then 1 else 0) else 0) + hits ts ps i j := by
        refine List.map_congr_left fun j _ => ?_
        rw [hits]
        congr 1
        split_ifs <;> tauto
      rw [h1, List.sum_map_add, sum_indicator n p (hp p (by simp)), ih ps (by simpa using hl) fun q hq => hp q (by simp [hq])]
      rfl

theorem col_sum (n i : ℕ) (ts ps : List ℕ) (hl : ts.length = ps.length) (hp : ∀ p ∈ ts, p < n) :
    ((List.range n).map fun j => hits ts ps j i).sum = occ i ps := by
  have hsymm : ∀ (ts ps : List ℕ) i j, hits ts ps i j = hits ps ts j i := by
    intro ts
    induction ts with
    | nil => intro ps i j; cases ps <;> rfl
    | cons t ts ih =>
      intro ps i j
      cases ps with
      | nil => rfl
      | cons p ps =>
        rw [hits, hits, ih]
        congr 1
        split_ifs <;> tauto
  have : ((List.range n).map fun j => hits ts ps j i) = (List.range n).map fun j => hits ps ts i j := by
    refine List.map_congr_left fun j _ => hsymm _ _ _ _
  rw [this, row_sum n i ps ts hl.symm hp]

theorem diag_sum (n : ℕ) (ts ps : List ℕ) (hp : ∀ p ∈ ts, p < n) :
    ((List.range n).map fun j => hits ts ps j j).sum = right ts ps := by
  induction ts generalizing ps with
  | nil => simp [hits, right]
  | cons t ts ih =>
    cases ps with
    | nil => simp [hits, right]
    | cons p ps =>
      have h1 : ((List.range n).map fun j => hits (t :: ts) (p :: ps) j j)
          = (List.range n).map fun j => (if t = j then (if t = p then 1 else 0) else 0) + hits ts ps j j := by
        refine List.map_congr_left fun j _ => ?_
        rw [hits]
        congr 1
        split_ifs <;> omega
      rw [h1, List.sum_map_add, sum_indicator n t (hp t (by simp)), ih ps fun q hq => hp q (by simp [hq])]
      rfl

theorem occ_sum (n : ℕ) (ts : List ℕ) (hp : ∀ p ∈ ts, p < n) : ((List.range n).map fun j => occ j ts).sum = ts.length := by
  induction ts with
  | nil => simp [occ]
  | cons t ts ih =>
    have h1 : ((List.range n).map fun j => occ j (t :: ts)) = (List.range n).map fun j => (if t = j then 1 else 0) + occ j ts := rfl
    rw [h1, List.sum_map_add, sum_indicator n t (hp t (by simp)), ih fun q hq => hp q (by simp [hq])]
    simp [Nat.add_comm]

theorem nat_sum_zero (l : List ℕ) (h : l.sum = 0) : ∀ x ∈ l, x = 0 := by
  induction l with
  | nil => simp
  | cons a l ih =>
    rw [List.sum_cons] at h
    intro x hx
    rcases List.mem_cons.mp hx with rfl | hx
    · omega
    · exact ih (by omega) x hx

theorem cast_sum (l : List ℕ) : ((l.sum : ℕ) : ℚ) = (l.map fun x => ((x : ℕ) : ℚ)).sum := by
  induction l with
  | nil => simp
  | cons a l ih => rw [List.sum_cons, Nat.cast_add, ih, List.map_cons, List.sum_cons]

/-! ### The confusion matrix -/

/-- What a batch demands. -/
def Good (n b : ℕ) (ts ps : List ℕ) (k : ℕ) : Prop :=
  ((ts.drop (b * k)).take b).length = ((ps.drop (b * k)).take b).length ∧ (∀ t ∈ (ts.drop (b * k)).take b, t < n) ∧
    (∀ p ∈ (ps.drop (b * k)).take b, p < n)

theorem take_succ_batch (b k : ℕ) (l : List ℕ) : l.take (b * (k + 1)) = l.take (b * k) ++ (l.drop (b * k)).take b := by
  rw [Nat.mul_succ, List.take_add]

theorem good_take (n b : ℕ) (ts ps : List ℕ) (K : ℕ) (h : ∀ k < K, Good n b ts ps k) :
    (ts.take (b * K)).length = (ps.take (b * K)).length ∧ (∀ t ∈ ts.take (b * K), t < n) ∧ ∀ p ∈ ps.take (b * K), p < n := by
  induction K with
  | zero => simp
  | succ K ih =>
    obtain ⟨h1, h2, h3⟩ := ih fun k hk => h k (by omega)
    obtain ⟨g1, g2, g3⟩ := h K (by omega)
    rw [take_succ_batch, take_succ_batch]
    refine ⟨by rw [List.length_append, List.length_append, h1, g1], fun t ht => ?_, fun p hp => ?_⟩
    · rcases List.mem_append.mp ht with ht | ht
      · exact h2 t ht
      · exact g2 t ht
    · rcases List.mem_append.mp hp with hp | hp
      · exact h3 p hp
      · exact g3 p hp

theorem foldlM_single {A B : Type} (f : A → B → Except Err A) (a : A) (b : B) : [b].foldlM f a = f a b := by
  rw [List.foldlM_cons]
  cases f a b <;> rfl

theorem fold_ok (n b : ℕ) (ts ps : List ℕ) (K : ℕ) (h : ∀ k < K, Good n b ts ps k) :
    (List.range K).foldlM (addBatch n b ts ps) (fun _ _ => 0)
      = .ok fun i j => ((ts.take (b * K)).zip (ps.take (b * K))).count (i, j) := by
  induction K with
  | zero => simp [pure, Except.pure]
  | succ K ih =>
    have hg := h K (by omega)
    have hl := (good_take n b ts ps K fun k hk => h k (by omega)).1
    rw [List.range_succ, List.foldlM_append, ih fun k hk => h k (by omega)]
    show [K].foldlM (addBatch n b ts ps) _ = _
    rw [foldlM_single]
    unfold addBatch
    dsimp only
    unfold Good at hg
    rw [if_pos hg]
    show Except.ok _ = Except.ok _
    congr 1
    funext i j
    rw [take_succ_batch, take_succ_batch, List.zip_append hl, List.count_append]

theorem fold_good (n b : ℕ) (ts ps : List ℕ) (K : ℕ) (C0 C : ℕ → ℕ → ℕ)
    (h : (List.range K).foldlM (addBatch n b ts ps) C0 = .ok C) : ∀ k < K, Good n b ts ps k := by
  induction K generalizing C with
  | zero => intro k hk; omega
  | succ K ih =>
    rw [List.range_succ, List.foldlM_append] at h
    cases hr : (List.range K).foldlM (addBatch n b ts ps) C0 with
    | error e => rw [hr] at h; exact nomatch h
    | ok D =>
      rw [hr] at h
      intro k hk
      by_cases hkK : k = K
      · subst hkK
        by_contra hg
        have : addBatch n b ts ps D k = .error .valueError := by
          unfold addBatch
          dsimp only
          exact if_neg hg
        replace h : [k].foldlM (addBatch n b ts ps) D = .ok C := h
        rw [foldlM_single, this] at h
        exact nomatch h
      · exact ih D hr k (by omega)

theorem confusion_iff (n : ℕ) (ts ps : List ℕ) (hne : ts ≠ []) :
    ((∃ C, confusion n ts ps = .ok C) ↔ ts.length = ps.length ∧ (∀ t ∈ ts, t < n) ∧ ∀ p ∈ ps, p < n) ∧
    ∀ C, confusion n ts ps = .ok C → ∀ i j, C i j = hits ts ps i j := by
  have hpos : 0 < ts.length := List.length_pos_iff.mpr hne
  obtain ⟨b, hb⟩ : ∃ b, b = min (2 ^ 20) ts.length := ⟨_, rfl⟩
  have hb0 : 0 < b := by rw [hb]; exact Nat.lt_min.mpr ⟨by norm_num, hpos⟩
  obtain ⟨K, hK⟩ : ∃ K, K = ts.length / b + 1 := ⟨_, rfl⟩
  have hbK : ts.length < b * K := by
    rw [hK, Nat.mul_succ]
    have := Nat.div_add_mod ts.length b
    have := Nat.mod_lt ts.length hb0
    omega
  have heq : confusion n ts ps = (List.range K).foldlM (addBatch n b ts ps) fun _ _ => 0 := by
    unfold confusion
    rw [← hb]
    dsimp only
    rw [if_neg (by omega), hK]
  have hgood : (∀ k < K, Good n b ts ps k) → ts.length = ps.length ∧ (∀ t ∈ ts, t < n) ∧ ∀ p ∈ ps, p < n := by
    intro hg
    obtain ⟨h1, h2, h3⟩ := good_take n b ts ps K hg
    rw [List.length_take, List.length_take] at h1
    have hl : ts.length = ps.length := by omega
    rw [List.take_of_length_le (by omega)] at h2 h3
    exact ⟨hl, h2, h3⟩
  refine ⟨⟨fun ⟨C, hC⟩ => ?_, fun ⟨h1, h2, h3⟩ => ?_⟩, fun C hC i j => ?_⟩
  · rw [heq] at hC
    exact hgood (fold_good n b ts ps K _ C hC)
  · rw [heq, fold_ok n b ts ps K]
    · exact ⟨_, rfl⟩
    · intro k _
      refine ⟨by simp [h1], fun t ht => h2 t (List.mem_of_mem_drop (List.mem_of_mem_take ht)),
        fun p hp => h3 p (List.mem_of_mem_drop (List.mem_of_mem_take hp))⟩
  · rw [heq] at hC
    have hg := fold_good n b ts ps K _ C hC
    have hl := (hgood hg).1
    rw [fold_ok n b ts ps K hg] at hC
    injection hC with hC
    rw [← hC, List.take_of_length_le (by omega), List.take_of_length_le (by omega)]
    exact count_eq_hits ts ps i j

/-! ### Scores -/

theorem tp_eq (n : ℕ) (C : ℕ → ℕ → ℕ) (i : ℕ) (h : i < n) : tp n C i = C i i := by
  unfold tp
  have : ((List.range n).map fun j => C i j * if i = j then 1 else 0) = (List.range n).map fun j => if i = j then C i i else 0 := by
    refine List.map_congr_left fun j _ => ?_
    split_ifs with hij
    · subst hij; ring
    · ring
  rw [this, sum_indicator n i h]

theorem support_eq (n : ℕ) (C : ℕ → ℕ → ℕ) (i : ℕ) : support n C i = ((List.range n).map fun j => C i j).sum := by
  unfold support tp fn
  rw [← List.sum_map_add]
  congr 1
  refine List.map_congr_left fun j _ => ?_
  split_ifs <;> simp

theorem predicted_eq (n : ℕ) (C : ℕ → ℕ → ℕ) (i : ℕ) : tp n C i + fp n C i = ((List.range n).map fun j => C j i).sum := by
  unfold tp fp
  rw [← List.sum_map_add]
  congr 1
  refine List.map_congr_left fun j _ => ?_
  split_ifs with h
  · subst h; simp
  · simp

theorem divide_eq (a b : ℕ) : divide a b = share a b := rfl

theorem share_nonneg (a b : ℕ) : 0 ≤ share a b := by
  unfold share
  split_ifs
  · exact le_refl _
  · exact div_nonneg (Nat.cast_nonneg _) (Nat.cast_nonneg _)

theorem share_le_one {a b : ℕ} (h : a ≤ b) : share a b ≤ 1 := by
  unfold share
  split_ifs with hb
  · exact zero_le_one
  · have : (0 : ℚ) < b := by exact_mod_cast Nat.pos_of_ne_zero hb
    rw [div_le_one this]
    exact_mod_cast h

theorem fscore_eq (p r : ℚ) (hp : 0 ≤ p) (hr : 0 ≤ r) : fscore p r = harm p r := by
  unfold fscore harm
  dsimp only
  split_ifs with h
  · have h1 : p = 0 := by linarith
    rw [h1]; ring
  · ring

theorem harm_bounds (p r : ℚ) (hp : 0 ≤ p) (hr : 0 ≤ r) : min p r ≤ harm p r ∧ harm p r ≤ max p r := by
  unfold harm
  split_ifs with h
  · have h1 : p = 0 := by linarith
    have h2 : r = 0 := by linarith
    subst h1; subst h2; simp
  · have hpos : 0 < p + r := lt_of_le_of_ne (by linarith) (Ne.symm h)
    rw [le_div_iff₀ hpos, div_le_iff₀ hpos]
    rcases le_total p r with hle | hle
    · rw [min_eq_left hle, max_eq_right hle]
      constructor <;> nlinarith
    · rw [min_eq_right hle, max_eq_left hle]
      constructor <;> nlinarith

/-- What the matrix says about predictions. -/
structure Counts (n : ℕ) (ts ps : List ℕ) (C : ℕ → ℕ → ℕ) : Prop where
  tp : ∀ i < n, tp n C i = hits ts ps i i
  pred : ∀ i, ClassReport.tp n C i + fp n C i = occ i ps
  supp : ∀ i, support n C i = occ i ts

theorem counts_of (n : ℕ) (ts ps : List ℕ) (C : ℕ → ℕ → ℕ) (hC : ∀ i j, C i j = hits ts ps i j) (hl : ts.length = ps.length)
    (ht : ∀ t ∈ ts, t < n) (hp : ∀ p ∈ ps, p < n) : Counts n ts ps C := by
  have : C = fun i j => hits ts ps i j := by funext i j; exact hC i j
  subst this
  exact ⟨fun i hi => tp_eq n _ i hi, fun i => by rw [predicted_eq]; exact col_sum n i ts ps hl ht,
    fun i => by rw [support_eq]; exact row_sum n i ts ps hl hp⟩

theorem scores_eq {n : ℕ} {ts ps : List ℕ} {C : ℕ → ℕ → ℕ} (h : Counts n ts ps C) (i : ℕ) (hi : i < n) :
    scores n C i = (precision ts ps i, recall ts ps i, f1 ts ps i) := by
  have hs := h.supp i
  unfold support at hs
  unfold scores
  dsimp only
  rw [h.pred, hs, h.tp i hi, divide_eq, divide_eq, fscore_eq _ _ (share_nonneg _ _) (share_nonneg _ _)]
  rfl

theorem hits_le_left (ts ps : List ℕ) (i j : ℕ) : hits ts ps i j ≤ occ i ts := by
  induction ts generalizing ps with
  | nil => exact Nat.zero_le _
  | cons t ts ih =>
    cases ps with
    | nil => exact Nat.zero_le _
    | cons p ps =>
      have := ih ps
      rw [hits, occ]
      split_ifs <;> omega

theorem hits_le_right (ts ps : List ℕ) (i j : ℕ) : hits ts ps i j ≤ occ j ps := by
  induction ts generalizing ps with
  | nil => exact Nat.zero_le _
  | cons t ts ih =>
    cases ps with
    | nil => exact Nat.zero_le _
    | cons p ps =>
      have := ih ps
      rw [hits, occ]
      split_ifs <;> omega

/-! ### The report -/

theorem positive_set (d : PyDict String Entry) (k : String) (v : Entry) (hk : k ∈ averages) :
    positive (PyDict.set d k v) = positive d := by
  unfold positive
  congr 1
  induction d with
  | nil => simp [PyDict.set, hk]
  | cons x d ih =>
    obtain ⟨k', v'⟩ := x
    rw [PyDict.set]
    split_ifs with h
    · subst h
      simp [hk]
    · rw [List.filter_cons, List.filter_cons, ih]

theorem squash_get (d : PyDict String Entry) (k : String) (h : k ≠ "accuracy") : PyDict.get? (squash d) k = PyDict.get? d k := by
  unfold squash
  split
  · rw [PyDict.get?_set, if_neg (Ne.symm h)]
  · rfl

theorem squash_positive (d : PyDict String Entry) : positive (squash d) = positive d := by
  unfold squash
  split
  · exact positive_set _ _ _ (by decide)
  · rfl

theorem squash_accuracy (d : PyDict String Entry) (x : ℚ × ℚ × ℚ) (s : ℕ) (h : PyDict.get? d "accuracy" = some (entryOf x s)) :
    PyDict.get? (squash d) "accuracy" = some (.num x.1) := by
  unfold squash
  rw [h]
  unfold entryOf
  dsimp only
  rw [PyDict.get?_set, if_pos rfl]

theorem finish_facts (n : ℕ) (C : ℕ → ℕ → ℕ) (ls : List (ℕ × String)) (d : PyDict String Entry) (h : finish n C ls = .ok d) :
    ls ≠ [] ∧ (∀ x ∈ ls, x.1 < n) ∧
    (∀ k, k ∉ averages → PyDict.get? d k = PyDict.get? (labelRows n C (ls.map (·.1)) (ls.map (·.2))) k) ∧
    PyDict.get? d "macro avg" = some (adjustEntry ls.length (positive (labelRows n C (ls.map (·.1)) (ls.map (·.2))))
      (entryOf (macroAvg n C (ls.map (·.1))) ((ls.map fun x => support n C x.1).sum))) ∧
    PyDict.get? d "weighted avg" = some (entryOf (weighted n C (ls.map (·.1))) ((ls.map fun x => support n C x.1).sum)) ∧
    ((∀ i < n, ∃ x ∈ ls, x.1 = i) → PyDict.get? d "accuracy" = some (.num (micro n C (ls.map (·.1))).1)) ∧
    ((¬ ∀ i < n, ∃ x ∈ ls, x.1 = i) →
      PyDict.get? d "micro avg" = some (entryOf (micro n C (ls.map (·.1))) ((ls.map fun x => support n C x.1).sum))) := by
  have hmap : (ls.map (·.1)).map (support n C) = ls.map fun x => support n C x.1 := by rw [List.map_map]; rfl
  unfold finish at h
  cases hr : report n C (ls.map (·.1)) (ls.map (·.2)) with
  | error e => rw [hr] at h; exact nomatch h
  | ok e =>
    rw [hr] at h
    unfold report at hr
    dsimp only at hr
    rw [hmap] at hr
    split_ifs at hr with h1 h2
    injection hr with hr
    have hlt : ∀ x ∈ ls, x.1 < n := by
      intro x hx
      by_contra hc
      exact h2 ⟨x.1, List.mem_map_of_mem hx, by omega⟩
    obtain ⟨s, hs⟩ : ∃ s, s = (ls.map fun x => support n C x.1).sum := ⟨_, rfl⟩
    obtain ⟨key, hkey⟩ : ∃ key, key = microName n (ls.map (·.1)) := ⟨_, rfl⟩
    obtain ⟨d0, hd0⟩ : ∃ d0, d0 = labelRows n C (ls.map (·.1)) (ls.map (·.2)) := ⟨_, rfl⟩
    rw [← hs, ← hd0, ← hkey] at hr
    rw [← hs, ← hd0]
    have hk : key = "accuracy" ∨ key = "micro avg" := by
      rw [hkey]; unfold microName
      split_ifs
      · exact .inl rfl
      · exact .inr rfl
    have hkavg : key ∈ averages := by rcases hk with h | h <;> rw [h] <;> decide
    have hkm : key ≠ "macro avg" := by rcases hk with h | h <;> rw [h] <;> decide
    have hkw : key ≠ "weighted avg" := by rcases hk with h | h <;> rw [h] <;> decide
    have hpos : positive e = positive d0 := by
      rw [← hr, squash_positive, positive_set _ _ _ (by decide), positive_set _ _ _ (by decide), positive_set _ _ _ hkavg]
    have hmac : PyDict.get? e "macro avg" = some (entryOf (macroAvg n C (ls.map (·.1))) s) := by
      rw [← hr, squash_get _ _ (by decide), PyDict.get?_set, if_neg (by decide), PyDict.get?_set, if_pos rfl]
    have hd : d = PyDict.set e "macro avg" (adjustEntry ls.length (positive e) (entryOf (macroAvg n C (ls.map (·.1))) s)) := by
      have h' : (match PyDict.get? e "macro avg" with
        | some x => Except.ok (ε := Err) (PyDict.set e "macro avg" (adjustEntry ls.length (positive e) x))
        | none => .error Err.keyError) = .ok d := h
      rw [hmac] at h'
      injection h' with h'
      exact h'.symm
    have hall : (∀ i < n, ∃ x ∈ ls, x.1 = i) ↔ key = "accuracy" := by
      rw [hkey]
      unfold microName
      split_ifs with hc
      · simp only [iff_true]
        intro i hi
        exact List.mem_map.mp (hc.2 i (List.mem_range.mpr hi))
      · refine ⟨fun ha => absurd ⟨fun i hi => ?_, fun i hi => ?_⟩ hc, fun h => absurd h (by decide)⟩
        · obtain ⟨x, hx, rfl⟩ := List.mem_map.mp hi; exact hlt x hx
        · exact List.mem_map.mpr (ha i (List.mem_range.mp hi))
    refine ⟨by rintro rfl; exact h1 rfl, hlt, fun k hk' => ?_, ?_, ?_, fun ha => ?_, fun ha => ?_⟩
    · have k1 : "macro avg" ≠ k := by rintro rfl; exact hk' (by decide)
      have k2 : "weighted avg" ≠ k := by rintro rfl; exact hk' (by decide)
      have k3 : key ≠ k := by rintro rfl; exact hk' hkavg
      have k4 : k ≠ "accuracy" := by rintro rfl; exact hk' (by decide)
      rw [hd, PyDict.get?_set, if_neg k1, ← hr, squash_get _ _ k4, PyDict.get?_set, if_neg k2, PyDict.get?_set, if_neg k1,
        PyDict.get?_set, if_neg k3]
    · rw [hd, PyDict.get?_set, if_pos rfl, hpos]
    · rw [hd, PyDict.get?_set, if_neg (by decide), ← hr, squash_get _ _ (by decide), PyDict.get?_set, if_pos rfl]
    · rw [hd, PyDict.get?_set, if_neg (by decide), ← hr]
      refine squash_accuracy _ _ s ?_
      rw [PyDict.get?_set, if_neg (by decide), PyDict.get?_set, if_neg (by decide), hall.1 ha, PyDict.get?_set, if_pos rfl]
    · have hkey' : key = "micro avg" := by
        rcases hk with h | h
        · exact absurd (hall.2 h) ha
        · exact h
      rw [hd, PyDict.get?_set, if_neg (by decide), ← hr, squash_get _ _ (by decide), PyDict.get?_set, if_neg (by decide),
        PyDict.get?_set, if_neg (by decide), hkey', PyDict.get?_set, if_pos rfl]

theorem labelRows_eq (n : ℕ) (C : ℕ → ℕ → ℕ) (ls : List (ℕ × String)) (hnd : (ls.map (·.2)).Nodup) :
    labelRows n C (ls.map (·.1)) (ls.map (·.2)) = ls.map fun x => (x.2, entryOf (scores n C x.1) (support n C x.1)) := by
  have h := LabelMap.ofPairs_nodup (ls.map fun x => (x.2, entryOf (scores n C x.1) (support n C x.1))) (by
    rw [List.map_map]; exact hnd)
  rw [List.foldl_map] at h
  unfold labelRows
  rw [show (ls.map (·.2)).zip (ls.map (·.1)) = ls.map fun x => (x.2, x.1) by rw [List.zip_map', ], List.foldl_map]
  exact h

/-! ### Listed labels -/

theorem listed_mem (rev : PyDict ℕ String) (omitted : List String) (x : ℕ × String) :
    x ∈ listed rev omitted ↔ x ∈ rev ∧ x.2 ∉ omitted := by
  unfold listed
  rw [List.mem_filter, List.mem_insertionSort]
  simp

theorem listed_names (rev : PyDict ℕ String) (omitted : List String) (h : (rev.map (·.2)).Nodup) :
    ((listed rev omitted).map (·.2)).Nodup := by
  unfold listed
  refine List.Nodup.sublist (List.Sublist.map _ List.filter_sublist) ?_
  exact ((List.perm_insertionSort (fun a b : ℕ × String => a.1 ≤ b.1) rev).map (fun x : ℕ × String => x.2)).nodup_iff.mpr h

theorem listed_ids (rev : PyDict ℕ String) (omitted : List String) (h : PyDict.WF rev) :
    ((listed rev omitted).map (·.1)).Nodup := by
  unfold listed
  refine List.Nodup.sublist (List.Sublist.map _ List.filter_sublist) ?_
  exact ((List.perm_insertionSort (fun a b : ℕ × String => a.1 ≤ b.1) rev).map (fun x : ℕ × String => x.1)).nodup_iff.mpr h

theorem listed_perm (rev : PyDict ℕ String) (omitted : List String) (hwf : PyDict.WF rev) (ids : List ℕ) (hnd : ids.Nodup)
    (hids : ∀ i, i ∈ ids ↔ ∃ name, (i, name) ∈ rev ∧ name ∉ omitted) : ((listed rev omitted).map (·.1)).Perm ids := by
  refine (List.perm_ext_iff_of_nodup (listed_ids rev omitted hwf) hnd).mpr fun i => ?_
  rw [hids, List.mem_map]
  constructor
  · rintro ⟨x, hx, rfl⟩
    rw [listed_mem] at hx
    exact ⟨x.2, hx.1, hx.2⟩
  · rintro ⟨name, hm, ho⟩
    exact ⟨(i, name), (listed_mem rev omitted _).2 ⟨hm, ho⟩, rfl⟩

/-! ### Evaluation -/

theorem evaluate_parts (n : ℕ) (rev : PyDict ℕ String) (omitted : List String) (p : List ℕ) (preds trues : List (List ℕ))
    (d : PyDict String Entry) (h : evaluate n rev omitted (p :: preds) trues = .ok d) :
    ∃ C, (∀ row ∈ trues, row.length ≤ p.length) ∧
      confusion n (trues.map (pad p.length)).flatten (p :: preds).flatten = .ok C ∧ finish n C (listed rev omitted) = .ok d := by
  unfold evaluate at h
  dsimp only at h
  cases hm : trues.mapM (padRow p.length) with
  | error e => rw [hm] at h; exact nomatch h
  | ok rows =>
    rw [hm] at h
    replace h : (do let C ← confusion n rows.flatten (p :: preds).flatten; finish n C (listed rev omitted)) = .ok d := h
    cases hc : confusion n rows.flatten (p :: preds).flatten with
    | error e => rw [hc] at h; exact nomatch h
    | ok C =>
      rw [hc] at h
      have hall := Postprocess.mapM_forall₂ hm
      have hw : p.length ≠ 0 ∨ ∀ row ∈ rows, row = [] := by
        by_cases hp : p.length = 0
        · right
          intro row hrow
          clear hc hm h
          induction hall with
          | nil => exact nomatch hrow
          | cons hx _ ih =>
            rcases List.mem_cons.mp hrow with rfl | hrow
            · unfold padRow at hx
              rw [hp] at hx
              split_ifs at hx
              injection hx with hx
              rw [← hx]; simp
            · exact ih hrow
        · exact .inl hp
      have hw1 : p.length ≠ 0 := by
        rcases hw with hw | hw
        · exact hw
        · have : rows.flatten = [] := List.flatten_eq_nil_iff.mpr hw
          rw [this] at hc
          exact nomatch hc
      have hrows : rows = trues.map (pad p.length) ∧ ∀ row ∈ trues, row.length ≤ p.length := by
        clear hc hm h hw
        induction hall with
        | nil => simp
        | cons hx _ ih =>
          unfold padRow at hx
          split_ifs at hx with hcond
          injection hx with hx
          have hle : ∀ {k : ℕ}, k ≤ p.length ∨ k = 1 → k ≤ p.length := by intro k hk; omega
          have hle := hle hcond
          refine ⟨?_, ?_⟩
          · rw [List.map_cons, ← ih.1, ← hx]
            unfold pad
            rw [List.take_of_length_le hle]
          · intro row hrow
            rcases List.mem_cons.mp hrow with rfl | hrow
            · exact hle
            · exact ih.2 row hrow
      rw [hrows.1] at hc
      exact ⟨C, hrows.2, hc, h⟩

end Verif.ClassReport
