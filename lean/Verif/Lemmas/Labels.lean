import Verif.Spec.Labels
import Verif.Lemmas.Counter
import Verif.Lemmas.PyDict
import Mathlib.Tactic.SplitIfs
import Mathlib.Algebra.Order.BigOperators.Group.List
import Mathlib.Algebra.Order.Field.Rat
import Mathlib.Data.List.Induction
import Mathlib.Data.List.Nodup

/-!
# Lemmas on label profiles
-/

namespace Verif.Labels

open Verif LabelsSpec Counter

/-! ### Votes -/

theorem at0_eq_getD {d : PyDict String ℕ} {k : String} : at0 d k = PyDict.getD d k 0 := rfl

theorem wf_vote {labels : List String} {pick : List ℚ → ℕ} {d : PyDict String ℕ} (h : PyDict.WF d) (row : List ℚ) :
    PyDict.WF (vote labels pick d row) := by
  unfold vote
  split
  · split_ifs
    · exact wf_bump h _ _
    · exact h
  · exact h

theorem keys_vote {labels : List String} {pick : List ℚ → ℕ} {d : PyDict String ℕ}
    (hk : ∀ l, l ∈ PyDict.keys d ↔ l ∈ labels) (row : List ℚ) (l : String) :
    l ∈ PyDict.keys (vote labels pick d row) ↔ l ∈ labels := by
  unfold vote
  split
  · rename_i l' p h1 h2
    split_ifs
    · rw [mem_keys_bump, hk]
      constructor
      · rintro (h | rfl)
        · exact h
        · exact List.mem_of_getElem? h1
      · exact Or.inl
    · exact hk l
  · exact hk l

theorem at0_vote {labels : List String} (hn : labels.Nodup) {pick : List ℚ → ℕ} (d : PyDict String ℕ) {row : List ℚ}
    {i : ℕ} {l : String} (hi : labels[i]? = some l) :
    at0 (vote labels pick d row) l = at0 d l + if VotesFor pick i row then 1 else 0 := by
  unfold vote
  split
  · rename_i l' p h1 h2
    by_cases hp : 1 / 5 < p
    · rw [if_pos hp, at0_bump]
      congr 1
      by_cases hl : l' = l
      · have hpi : pick row = i := by
          subst hl
          obtain ⟨a1, a2⟩ := List.getElem?_eq_some_iff.1 h1
          obtain ⟨b1, b2⟩ := List.getElem?_eq_some_iff.1 hi
          exact (hn.getElem_inj_iff).1 (a2.trans b2.symm)
        have hv : VotesFor pick i row := ⟨hpi, p, hpi ▸ h2, hp⟩
        rw [if_pos hl, if_pos hv]
      · have hv : ¬VotesFor pick i row := by
          rintro ⟨hpi, _⟩
          rw [hpi, hi] at h1
          exact hl (Option.some.inj h1).symm
        rw [if_neg hl, if_neg hv]
    · have hv : ¬VotesFor pick i row := by
        rintro ⟨hpi, q, hq, hq2⟩
        rw [hpi, hq] at h2
        exact hp (Option.some.inj h2 ▸ hq2)
      rw [if_neg hp, if_neg hv, Nat.add_zero]
  · rename_i hno
    have hv : ¬VotesFor pick i row := by
      rintro ⟨hpi, q, hq, _⟩
      exact hno l q (hpi ▸ hi) (hpi ▸ hq)
    rw [if_neg hv, Nat.add_zero]

theorem votes_foldl {labels : List String} (hn : labels.Nodup) {pick : List ℚ → ℕ} {rs : List (List ℚ)}
    {d : PyDict String ℕ} (hd : PyDict.WF d)
    (hk : ∀ l, l ∈ PyDict.keys d ↔ l ∈ labels) :
    PyDict.WF (rs.foldl (vote labels pick) d) ∧ (∀ l, l ∈ PyDict.keys (rs.foldl (vote labels pick) d) ↔ l ∈ labels) ∧
      ∀ i l, labels[i]? = some l →
        at0 (rs.foldl (vote labels pick) d) l = at0 d l + rs.countP fun row => decide (VotesFor pick i row) := by
  induction rs generalizing d with
  | nil => exact ⟨hd, hk, fun _ _ _ => by simp⟩
  | cons row rs ih =>
    obtain ⟨a, b, c⟩ := ih (wf_vote hd row) (keys_vote hk row)
    refine ⟨a, b, fun i l hi => ?_⟩
    rw [List.foldl_cons, c i l hi, at0_vote hn d hi, List.countP_cons, Nat.add_assoc]
    congr 1
    by_cases hv : VotesFor pick i row <;> simp [hv, Nat.add_comm]

/-! ### Sums of confidences -/

theorem addRow_length {s row : List ℚ} {n : ℕ} (h1 : s.length = n) (h2 : row.length = n) : (addRow s row).length = n := by
  simp [addRow, h1, h2]

theorem addRow_getD {s row : List ℚ} (h : row.length = s.length) (i : ℕ) :
    (addRow s row).getD i 0 = s.getD i 0 + row.getD i 0 := by
  unfold addRow
  simp only [List.getD_eq_getElem?_getD, List.getElem?_zipWith]
  by_cases hi : i < s.length
  · rw [List.getElem?_eq_getElem hi, List.getElem?_eq_getElem (h ▸ hi)]; rfl
  · rw [List.getElem?_eq_none (not_lt.1 hi), List.getElem?_eq_none (h ▸ not_lt.1 hi)]; simp

theorem sums_foldl {n : ℕ} {rs : List (List ℚ)} (hr : ∀ row ∈ rs, row.length = n) {s : List ℚ} (hs : s.length = n) :
    (rs.foldl addRow s).length = n ∧
      ∀ i, (rs.foldl addRow s).getD i 0 = s.getD i 0 + (rs.map fun row => row.getD i 0).sum := by
  induction rs generalizing s with
  | nil => exact ⟨hs, fun i => by simp⟩
  | cons row rs ih =>
    have h1 := hr row List.mem_cons_self
    obtain ⟨a, b⟩ := ih (fun r hr' => hr r (List.mem_cons_of_mem _ hr')) (addRow_length hs h1)
    refine ⟨a, fun i => ?_⟩
    rw [List.foldl_cons, b, addRow_getD (h1.trans hs.symm), List.map_cons, List.sum_cons, add_assoc]

/-! ### The invariant -/

/-- What the stored state means. -/
structure Inv (labels : List String) (pick : List ℚ → ℕ) (rs : List (List ℚ)) (c : Col) : Prop where
  size : c.sampleSize = rs.length
  ranks_none : c.ranks = none ↔ rs = []
  sums_none : c.sums = none ↔ rs = []
  wf : PyDict.WF (c.rankDist labels)
  keys : ∀ l, l ∈ PyDict.keys (c.rankDist labels) ↔ l ∈ labels
  count : ∀ i l, labels[i]? = some l →
    at0 (c.rankDist labels) l = rs.countP fun row => decide (VotesFor pick i row)
  len : (c.sumPreds labels).length = labels.length
  sum : ∀ i, (c.sumPreds labels).getD i 0 = (rs.map fun row => row.getD i 0).sum

theorem get?_zeros (labels : List String) (l : String) :
    PyDict.getD (labels.map fun l => (l, 0)) l 0 = (0 : ℕ) := by
  induction labels with
  | nil => rfl
  | cons a as ih =>
    unfold PyDict.getD at ih ⊢
    rw [List.map_cons, PyDict.get?_cons]
    split_ifs
    · rfl
    · exact ih

theorem keys_zeros {A : Type} (labels : List String) (f : String → A) :
    PyDict.keys (labels.map fun l => (l, f l)) = labels := by
  simp [PyDict.keys, Function.comp_def]

theorem inv_new {labels : List String} (hn : labels.Nodup) (pick : List ℚ → ℕ) : Inv labels pick [] new where
  size := rfl
  ranks_none := by simp [new]
  sums_none := by simp [new]
  wf := by
    show (PyDict.keys (labels.map fun l => (l, 0))).Nodup
    rwa [keys_zeros]
  keys l := by
    show l ∈ PyDict.keys (labels.map fun l => (l, 0)) ↔ _
    rw [keys_zeros]
  count i l _ := get?_zeros labels l
  len := by simp [Col.sumPreds, new]
  sum i := by
    simp only [Col.sumPreds, new, List.map_nil, List.sum_nil, List.getD_eq_getElem?_getD, List.getElem?_map]
    cases labels[i]? <;> rfl

theorem inv_update {labels : List String} (hn : labels.Nodup) {pick : List ℚ → ℕ} {rs0 rs : List (List ℚ)} {c : Col}
    (h : Inv labels pick rs0 c) (hr : ∀ row ∈ rs, row.length = labels.length) :
    Inv labels pick (rs0 ++ rs) (update labels pick c rs) := by
  unfold update
  split_ifs with he
  · subst he; rwa [List.append_nil]
  · obtain ⟨a, b, d⟩ := votes_foldl hn (pick := pick) (rs := rs) h.wf h.keys
    obtain ⟨e, f⟩ := sums_foldl hr h.len
    constructor
    · simp [h.size]
    · simp [he]
    · simp [he]
    · exact a
    · exact b
    · intro i l hi
      refine (d i l hi).trans ?_
      rw [h.count i l hi, List.countP_append]
    · exact e
    · intro i
      refine (f i).trans ?_
      rw [h.sum i, List.map_append, List.sum_append]

theorem get?_table {A : Type} (ks : List String) (f : String → A) (l : String) :
    PyDict.get? (ks.map fun k => (k, f k)) l = if l ∈ ks then some (f l) else none := by
  induction ks with
  | nil => rfl
  | cons a as ih =>
    rw [List.map_cons, PyDict.get?_cons, ih]
    by_cases h : a = l
    · subst h; simp
    · simp [h, Ne.symm h]

theorem values_sum {d : PyDict String ℕ} (h : PyDict.WF d) :
    (PyDict.values d).sum = ((PyDict.keys d).map fun k => at0 d k).sum := by
  congr 1
  unfold PyDict.values PyDict.keys
  rw [List.map_map]
  refine List.map_congr_left fun kv hkv => ?_
  show kv.2 = PyDict.getD d kv.1 0
  rw [PyDict.getD, (PyDict.mem_iff_get? h kv.1 kv.2).1 hkv]
  rfl

theorem sum_countP (rs : List (List ℚ)) (p : ℕ → List ℚ → Bool) (q : List ℚ → Bool) (n : ℕ)
    (h : ∀ row ∈ rs, ((List.range n).map fun i => if p i row then 1 else 0).sum = if q row then 1 else 0) :
    ((List.range n).map fun i => rs.countP (p i)).sum = rs.countP q := by
  induction rs with
  | nil => simp
  | cons row rs ih =>
    have e : ((List.range n).map fun i => (row :: rs).countP (p i)) =
        (List.range n).map fun i => rs.countP (p i) + if p i row then 1 else 0 :=
      List.map_congr_left fun i _ => by rw [List.countP_cons]
    rw [e, List.sum_map_add, ih fun r hr => h r (List.mem_cons_of_mem _ hr), h row List.mem_cons_self, List.countP_cons]

theorem sum_indicator (n j : ℕ) (hj : j < n) : ((List.range n).map fun i => if j = i then 1 else 0).sum = 1 := by
  induction n with
  | zero => omega
  | succ n ih =>
    rw [List.range_succ, List.map_append, List.sum_append]
    by_cases h : j = n
    · subst h
      have : ((List.range j).map fun i => if j = i then 1 else 0).sum = 0 := by
        refine List.sum_eq_zero fun x hx => ?_
        obtain ⟨i, hi, rfl⟩ := List.mem_map.1 hx
        rw [if_neg]
        exact Nat.ne_of_gt (List.mem_range.1 hi)
      rw [this]; simp
    · rw [ih (by omega)]; simp [h]

theorem sum_votesFor {pick : List ℚ → ℕ} (hp : Picks pick) (row : List ℚ) :
    ((List.range row.length).map fun i => if decide (VotesFor pick i row) then 1 else 0).sum =
      if row.any (fun p => decide (1 / 5 < p)) then 1 else 0 := by
  by_cases hrow : row = []
  · subst hrow; rfl
  obtain ⟨p, h1, h2⟩ := hp row hrow
  have hlt := (List.getElem?_eq_some_iff.1 h1).1
  by_cases hc : 1 / 5 < p
  · have : (row.any fun p => decide (1 / 5 < p)) = true :=
      List.any_eq_true.2 ⟨p, List.mem_of_getElem? h1, decide_eq_true hc⟩
    rw [this, if_pos rfl]
    refine Eq.trans ?_ (sum_indicator row.length (pick row) hlt)
    congr 1
    refine List.map_congr_left fun i _ => ?_
    by_cases hi : pick row = i
    · have hv : VotesFor pick i row := ⟨hi, p, hi ▸ h1, hc⟩
      simp [hi, hv]
    · have hv : ¬VotesFor pick i row := fun h => hi h.1
      simp [hi, hv]
  · have : (row.any fun p => decide (1 / 5 < p)) = false := by
      rw [List.any_eq_false]
      intro q hq
      rw [decide_eq_true_iff]
      exact not_lt.2 ((h2 q hq).trans (not_lt.1 hc))
    rw [this]
    refine List.sum_eq_zero fun x hx => ?_
    obtain ⟨i, _, rfl⟩ := List.mem_map.1 hx
    have hv : ¬VotesFor pick i row := by
      rintro ⟨_, q, hq, hq2⟩
      exact hc (hq2.trans_le (h2 q (List.mem_of_getElem? hq)))
    simp [hv]

theorem map_labels {A : Type} {labels : List String} {f : String → A} {g : ℕ → A}
    (h : ∀ i l, labels[i]? = some l → f l = g i) : labels.map f = (List.range labels.length).map g := by
  refine List.ext_getElem (by simp) fun i h1 h2 => ?_
  rw [List.getElem_map, List.getElem_map, List.getElem_range]
  have hi : i < labels.length := by simpa using h1
  exact h i _ (List.getElem?_eq_getElem hi)

theorem inv_total {labels : List String} (hn : labels.Nodup) {pick : List ℚ → ℕ} (hp : Picks pick)
    {rs : List (List ℚ)} (hr : ∀ row ∈ rs, row.length = labels.length) {c : Col} (h : Inv labels pick rs c) :
    (PyDict.values (c.rankDist labels)).sum = rs.countP fun row => row.any fun p => decide (1 / 5 < p) := by
  have hperm : (PyDict.keys (c.rankDist labels)).Perm labels := (List.perm_ext_iff_of_nodup h.wf hn).2 h.keys
  rw [values_sum h.wf, (hperm.map _).sum_eq, map_labels h.count]
  exact sum_countP rs (fun i row => decide (VotesFor pick i row)) _ _ fun row hrow => by
    rw [← hr row hrow]; exact sum_votesFor hp row

theorem inv_merge {labels : List String} {order : List String → List String} (ho : Rearranges order)
    {pick : List ℚ → ℕ} {rs1 rs2 : List (List ℚ)} {a b : Col} (hn : labels.Nodup)
    (ha : Inv labels pick rs1 a) (hb : Inv labels pick rs2 b) :
    ((rs1 = [] ↔ rs2 = []) → ∃ c, merge order a b = .ok c ∧ Inv labels pick (rs1 ++ rs2) c) ∧
      (¬(rs1 = [] ↔ rs2 = []) → merge order a b = .error .typeError) := by
  have hz : a.sampleSize = 0 ∧ b.sampleSize = 0 ↔ rs1 = [] ∧ rs2 = [] := by
    rw [ha.size, hb.size, List.length_eq_zero_iff, List.length_eq_zero_iff]
  constructor
  · intro hiff
    by_cases h1 : rs1 = []
    · have h2 := hiff.1 h1
      refine ⟨_, if_pos (hz.2 ⟨h1, h2⟩), ?_⟩
      subst h1 h2
      exact inv_new hn pick
    · have h2 : ¬rs2 = [] := fun h => h1 (hiff.2 h)
      have hra : a.ranks ≠ none := fun h => h1 (ha.ranks_none.1 h)
      have hrb : b.ranks ≠ none := fun h => h2 (hb.ranks_none.1 h)
      have hsa : a.sums ≠ none := fun h => h1 (ha.sums_none.1 h)
      have hsb : b.sums ≠ none := fun h => h2 (hb.sums_none.1 h)
      obtain ⟨r, hr⟩ := Option.ne_none_iff_exists'.1 hra
      obtain ⟨t, ht⟩ := Option.ne_none_iff_exists'.1 hrb
      obtain ⟨x, hx⟩ := Option.ne_none_iff_exists'.1 hsa
      obtain ⟨y, hy⟩ := Option.ne_none_iff_exists'.1 hsb
      have er : a.rankDist labels = r := by simp [Col.rankDist, hr]
      have et : b.rankDist labels = t := by simp [Col.rankDist, ht]
      have ex : a.sumPreds labels = x := by simp [Col.sumPreds, hx]
      have ey : b.sumPreds labels = y := by simp [Col.sumPreds, hy]
      have hwfr := er ▸ ha.wf
      have hkeys : ∀ l, l ∈ order (PyDict.keys (addCounts r t)) ↔ l ∈ labels := by
        intro l
        rw [(ho _).mem_iff, mem_keys_addCounts, ← er, ← et, ha.keys, hb.keys, or_self]
      refine ⟨_, by unfold merge; rw [if_neg (fun h => h1 (hz.1 h).1), hr, ht, hx, hy], ?_⟩
      constructor
      · simp [ha.size, hb.size]
      · simp [h1]
      · simp [h1]
      · show (PyDict.keys _).Nodup
        simp only [Col.rankDist]
        rw [keys_zeros]
        exact (ho _).nodup_iff.2 (wf_addCounts hwfr)
      · intro l
        simp only [Col.rankDist]
        rw [keys_zeros, hkeys]
      · intro i l hi
        simp only [Col.rankDist, at0, PyDict.getD]
        rw [get?_table, if_pos ((hkeys l).2 (List.mem_of_getElem? hi)), List.countP_append, ← ha.count i l hi,
          ← hb.count i l hi, er, et]
        rfl
      · simp only [Col.sumPreds]
        exact addRow_length (ex ▸ ha.len) (ey ▸ hb.len)
      · intro i
        simp only [Col.sumPreds]
        rw [addRow_getD ((ey ▸ hb.len).trans (ex ▸ ha.len).symm), List.map_append, List.sum_append, ← ha.sum, ← hb.sum,
          ex, ey]
  · intro hiff
    have hne : ¬(a.sampleSize = 0 ∧ b.sampleSize = 0) := fun h => by
      obtain ⟨h1, h2⟩ := hz.1 h
      exact hiff ⟨fun _ => h2, fun _ => h1⟩
    unfold merge
    rw [if_neg hne]
    by_cases h1 : rs1 = []
    · rw [ha.ranks_none.2 h1]
    · have h2 : rs2 = [] := by
        by_contra h2
        exact hiff ⟨fun h => absurd h h1, fun h => absurd h h2⟩
      rw [hb.ranks_none.2 h2]
      cases a.ranks <;> rfl

end Verif.Labels
