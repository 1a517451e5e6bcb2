import Verif.Spec.UnstructuredDiff
import Verif.Lemmas.ProfileDiff
import Verif.Props.ProfileDiff
import Verif.Props.Words

/-! # Lemmas on differences of texts -/

namespace Verif.Unstructured

open Verif Verif.Diffs Verif.UnstructuredSpec Verif.Counter
open Verif.Words (Chars Word)

variable {K : Type} [DecidableEq K] {ch : Chars}

/-- Lists without repetitions are compared as sets. -/
theorem diffLists_set {a b : List K} (ha : a.Nodup) (hb : b.Nodup) :
    ReportsSet (· ∈ a) (· ∈ b) (diffLists (some a) (some b)) := by
  obtain ⟨h1, h2⟩ := ProfileDiff.diffLists_spec a b
  have hlen : (∀ x, x ∈ a ↔ x ∈ b) → a.length = b.length := fun h =>
    ((List.perm_ext_iff_of_nodup ha hb).2 h).length_eq
  refine ⟨fun h => h1 ⟨h, hlen h⟩, fun h => ?_⟩
  obtain ⟨l, s, r, he, hc⟩ := h2 fun h' => h h'.1
  have ca : ∀ x, a.count x = if x ∈ a then 1 else 0 := fun x => by
    split_ifs with hx
    · exact List.count_eq_one_of_mem ha hx
    · exact List.count_eq_zero_of_not_mem hx
  have cb : ∀ x, b.count x = if x ∈ b then 1 else 0 := fun x => by
    split_ifs with hx
    · exact List.count_eq_one_of_mem hb hx
    · exact List.count_eq_zero_of_not_mem hx
  refine ⟨l, s, r, he, ?_, ?_, ?_, fun x => ⟨?_, ?_, ?_⟩⟩
  · refine List.nodup_iff_count_le_one.2 fun x => ?_
    rw [(hc x).1, ca, cb]; split_ifs <;> simp
  · refine List.nodup_iff_count_le_one.2 fun x => ?_
    rw [(hc x).2.1, ca, cb]; split_ifs <;> simp
  · refine List.nodup_iff_count_le_one.2 fun x => ?_
    rw [(hc x).2.2, ca, cb]; split_ifs <;> simp
  · rw [← List.count_pos_iff, (hc x).1, ca, cb]; split_ifs <;> simp_all
  · rw [← List.count_pos_iff, (hc x).2.1, ca, cb]; split_ifs <;> simp_all
  · rw [← List.count_pos_iff, (hc x).2.2, ca, cb]; split_ifs <;> simp_all

omit [DecidableEq K] in
theorem reportsSet_congr {a b a' b' : K → Prop} {d : Diff K} (ha : ∀ x, a x ↔ a' x) (hb : ∀ x, b x ↔ b' x)
    (h : ReportsSet a b d) : ReportsSet a' b' d := by
  have ea : a = a' := funext fun x => propext (ha x)
  have eb : b = b' := funext fun x => propext (hb x)
  rw [← ea, ← eb]; exact h

/-- The comparison of tables of counts. -/
theorem countDiff_spec {d1 d2 : PyDict K ℕ} (h1 : PyDict.WF d1) :
    ReportsCounts (PyDict.get? d1) (PyDict.get? d2) (countDiff d1 d2) := by
  have g1 : ∀ k, PyDict.get? (d1.filter fun kv => !PyDict.has d2 kv.1) k =
      if !PyDict.has d2 k then PyDict.get? d1 k else none := Nested.get?_filter (fun k => !PyDict.has d2 k) d1
  have g2 : ∀ k, PyDict.get? (d2.filter fun kv => !PyDict.has d1 kv.1) k =
      if !PyDict.has d1 k then PyDict.get? d2 k else none := Nested.get?_filter (fun k => !PyDict.has d1 k) d2
  have g3 : ∀ k, PyDict.get? (d1.filterMap (sharedCount d2)) k = (PyDict.get? d1 k).bind fun x =>
      (PyDict.get? d2 k).map fun c => if x ≠ c then some ((x : ℤ) - c) else none := by
    intro k
    have := Props.ProfileDiff.get?_filterMap (fun k (x : ℕ) => (PyDict.get? d2 k).map fun c =>
      if x ≠ c then some ((x : ℤ) - c) else none) d1 h1 k
    rw [← this]
    congr 1
    refine List.filterMap_congr fun kv _ => ?_
    unfold sharedCount
    cases PyDict.get? d2 kv.1 <;> rfl
  have hnil : ∀ {V : Type} {d : PyDict K V}, (∀ k, PyDict.get? d k = none) → d = [] := by
    intro V d h
    cases d with
    | nil => rfl
    | cons p d =>
      have := h p.1
      rw [PyDict.get?_cons, if_pos rfl] at this
      cases this
  have hh : ∀ (d : PyDict K ℕ) k, PyDict.has d k = true ↔ PyDict.get? d k ≠ none := by
    intro d k
    rw [PyDict.has_iff, ne_eq, PyDict.get?_eq_none_iff, not_not]
  have hhn : ∀ (d : PyDict K ℕ) k, PyDict.get? d k = none → PyDict.has d k = false := by
    intro d k h
    rw [Bool.eq_false_iff, ne_eq, hh]
    exact not_not.2 h
  have hhs : ∀ (d : PyDict K ℕ) k x, PyDict.get? d k = some x → PyDict.has d k = true := by
    intro d k x h
    rw [hh, h]; simp
  constructor
  · intro h
    have e1 : d1 = [] := hnil fun k => (h k).1
    have e2 : d2 = [] := hnil fun k => (h k).2
    subst e1 e2
    rfl
  · rintro ⟨k0, hk0⟩
    refine ⟨d1.filter fun kv => !PyDict.has d2 kv.1, d1.filterMap (sharedCount d2),
      d2.filter fun kv => !PyDict.has d1 kv.1, ?_, fun k => ⟨fun x hx hy => ?_, fun y hx hy => ?_, fun x y hx hy => ?_, fun hx hy => ?_⟩⟩
    · unfold countDiff
      simp only
      rw [if_neg]
      intro hc
      simp only [Bool.and_eq_true, List.isEmpty_iff] at hc
      obtain ⟨⟨c1, c2⟩, c3⟩ := hc
      have e1 := g1 k0
      have e2 := g2 k0
      have e3 := g3 k0
      rw [c1] at e1
      rw [c3] at e2
      rw [c2] at e3
      rcases hx : PyDict.get? d1 k0 with _ | x <;> rcases hy : PyDict.get? d2 k0 with _ | y
      · rw [hx, hy] at hk0
        simp at hk0
      · rw [hhn _ _ hx, hy] at e2; simp at e2
      · rw [hhn _ _ hy, hx] at e1; simp at e1
      · rw [hx, hy] at e3; simp at e3
    · rw [g1, g2, g3, hx, hy, hhn _ _ hy]; simp
    · rw [g1, g2, g3, hx, hy, hhn _ _ hx]; simp
    · rw [g1, g2, g3, hx, hy, hhs _ _ _ hx, hhs _ _ _ hy]
      refine ⟨rfl, rfl, fun h => ?_, fun h => ?_⟩
      · simp [h]
      · simp [h]
    · rw [g1, g2, g3, hx, hy]; simp

/-- The most common entries as a table. -/
theorem mostCommon_top {d : PyDict K ℕ} (h : PyDict.WF d) (n : Option ℕ) :
    Top n (PyDict.get? d) (PyDict.get? (mostCommon d n)) ∧ PyDict.WF (mostCommon d n) := by
  obtain ⟨m1, m2, _, m4, m5⟩ := mostCommon_spec h n
  refine ⟨⟨fun k x hx => ?_, fun k x k' y hx hk hy => ?_, fun hn k => ?_, fun m hm ks hks hk => ?_⟩, m1⟩
  · exact (PyDict.mem_iff_get? h k x).1 (m2 _ (PyDict.mem_of_get? hx))
  · refine m5 (k, x) (PyDict.mem_of_get? hx) (fun hm => ?_) (k', y) (PyDict.mem_of_get? hy)
    rw [PyDict.get?_of_mem m1 hm] at hk
    cases hk
  · subst hn
    have hp : (mostCommon d none).Perm d := sortDesc_perm d
    cases hx : PyDict.get? d k with
    | none =>
      rw [PyDict.get?_eq_none_iff] at hx ⊢
      exact fun hm => hx ((hp.map Prod.fst).mem_iff.1 hm)
    | some x =>
      exact PyDict.get?_of_mem m1 (hp.mem_iff.2 (PyDict.mem_of_get? hx))
  · subst hm
    refine ⟨PyDict.keys (mostCommon d (some m)), m1, fun k => ?_, ?_⟩
    · rw [ne_eq, PyDict.get?_eq_none_iff, not_not]
    · have hl : ks.length = d.length := by
        have : ks.Perm (PyDict.keys d) := (List.perm_ext_iff_of_nodup hks h).2 fun k => by
          rw [hk, ne_eq, PyDict.get?_eq_none_iff, not_not]
        rw [this.length_eq]
        exact List.length_map _
      rw [hl]
      show (List.map _ _).length = _
      rw [List.length_map]
      exact m4

/-! ## Lower case -/

theorem lowerTable_aux (items : List (Word × ℕ)) (acc : PyDict Word ℕ) (hacc : PyDict.WF acc)
    (hinj : ∀ p ∈ items, ∀ q ∈ items, ch.lower p.1 = ch.lower q.1 → p = q) :
    PyDict.WF (items.foldl (fun acc kv => PyDict.set acc (ch.lower kv.1) kv.2) acc) ∧
    (∀ w, (∀ p ∈ items, ch.lower p.1 ≠ w) →
      PyDict.get? (items.foldl (fun acc kv => PyDict.set acc (ch.lower kv.1) kv.2) acc) w = PyDict.get? acc w) ∧
    ∀ p ∈ items, PyDict.get? (items.foldl (fun acc kv => PyDict.set acc (ch.lower kv.1) kv.2) acc) (ch.lower p.1) =
      some p.2 := by
  induction items generalizing acc with
  | nil => exact ⟨hacc, fun _ _ => rfl, fun p hp => by cases hp⟩
  | cons q items ih =>
    obtain ⟨i1, i2, i3⟩ := ih (PyDict.set acc (ch.lower q.1) q.2) (PyDict.WF_set hacc _ _) fun p hp r hr =>
      hinj p (List.mem_cons_of_mem _ hp) r (List.mem_cons_of_mem _ hr)
    rw [List.foldl_cons]
    refine ⟨i1, fun w hw => ?_, fun p hp => ?_⟩
    · rw [i2 w fun p hp => hw p (List.mem_cons_of_mem _ hp), PyDict.get?_set, if_neg]
      exact hw q List.mem_cons_self
    · by_cases hm : p ∈ items
      · exact i3 p hm
      · rcases List.mem_cons.1 hp with rfl | hp
        · rw [i2 _ fun r hr he => ?_, PyDict.get?_set, if_pos rfl]
          have := hinj r (List.mem_cons_of_mem _ hr) p List.mem_cons_self he
          exact hm (this ▸ hr)
        · exact absurd hp hm

/-- If no two words have the same lower case, lower case renames the entries. -/
theorem lowerTable_spec {d : PyDict Word ℕ}
    (hinj : ∀ v ∈ PyDict.keys d, ∀ w ∈ PyDict.keys d, ch.lower v = ch.lower w → v = w) (hd : PyDict.WF d) :
    PyDict.WF (lowerTable ch d) ∧
    ∀ w x, PyDict.get? (lowerTable ch d) w = some x ↔ ∃ v, ch.lower v = w ∧ PyDict.get? d v = some x := by
  obtain ⟨h1, h2, h3⟩ := lowerTable_aux (ch := ch) d [] PyDict.WF_nil fun p hp q hq he => by
    have hk := hinj p.1 (List.mem_map_of_mem hp) q.1 (List.mem_map_of_mem hq) he
    obtain ⟨p1, p2⟩ := p
    obtain ⟨q1, q2⟩ := q
    simp only at hk
    subst hk
    have e1 := PyDict.get?_of_mem hd hp
    have e2 := PyDict.get?_of_mem hd hq
    rw [e1] at e2
    cases e2
    rfl
  refine ⟨h1, fun w x => ⟨fun h => ?_, ?_⟩⟩
  · by_cases hex : ∃ p ∈ d, ch.lower p.1 = w
    · obtain ⟨p, hp, rfl⟩ := hex
      have := h3 p hp
      unfold lowerTable at h
      rw [this] at h
      cases h
      exact ⟨p.1, rfl, PyDict.get?_of_mem hd hp⟩
    · have := h2 w fun p hp he => hex ⟨p, hp, he⟩
      unfold lowerTable at h
      rw [this] at h
      cases h
  · rintro ⟨v, rfl, hv⟩
    exact h3 (v, x) (PyDict.mem_of_get? hv)

/-! ## Positive counts -/

/-- Every count is positive. -/
def Pos (d : PyDict K ℕ) : Prop := ∀ kv ∈ d, 0 < kv.2

theorem pos_set {d : PyDict K ℕ} (h : Pos d) (k : K) {n : ℕ} (hn : 0 < n) : Pos (PyDict.set d k n) := by
  intro kv hkv
  induction d with
  | nil =>
    simp only [PyDict.set, List.mem_singleton] at hkv
    subst hkv
    exact hn
  | cons p d ih =>
    have hd : Pos d := fun q hq => h q (List.mem_cons_of_mem _ hq)
    obtain ⟨k', v⟩ := p
    simp only [PyDict.set] at hkv
    split_ifs at hkv
    · rcases List.mem_cons.1 hkv with rfl | hkv
      · exact hn
      · exact hd kv hkv
    · rcases List.mem_cons.1 hkv with rfl | hkv
      · exact h _ List.mem_cons_self
      · exact ih hd hkv

theorem pos_bump {d : PyDict K ℕ} (h : Pos d) (k : K) {n : ℕ} (hn : 0 < n) : Pos (bump d k n) :=
  pos_set h k (Nat.lt_of_lt_of_le hn (Nat.le_add_left _ _))

theorem pos_del {d : PyDict K ℕ} (h : Pos d) (k : K) : Pos (PyDict.del d k) := by
  induction d with
  | nil => exact h
  | cons p d ih =>
    have hd : Pos d := fun q hq => h q (List.mem_cons_of_mem _ hq)
    obtain ⟨k', v⟩ := p
    simp only [PyDict.del]
    split_ifs
    · exact hd
    · intro q hq
      rcases List.mem_cons.1 hq with rfl | hq
      · exact h _ List.mem_cons_self
      · exact ih hd q hq

theorem pos_ofList (l : List K) : Pos (ofList l) := by
  have : ∀ (l : List K) (d : PyDict K ℕ), Pos d → Pos (l.foldl (fun d k => bump d k 1) d) := by
    intro l
    induction l with
    | nil => exact fun d h => h
    | cons k l ih => exact fun d h => ih _ (pos_bump h k Nat.one_pos)
  exact this l [] fun kv h => by cases h

theorem pos_plus (d1 d2 : PyDict K ℕ) : Pos (plus d1 d2) := fun _ h => of_decide_eq_true (List.mem_filter.1 h).2

theorem pos_run (h : Words.History) : Pos (Words.run ch h).vocab ∧ Pos (Words.run ch h).words := by
  have hadd : ∀ (stop : List Word) (items : List (Word × ℕ)) (d : PyDict Word ℕ), (∀ kv ∈ items, 0 < kv.2) → Pos d →
      Pos (items.foldl (Words.addWord ch stop) d) := by
    intro stop items
    induction items with
    | nil => exact fun d _ h => h
    | cons kv items ih =>
      intro d hi hd
      rw [List.foldl_cons]
      refine ih _ (fun q hq => hi q (List.mem_cons_of_mem _ hq)) ?_
      unfold Words.addWord
      split_ifs
      · exact pos_bump hd _ (hi kv List.mem_cons_self)
      · exact hd
  have hrem : ∀ (stop : List Word) (ks : List Word) (d : PyDict Word ℕ), Pos d →
      Pos (ks.foldl (fun d w => if ch.lower w ∈ stop then PyDict.del d w else d) d) := by
    intro stop ks
    induction ks with
    | nil => exact fun d h => h
    | cons k ks ih =>
      intro d hd
      rw [List.foldl_cons]
      refine ih _ ?_
      split_ifs
      · exact pos_del hd k
      · exact hd
  have hlow : ∀ (items : List (Word × ℕ)) (d : PyDict Word ℕ), (∀ kv ∈ items, 0 < kv.2) → Pos d →
      Pos (Words.lowerKeys ch items d) := by
    intro items
    unfold Words.lowerKeys
    induction items with
    | nil => exact fun d _ h => h
    | cons kv items ih =>
      intro d hi hd
      rw [List.foldl_cons]
      refine ih _ (fun q hq => hi q (List.mem_cons_of_mem _ hq)) ?_
      split_ifs
      · exact hd
      · exact pos_bump (pos_del hd _) _ (hi kv List.mem_cons_self)
  induction h with
  | new o => exact ⟨fun kv h => (by cases h), fun kv h => (by cases h)⟩
  | update h rows ih =>
    rw [Words.run]
    unfold Words.update
    split_ifs with he
    · exact ih
    · exact ⟨pos_plus _ _, hadd _ _ _ (pos_ofList _) ih.2⟩
  | merge h1 h2 ih1 ih2 =>
    rw [Words.run]
    unfold Words.merge Words.mergeWords
    refine ⟨pos_plus _ _, ?_⟩
    simp only
    have hd : ∀ d : PyDict Word ℕ, Pos d → Pos (if (Words.run ch h1).opts.caseSensitive ≠ (Words.run ch h2).opts.caseSensitive
        then Words.lowerKeys ch d d else d) := by
      intro d hd
      split_ifs
      · exact hlow d d hd hd
      · exact hd
    refine hd _ ?_
    split_ifs
    · exact hrem _ _ _ (pos_plus _ _)
    · exact pos_plus _ _

theorem get?_pos {d : PyDict K ℕ} (hp : Pos d) (k : K) :
    PyDict.get? d k = if at0 d k = 0 then none else some (at0 d k) := by
  unfold at0 PyDict.getD
  cases h : PyDict.get? d k with
  | none => simp
  | some x =>
    have := hp _ (PyDict.mem_of_get? h)
    simp only [Option.getD_some]
    rw [if_neg (by simp only at this; omega)]

end Verif.Unstructured
