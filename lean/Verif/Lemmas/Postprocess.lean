import Verif.Model.Postprocess
import Verif.Spec.Postprocess
import Verif.Lemmas.Counter
import Verif.Lemmas.PyDict
import Mathlib.Tactic.SplitIfs
import Mathlib.Tactic.Linarith
import Mathlib.Data.List.Induction
import Mathlib.Tactic.Tauto
import Mathlib.Data.List.Forall2

/-!
# Lemmas about postprocessing
-/

namespace Verif.Postprocess

open Verif Verif.Spec.Postprocess

variable {K : Type}

/-! ### Entities -/

/-- The runs from an index on. -/
structure Part (ignore : ℕ → Bool) (sample : List ℕ) (lo : ℕ) (out : List (ℕ × ℕ × ℕ)) : Prop where
  sorted : out.Pairwise fun a b => a.2.1 ≤ b.1
  low : ∀ r ∈ out, lo ≤ r.1
  run : ∀ r ∈ out, r.1 < r.2.1 ∧ (∀ i, r.1 ≤ i → i < r.2.1 → sample[i]? = some r.2.2) ∧ ignore r.2.2 = false
  maximal : ∀ r ∈ out, (r.1 = 0 ∨ sample[r.1 - 1]? ≠ some r.2.2) ∧ sample[r.2.1]? ≠ some r.2.2
  all : ∀ i l, lo ≤ i → sample[i]? = some l → ignore l = false → ∃ r ∈ out, r.1 ≤ i ∧ i < r.2.1

theorem nerLoop_part (ignore : ℕ → Bool) (sample : List ℕ) (rest : List ℕ) :
    ∀ i last, sample.drop i = rest → i ≤ sample.length →
      ((i = 0 ∨ ∃ l, sample[i - 1]? = some l ∧ ignore l = true) → Part ignore sample i (nerLoop ignore none i last rest)) ∧
      ∀ b l, b < i → (∀ j, b ≤ j → j < i → sample[j]? = some l) → ignore l = false → (b = 0 ∨ sample[b - 1]? ≠ some l) →
        last = l → Part ignore sample b (nerLoop ignore (some (b, l)) i last rest) := by
  induction rest with
  | nil =>
    intro i last hd hi
    have hlen : i = sample.length := by
      rw [List.drop_eq_nil_iff] at hd
      omega
    refine ⟨fun _ => ⟨List.Pairwise.nil, by simp [nerLoop], by simp [nerLoop], by simp [nerLoop], ?_⟩,
      fun b l hb hrun hl hmax hlast => ⟨by simp [nerLoop], by simp [nerLoop], ?_, ?_, ?_⟩⟩
    · intro j l hj hs
      have := (List.getElem?_eq_some_iff.mp hs).1
      omega
    · intro r hr
      simp only [nerLoop, List.mem_singleton] at hr
      subst hr hlast
      exact ⟨hb, hrun, hl⟩
    · intro r hr
      simp only [nerLoop, List.mem_singleton] at hr
      subst hr hlast
      refine ⟨hmax, ?_⟩
      rw [List.getElem?_eq_none (show sample.length ≤ i by omega)]
      simp
    · intro j l' hj hs _
      have := (List.getElem?_eq_some_iff.mp hs).1
      exact ⟨(b, i, last), by simp [nerLoop], hj, show j < i by omega⟩
  | cons c rest ih =>
    intro i last hd hi
    have hc : sample[i]? = some c := by
      rw [← List.head?_drop, hd]; rfl
    have hi' : i < sample.length := (List.getElem?_eq_some_iff.mp hc).1
    have hd' : sample.drop (i + 1) = rest := by
      rw [← List.tail_drop, hd]; rfl
    obtain ⟨ihn, ihs⟩ := ih (i + 1) c hd' hi'
    constructor
    · intro hprev
      rw [nerLoop]
      split_ifs with hig
      · have := ihs i c (by omega) (fun j h1 h2 => by obtain rfl : j = i := by omega
                                                      exact hc) hig (by
          rcases hprev with h | ⟨l, h, h'⟩
          · exact .inl h
          · right; rw [h]; intro he; rw [Option.some.injEq] at he; rw [he, hig] at h'; exact nomatch h') rfl
        exact this
      · have hp := ihn (.inr ⟨c, by simpa using hc, by simpa using hig⟩)
        refine ⟨hp.sorted, fun r hr => by have := hp.low r hr; omega, hp.run, hp.maximal, fun j l hj hs hl => ?_⟩
        rcases Nat.lt_or_ge i j with h | h
        · exact hp.all j l h hs hl
        · obtain rfl : j = i := by omega
          rw [hc] at hs
          injection hs with hs
          rw [hs] at hig
          exact absurd hl hig
    · intro b l hb hrun hl hmax hlast
      rw [nerLoop]
      split_ifs with hne hig
      · have hp := ihn (.inr ⟨c, by simpa using hc, hig⟩)
        have hr0 : sample[i]? ≠ some l := by rw [hc]; intro h; injection h with h; exact hne h
        refine ⟨?_, ?_, ?_, ?_, ?_⟩
        · rw [List.pairwise_cons]
          exact ⟨fun r hr => by have := hp.low r hr; dsimp only; omega, hp.sorted⟩
        · intro r hr
          rcases List.mem_cons.mp hr with rfl | hr
          · exact Nat.le_refl _
          · have := hp.low r hr; omega
        · intro r hr
          rcases List.mem_cons.mp hr with rfl | hr
          · exact ⟨hb, hrun, hl⟩
          · exact hp.run r hr
        · intro r hr
          rcases List.mem_cons.mp hr with rfl | hr
          · exact ⟨hmax, hr0⟩
          · exact hp.maximal r hr
        · intro j l' hj hs hl'
          rcases Nat.lt_or_ge i j with h | h
          · obtain ⟨r, h1, h2⟩ := hp.all j l' h hs hl'
            exact ⟨r, by simp [h1], h2⟩
          · rcases Nat.lt_or_ge j i with h2 | h2
            · exact ⟨(b, i, l), by simp, hj, h2⟩
            · obtain rfl : j = i := by omega
              rw [hc] at hs
              injection hs with hs
              rw [← hs, hig] at hl'
              exact nomatch hl'
      · have hr0 : sample[i]? ≠ some l := by rw [hc]; intro h; injection h with h; exact hne h
        have hp := ihs i c (by omega) (fun j h1 h2 => by obtain rfl : j = i := by omega
                                                         exact hc) (by simpa using hig) (by
          right
          rw [hrun (i - 1) (by omega) (by omega)]
          intro h; injection h with h; exact hne h.symm) rfl
        refine ⟨?_, ?_, ?_, ?_, ?_⟩
        · rw [List.pairwise_cons]
          exact ⟨fun r hr => hp.low r hr, hp.sorted⟩
        · intro r hr
          rcases List.mem_cons.mp hr with rfl | hr
          · exact Nat.le_refl _
          · have := hp.low r hr; omega
        · intro r hr
          rcases List.mem_cons.mp hr with rfl | hr
          · exact ⟨hb, hrun, hl⟩
          · exact hp.run r hr
        · intro r hr
          rcases List.mem_cons.mp hr with rfl | hr
          · exact ⟨hmax, hr0⟩
          · exact hp.maximal r hr
        · intro j l' hj hs hl'
          rcases Nat.lt_or_ge j i with h | h
          · exact ⟨(b, i, l), by simp, hj, h⟩
          · obtain ⟨r, h1, h2⟩ := hp.all j l' h hs hl'
            exact ⟨r, by simp [h1], h2⟩
      · have hcl : c = l := by simpa using hne
        refine ihs b l (by omega) (fun j h1 h2 => ?_) hl hmax hcl
        rcases Nat.lt_or_ge j i with h | h
        · exact hrun j h1 h
        · obtain rfl : j = i := by omega
          rw [hc, hcl]

theorem spans_runs (ignore : ℕ → Bool) (sample : List ℕ) : IsRuns ignore sample (spans ignore sample) := by
  have h := (nerLoop_part ignore sample sample 0 0 rfl (Nat.zero_le _)).1 (.inl rfl)
  exact ⟨h.sorted, h.run, h.maximal, fun i l => h.all i l (Nat.zero_le _)⟩

theorem run_unique {ignore : ℕ → Bool} {sample : List ℕ} {o1 o2 : List (ℕ × ℕ × ℕ)} (h1 : IsRuns ignore sample o1)
    (h2 : IsRuns ignore sample o2) {r : ℕ × ℕ × ℕ} (hr : r ∈ o1) : r ∈ o2 := by
  obtain ⟨a1, a2, a3⟩ := h1.run r hr
  obtain ⟨b1, b2⟩ := h1.maximal r hr
  obtain ⟨q, hq, c1, c2⟩ := h2.all r.1 r.2.2 (a2 r.1 (Nat.le_refl _) a1) a3
  obtain ⟨d1, d2, d3⟩ := h2.run q hq
  obtain ⟨e1, e2⟩ := h2.maximal q hq
  have hl : q.2.2 = r.2.2 := by
    have := d2 r.1 c1 c2
    rw [a2 r.1 (Nat.le_refl _) a1] at this
    injection this with this
    exact this.symm
  have hb : q.1 = r.1 := by
    by_contra hne
    rcases b1 with b1 | b1
    · omega
    · exact b1 (by rw [d2 (r.1 - 1) (by omega) (by omega), hl])
  have he : q.2.1 = r.2.1 := by
    rcases Nat.lt_trichotomy q.2.1 r.2.1 with h | h | h
    · exact absurd (by rw [a2 q.2.1 (by omega) h, hl]) e2
    · exact h
    · exact absurd (by rw [d2 r.2.1 (by omega) h, hl]) b2
  have : q = r := Prod.ext hb (Prod.ext he hl)
  exact this ▸ hq

theorem runs_eq {ignore : ℕ → Bool} {sample : List ℕ} {o1 o2 : List (ℕ × ℕ × ℕ)} (h1 : IsRuns ignore sample o1)
    (h2 : IsRuns ignore sample o2) : o1 = o2 := by
  have key : ∀ {o : List (ℕ × ℕ × ℕ)}, IsRuns ignore sample o → o.Pairwise fun a b => a.1 < b.1 := by
    intro o h
    refine List.Pairwise.imp_of_mem ?_ h.sorted
    intro a b ha _ hab
    have := (h.run a ha).1
    omega
  have k1 := key h1
  have k2 := key h2
  have hmem : ∀ r, r ∈ o1 ↔ r ∈ o2 := fun r => ⟨run_unique h1 h2, run_unique h2 h1⟩
  clear h1 h2 key
  induction o1 generalizing o2 with
  | nil =>
    cases o2 with
    | nil => rfl
    | cons b o2 => exact absurd ((hmem b).2 (by simp)) (by simp)
  | cons a o1 ih =>
    cases o2 with
    | nil => exact absurd ((hmem a).1 (by simp)) (by simp)
    | cons b o2 =>
      rw [List.pairwise_cons] at k1 k2
      have hab : a = b := by
        rcases List.mem_cons.mp ((hmem a).1 (by simp)) with h | h
        · exact h
        · rcases List.mem_cons.mp ((hmem b).2 (by simp)) with h' | h'
          · exact h'.symm
          · have := k1.1 b h'
            have := k2.1 a h
            omega
      subst hab
      congr 1
      refine ih k1.2 k2.2 fun r => ⟨fun h => ?_, fun h => ?_⟩
      · rcases List.mem_cons.mp ((hmem r).1 (by simp [h])) with h' | h'
        · subst h'; exact absurd (k1.1 r h) (Nat.lt_irrefl _)
        · exact h'
      · rcases List.mem_cons.mp ((hmem r).2 (by simp [h])) with h' | h'
        · subst h'; exact absurd (k2.1 r h) (Nat.lt_irrefl _)
        · exact h'

theorem reverse_some {mapping : List (K × ℕ)} {id : ℕ} {k : K} (h : reverse mapping id = some k) : (k, id) ∈ mapping := by
  unfold reverse at h
  rw [Option.map_eq_some_iff] at h
  obtain ⟨x, h1, rfl⟩ := h
  have h2 := List.mem_of_find?_eq_some h1
  have h3 := List.find?_some h1
  rw [List.mem_reverse] at h2
  have : x.2 = id := by simpa using h3
  rw [← this]
  exact h2

theorem reverse_none {mapping : List (K × ℕ)} {id : ℕ} : reverse mapping id = none ↔ ∀ k, (k, id) ∉ mapping := by
  unfold reverse
  rw [Option.map_eq_none_iff, List.find?_eq_none]
  constructor
  · intro h k hk
    exact h (k, id) (by simpa using hk) (by simp)
  · intro h x hx he
    have : x.2 = id := by simpa using he
    exact h x.1 (by rw [← this]; simpa using hx)

theorem mapM_forall₂ {α β : Type} {f : α → Except Err β} {l : List α} {ys : List β} (h : l.mapM f = .ok ys) :
    List.Forall₂ (fun x y => f x = .ok y) l ys := by
  induction l generalizing ys with
  | nil =>
    injection h with h
    subst h
    exact .nil
  | cons x l ih =>
    rw [List.mapM_cons] at h
    cases hx : f x with
    | error e => rw [hx] at h; exact nomatch h
    | ok y =>
      cases hl : l.mapM f with
      | error e => rw [hx, hl] at h; exact nomatch h
      | ok zs =>
        rw [hx, hl] at h
        injection h with h
        subst h
        exact .cons hx (ih hl)

/-! ### Words -/

/-- The tally of labels. -/
def tally (bg : ℕ) (xs : List ℕ) : PyDict ℕ ℕ := xs.foldl (fun d l => Counter.bump d l 1) [(bg, 0)]

theorem tally_append (bg : ℕ) (xs : List ℕ) (l : ℕ) : tally bg (xs ++ [l]) = Counter.bump (tally bg xs) l 1 := by
  simp [tally, List.foldl_append]

theorem tally_at0 (bg : ℕ) (xs : List ℕ) (l : ℕ) : Counter.at0 (tally bg xs) l = xs.count l := by
  induction xs using List.reverseRecOn with
  | nil =>
    simp only [tally, List.foldl_nil, Counter.at0, PyDict.getD, PyDict.get?, List.count_nil]
    split_ifs <;> rfl
  | append_singleton xs x ih =>
    rw [tally_append, Counter.at0_bump, ih, List.count_append, List.count_singleton]
    simp only [beq_iff_eq]

theorem tally_wf (bg : ℕ) (xs : List ℕ) : PyDict.WF (tally bg xs) := by
  induction xs using List.reverseRecOn with
  | nil => simp [tally, PyDict.WF, PyDict.keys]
  | append_singleton xs x ih => rw [tally_append]; exact Counter.wf_bump ih _ _

theorem tally_keys (bg : ℕ) (xs : List ℕ) (l : ℕ) : l ∈ PyDict.keys (tally bg xs) ↔ l = bg ∨ l ∈ xs := by
  induction xs using List.reverseRecOn with
  | nil => simp [tally, PyDict.keys]
  | append_singleton xs x ih =>
    rw [tally_append, Counter.mem_keys_bump, ih, List.mem_append, List.mem_singleton]
    tauto

theorem tally_total (bg : ℕ) (xs : List ℕ) : ((tally bg xs).map (·.2)).sum = xs.length := by
  induction xs using List.reverseRecOn with
  | nil => simp [tally]
  | append_singleton xs x ih =>
    have := Counter.total_bump (tally bg xs) x 1
    unfold Counter.total PyDict.values at this
    rw [tally_append, this, ih]
    simp

theorem tally_head (bg : ℕ) (xs : List ℕ) : ∃ rest, tally bg xs = (bg, xs.count bg) :: rest := by
  have : ∃ n rest, tally bg xs = (bg, n) :: rest := by
    induction xs using List.reverseRecOn with
    | nil => exact ⟨0, [], rfl⟩
    | append_singleton xs x ih =>
      obtain ⟨n, rest, h⟩ := ih
      rw [tally_append, h]
      unfold Counter.bump
      rw [PyDict.set]
      split_ifs with hx
      · exact ⟨_, rest, by rw [hx]⟩
      · exact ⟨n, _, rfl⟩
  obtain ⟨n, rest, h⟩ := this
  have h2 := tally_at0 bg xs bg
  rw [h] at h2
  have : n = xs.count bg := by simpa [Counter.at0, PyDict.getD, PyDict.get?] using h2
  exact ⟨rest, by rw [h, this]⟩

theorem mem_tally {bg : ℕ} {xs : List ℕ} {x : ℕ × ℕ} (h : x ∈ tally bg xs) : x.2 = xs.count x.1 := by
  rw [← tally_at0 bg xs x.1]
  have := PyDict.get?_of_mem (tally_wf bg xs) (show (x.1, x.2) ∈ tally bg xs from h)
  simp [Counter.at0, PyDict.getD, this]

theorem better_fold (minPct : ℚ) (total : ℕ) (best : ℕ × ℕ) (l : List (ℕ × ℕ)) :
    let r := l.foldl (better minPct total) best
    best.2 ≤ r.2 ∧ (r = best ∨ (r ∈ l ∧ minPct ≤ share r.2 total ∧ best.2 < r.2)) ∧
      ∀ x ∈ l, minPct ≤ share x.2 total → x.2 ≤ r.2 := by
  induction l generalizing best with
  | nil => exact ⟨Nat.le_refl _, .inl rfl, by simp⟩
  | cons y l ih =>
    intro r
    obtain ⟨h1, h2, h3⟩ := ih (better minPct total best y)
    have hr : r = l.foldl (better minPct total) (better minPct total best y) := rfl
    rw [← hr] at h1 h2 h3
    by_cases hb : minPct ≤ share y.2 total ∧ best.2 < y.2
    · have he : better minPct total best y = y := if_pos hb
      rw [he] at h1 h2
      refine ⟨by omega, .inr ?_, ?_⟩
      · rcases h2 with h2 | ⟨h2, h4, h5⟩
        · rw [h2]; exact ⟨by simp, hb.1, hb.2⟩
        · exact ⟨by simp [h2], h4, by omega⟩
      · intro x hx hs
        rcases List.mem_cons.mp hx with rfl | hx
        · exact h1
        · exact h3 x hx hs
    · have he : better minPct total best y = best := if_neg hb
      rw [he] at h1 h2
      refine ⟨h1, ?_, ?_⟩
      · rcases h2 with h2 | ⟨h2, h4, h5⟩
        · exact .inl h2
        · exact .inr ⟨by simp [h2], h4, h5⟩
      · intro x hx hs
        rcases List.mem_cons.mp hx with rfl | hx
        · have : ¬ best.2 < x.2 := fun h => hb ⟨hs, h⟩
          omega
        · exact h3 x hx hs

theorem dominate_spec (minPct : ℚ) (bg : ℕ) (xs : List ℕ) : IsWordLabel minPct bg xs (dominate minPct bg (tally bg xs)) := by
  have hstrong : ∀ l, Strong minPct xs l ↔ 2 ≤ xs.count l ∧ minPct ≤ share (xs.count l) xs.length := fun l => Iff.rfl
  have hmem : ∀ l, 2 ≤ xs.count l → (l, xs.count l) ∈ tally bg xs := by
    intro l hl
    have hk : l ∈ PyDict.keys (tally bg xs) := (tally_keys bg xs l).2 (.inr (List.count_pos_iff.mp (by omega)))
    obtain ⟨x, hx, rfl⟩ := List.mem_map.mp hk
    have := mem_tally hx
    rw [← this]
    exact hx
  obtain ⟨h1, h2, h3⟩ := better_fold minPct xs.length (bg, 1) (tally bg xs)
  have hd : dominate minPct bg (tally bg xs) = ((tally bg xs).foldl (better minPct xs.length) (bg, 1)).1 := by
    unfold dominate
    rw [tally_total]
  rw [hd]
  rcases h2 with h2 | ⟨h2, h4, h5⟩
  · left
    rw [h2]
    refine ⟨rfl, fun l hl => ?_⟩
    have := h3 _ (hmem l hl.1) hl.2
    rw [h2] at this
    have := hl.1
    simp at *
    omega
  · right
    have hc := mem_tally h2
    refine ⟨(hstrong _).2 ⟨by rw [← hc]; exact h5, by rw [← hc]; exact h4⟩, ?_, ?_⟩
    · intro l hl
      rw [← hc]
      exact h3 _ (hmem l hl.1) hl.2
    · intro hne hb
      obtain ⟨rest, hr⟩ := tally_head bg xs
      have hfirst : better minPct xs.length (bg, 1) (bg, xs.count bg) = (bg, xs.count bg) := if_pos ⟨hb.2, hb.1⟩
      have hfold : (tally bg xs).foldl (better minPct xs.length) (bg, 1) =
          rest.foldl (better minPct xs.length) (bg, xs.count bg) := by
        rw [hr, List.foldl_cons, hfirst]
      rw [hfold] at hne hc ⊢
      obtain ⟨-, g2, -⟩ := better_fold minPct xs.length (bg, xs.count bg) rest
      rcases g2 with g2 | ⟨-, -, g2⟩
      · rw [g2] at hne; exact absurd rfl hne
      · rw [← hc]; exact g2

theorem fill_length (ents : List ℕ) (start idx l : ℕ) (h : idx ≤ ents.length) : (fill ents start idx l).length = ents.length := by
  unfold fill
  split_ifs
  · simp; omega
  · rfl

theorem fill_get (ents : List ℕ) (start idx l i : ℕ) (h : idx ≤ ents.length) :
    (fill ents start idx l)[i]? = if start ≤ i ∧ i < idx then some l else ents[i]? := by
  unfold fill
  split_ifs with h1 h2 h2
  · rw [List.getElem?_append_left (by simp; omega), List.getElem?_append_right (by simp; omega), List.getElem?_replicate,
      if_pos (by simp; omega)]
  · by_cases h3 : i < start
    · rw [List.append_assoc, List.getElem?_append_left (by simp; omega), List.getElem?_take_of_lt h3]
    · rw [List.getElem?_append_right (by simp; omega), List.getElem?_drop]
      congr 1
      simp
      omega
  · omega
  · rfl

theorem around_length (ents : List ℕ) (bg start idx dom : ℕ) : (around ents bg start idx dom).length = ents.length := by
  unfold around; split_ifs <;> simp

theorem around_get (ents : List ℕ) (bg start idx dom i : ℕ) (h1 : i ≠ idx) (h2 : 0 < start → i ≠ start - 1) :
    (around ents bg start idx dom)[i]? = ents[i]? := by
  unfold around
  split_ifs with h
  · rw [List.getElem?_set_ne (by omega), List.getElem?_set_ne (by have := h2 h.2.1; omega)]
  · rfl

theorem around_val (ents : List ℕ) (bg start idx dom i : ℕ) (hi : i < ents.length) :
    (around ents bg start idx dom)[i]? = ents[i]? ∨
      ((around ents bg start idx dom)[i]? = some bg ∧ dom = bg ∧ 0 < start ∧ (i = idx ∨ i = start - 1)) := by
  unfold around
  split_ifs with h
  · by_cases h1 : idx = i
    · right
      subst h1
      rw [List.getElem?_set_self (by simpa using hi)]
      exact ⟨rfl, h.1, h.2.1, .inl rfl⟩
    · rw [List.getElem?_set_ne h1]
      by_cases h2 : start - 1 = i
      · right
        subst h2
        rw [List.getElem?_set_self hi]
        exact ⟨rfl, h.1, h.2.1, .inr rfl⟩
      · left
        rw [List.getElem?_set_ne h2]
  · exact .inl rfl

/-- The labels between two indices. -/
def slice (preds : List ℕ) (a b : ℕ) : List ℕ := (preds.take b).drop a

theorem slice_succ (preds : List ℕ) (a b : ℕ) (hab : a ≤ b) (hb : b < preds.length) :
    slice preds a (b + 1) = slice preds a b ++ [preds.getD b 0] := by
  unfold slice
  rw [List.take_add_one, List.getElem?_eq_getElem hb, List.drop_append_of_le_length (by simp; omega)]
  simp [hb]

/-- The state after some characters. -/
structure WInv (minPct : ℚ) (bg : ℕ) (seps : List Bool) (preds : List ℕ) (k : ℕ) (st : W) : Prop where
  len : st.ents.length = preds.length
  start : st.start ≤ k
  nosep : ∀ i, st.start ≤ i → i < k → seps[i]? = some false
  before : st.start = 0 ∨ seps[st.start - 1]? = some true
  rest : ∀ i, st.start ≤ i → st.ents[i]? = preds[i]?
  counts : st.counts = tally bg (slice preds st.start k)
  words : ∀ a b, IsWord seps a b → seps[b]? = some true → b < k → ∀ i, a ≤ i → i < b →
    st.ents[i]? = some (dominate minPct bg (tally bg (slice preds a b)))
  seps : ∀ i, i < preds.length → seps[i]? = some true → st.ents[i]? = preds[i]? ∨
    (st.ents[i]? = some bg ∧ Beside minPct bg seps preds i)

/-- The next character is a separator, or not the last of a later word. -/
theorem winv_step {minPct : ℚ} {bg : ℕ} {seps : List Bool} {preds : List ℕ} {k : ℕ} {st : W} (hl : seps.length = preds.length)
    (h : WInv minPct bg seps preds k st) {sep : Bool} (hs : seps[k]? = some sep)
    (hend : sep = true ∨ ¬ (k + 1 = seps.length ∧ 0 < st.start)) :
    WInv minPct bg seps preds (k + 1) (wordStep minPct bg seps.length st k sep) := by
  have hk : k < seps.length := (List.getElem?_eq_some_iff.mp hs).1
  unfold wordStep
  dsimp only
  cases sep with
  | true =>
    rw [if_pos (.inl rfl), if_pos rfl, h.counts]
    obtain ⟨dom, hdom⟩ : ∃ x, x = dominate minPct bg (tally bg (slice preds st.start k)) := ⟨_, rfl⟩
    rw [← hdom]
    have hfl : k ≤ st.ents.length := by rw [h.len]; omega
    refine ⟨?_, Nat.le_refl _, by intro i h1 h2; dsimp only at h1; omega, .inr ?_, ?_, ?_, ?_, ?_⟩
    · dsimp only
      rw [around_length, fill_length _ _ _ _ hfl, h.len]
    · simpa using hs
    · intro i hi
      dsimp only at hi ⊢
      have hst := h.start
      rw [around_get _ _ _ _ _ _ (by omega) (by intro; omega), fill_get _ _ _ _ _ hfl, if_neg (by omega), h.rest i (by omega)]
    · simp [tally, slice]
    · intro a b hw hb hbk i h1 h2
      dsimp only
      have hi : seps[i]? = some false := hw.2.1 i h1 h2
      have hik : i ≠ k := by
        intro he
        rw [he, hs] at hi
        exact nomatch hi
      have his : 0 < st.start → i ≠ st.start - 1 := by
        intro h0 he
        rcases h.before with hb' | hb'
        · omega
        · rw [← he, hi] at hb'
          exact nomatch hb'
      rw [around_get _ _ _ _ _ _ hik his, fill_get _ _ _ _ _ hfl]
      rcases Nat.lt_or_ge b k with hlt | hge
      · rw [if_neg]
        · exact h.words a b hw hb hlt i h1 h2
        · rintro ⟨h3, h4⟩
          rcases Nat.lt_or_ge b st.start with h5 | h5
          · omega
          · have := h.nosep b h5 hlt
            rw [hb] at this
            exact nomatch this
      · have hbk' : b = k := by omega
        subst hbk'
        have ha : a = st.start := by
          rcases Nat.lt_trichotomy a st.start with h5 | h5 | h5
          · rcases h.before with h6 | h6
            · omega
            · have := hw.2.1 (st.start - 1) (by omega) (by have := h.start; omega)
              rw [this] at h6
              exact nomatch h6
          · exact h5
          · rcases hw.2.2 with h6 | h6
            · omega
            · have := h.nosep (a - 1) (by omega) (by have := hw.1; omega)
              rw [this] at h6
              exact nomatch h6
        subst ha
        rw [if_pos ⟨h1, h2⟩, hdom]
    · intro i hi hsi
      dsimp only
      have hlen : i < (fill st.ents st.start k dom).length := by rw [fill_length _ _ _ _ hfl, h.len]; exact hi
      rcases around_val (fill st.ents st.start k dom) bg st.start k dom i hlen with h1 | h1
      · rw [h1, fill_get _ _ _ _ _ hfl, if_neg]
        · exact h.seps i hi hsi
        · rintro ⟨h2, h3⟩
          have := h.nosep i h2 h3
          rw [hsi] at this
          exact nomatch this
      · obtain ⟨h1, h2, h3, h4⟩ := h1
        refine .inr ⟨h1, st.start, k, ⟨h.start, h.nosep, h.before⟩, h3, .inr hs, by omega, ?_⟩
        have := dominate_spec minPct bg (slice preds st.start k)
        rw [← hdom, h2] at this
        exact this
  | false =>
    have hend' : ¬ (k + 1 = seps.length ∧ 0 < st.start) := by
      rcases hend with h0 | h0
      · exact nomatch h0
      · exact h0
    rw [if_neg (by rintro (h0 | h0)
                   · exact nomatch h0
                   · exact hend' h0)]
    have hst := h.start
    refine ⟨h.len, by dsimp only; omega, ?_, h.before, h.rest, ?_, ?_, h.seps⟩
    · intro i h1 h2
      rcases Nat.lt_or_ge i k with h3 | h3
      · exact h.nosep i h1 h3
      · obtain rfl : i = k := by omega
        exact hs
    · simp only [Bool.false_eq_true, if_false]
      rw [slice_succ preds _ _ hst (by omega), tally_append, h.counts]
      congr 1
      rw [List.getD_eq_getElem?_getD, List.getD_eq_getElem?_getD, h.rest k hst]
    · intro a b hw hb hbk i h1 h2
      rcases Nat.lt_or_ge b k with h3 | h3
      · exact h.words a b hw hb h3 i h1 h2
      · obtain rfl : b = k := by omega
        rw [hs] at hb
        exact nomatch hb

theorem winv_init (minPct : ℚ) (bg : ℕ) (seps : List Bool) (preds : List ℕ) :
    WInv minPct bg seps preds 0 ⟨preds, 0, [(bg, 0)]⟩ :=
  ⟨rfl, Nat.le_refl _, by intro i h1 h2; omega, .inl rfl, fun i _ => rfl, by simp [tally, slice],
    by intro a b _ _ hb; omega, fun i _ _ => .inl rfl⟩

/-- Up to the last character. -/
theorem wordLoop_take (minPct : ℚ) (bg : ℕ) (seps : List Bool) (preds : List ℕ) (hl : seps.length = preds.length) (k : ℕ)
    (hk : k < seps.length) :
    ∃ st, WInv minPct bg seps preds k st ∧
      wordLevel minPct bg seps preds = (wordLoop minPct bg seps.length st k (seps.drop k)).ents := by
  induction k with
  | zero => exact ⟨_, winv_init minPct bg seps preds, rfl⟩
  | succ k ih =>
    obtain ⟨st, h1, h2⟩ := ih (by omega)
    have hs : seps[k]? = some seps[k] := List.getElem?_eq_getElem (by omega)
    refine ⟨_, winv_step hl h1 hs (.inr (by omega)), ?_⟩
    rw [h2, List.drop_eq_getElem_cons (by omega), wordLoop]

/-- The last character. -/
theorem wordLevel_last (minPct : ℚ) (bg : ℕ) (seps : List Bool) (preds : List ℕ) (hl : seps.length = preds.length)
    (hne : seps ≠ []) :
    ∃ st, WInv minPct bg seps preds (seps.length - 1) st ∧ ∃ sep, seps[seps.length - 1]? = some sep ∧
      wordLevel minPct bg seps preds = (wordStep minPct bg seps.length st (seps.length - 1) sep).ents := by
  have hp : 0 < seps.length := List.length_pos_iff.mpr hne
  obtain ⟨st, h1, h2⟩ := wordLoop_take minPct bg seps preds hl (seps.length - 1) (by omega)
  refine ⟨st, h1, seps[seps.length - 1], List.getElem?_eq_getElem (by omega), ?_⟩
  rw [h2, List.drop_eq_getElem_cons (by omega), wordLoop, show seps.length - 1 + 1 = seps.length by omega, List.drop_length,
    wordLoop]

theorem wordLevel_inv (minPct : ℚ) (bg : ℕ) (seps : List Bool) (preds : List ℕ) (hl : seps.length = preds.length) :
    (wordLevel minPct bg seps preds).length = preds.length ∧
    (∀ a b, IsWord seps a b → seps[b]? = some true → ∃ w, IsWordLabel minPct bg ((preds.take b).drop a) w ∧
      ∀ i, a ≤ i → i < b → (wordLevel minPct bg seps preds)[i]? = some w) ∧
    (∀ i, i < preds.length → seps[i]? = some true → (wordLevel minPct bg seps preds)[i]? = preds[i]? ∨
      ((wordLevel minPct bg seps preds)[i]? = some bg ∧ Beside minPct bg seps preds i)) ∧
    (∀ a, 0 < a → a < preds.length → IsWord seps a preds.length → ∃ w, IsWordLabel minPct bg (preds.drop a) w ∧
      (∀ i, a ≤ i → i + 1 < preds.length → (wordLevel minPct bg seps preds)[i]? = some w) ∧
      ((wordLevel minPct bg seps preds)[preds.length - 1]? = preds[preds.length - 1]? ∨
        (w = bg ∧ (wordLevel minPct bg seps preds)[preds.length - 1]? = some bg))) ∧
    ((∀ i, i < preds.length → seps[i]? = some false) → wordLevel minPct bg seps preds = preds) := by
  by_cases hne : seps = []
  · subst hne
    have : preds = [] := List.length_eq_zero_iff.mp hl.symm
    subst this
    exact ⟨rfl, by simp, by simp, by intro a _ h; simp at h, fun _ => rfl⟩
  obtain ⟨st, hinv, sep, hs, heq⟩ := wordLevel_last minPct bg seps preds hl hne
  have hp : 0 < seps.length := List.length_pos_iff.mpr hne
  rw [heq]
  obtain ⟨k, hk⟩ : ∃ k, k = seps.length - 1 := ⟨_, rfl⟩
  rw [← hk] at hinv hs ⊢
  have hk1 : k + 1 = seps.length := by omega
  by_cases hend : sep = true ∨ ¬ (k + 1 = seps.length ∧ 0 < st.start)
  · have h := winv_step hl hinv hs hend
    refine ⟨h.len, ?_, h.seps, ?_, ?_⟩
    · intro a b hw hb
      exact ⟨_, dominate_spec _ _ _, h.words a b hw hb (by have := (List.getElem?_eq_some_iff.mp hb).1; omega)⟩
    · intro a ha han hw
      exfalso
      have hkf := hw.2.1 k (by omega) (by omega)
      rw [hs] at hkf
      injection hkf with hkf
      rcases hend with h0 | h0
      · rw [hkf] at h0; exact nomatch h0
      · have hst : st.start = 0 := by
          by_contra h1
          exact h0 ⟨hk1, by omega⟩
        rcases hw.2.2 with h1 | h1
        · omega
        · have := hinv.nosep (a - 1) (by omega) (by omega)
          rw [this] at h1
          exact nomatch h1
    · intro hno
      have hkf := hno k (by omega)
      rw [hs] at hkf
      injection hkf with hkf
      subst hkf
      have hst : st.start = 0 := by
        rcases hinv.before with h1 | h1
        · exact h1
        · have := hno (st.start - 1) (by have := (List.getElem?_eq_some_iff.mp h1).1; omega)
          rw [this] at h1
          exact nomatch h1
      have he : (wordStep minPct bg seps.length st k false).ents = st.ents := by
        unfold wordStep
        rw [if_neg (by rw [hst]; simp)]
      rw [he]
      exact List.ext_getElem? fun i => hinv.rest i (by omega)
  · rw [not_or, not_not] at hend
    obtain ⟨hsep, -, hst⟩ := hend
    have hsf : sep = false := by simpa using hsep
    subst hsf
    have hsk := hinv.start
    have hfl : k ≤ st.ents.length := by rw [hinv.len]; omega
    have hcounts : Counter.bump st.counts (st.ents.getD k 0) 1 = tally bg (slice preds st.start (k + 1)) := by
      rw [slice_succ preds _ _ hsk (by omega), tally_append, hinv.counts]
      congr 1
      rw [List.getD_eq_getElem?_getD, List.getD_eq_getElem?_getD, hinv.rest k hsk]
    obtain ⟨dom, hdom⟩ : ∃ x, x = dominate minPct bg (tally bg (slice preds st.start (k + 1))) := ⟨_, rfl⟩
    have hspec := dominate_spec minPct bg (slice preds st.start (k + 1))
    rw [← hdom] at hspec
    have he : (wordStep minPct bg seps.length st k false).ents = around (fill st.ents st.start k dom) bg st.start k dom := by
      unfold wordStep
      simp only [Bool.false_eq_true, if_false, false_or]
      rw [if_pos ⟨hk1, hst⟩, hcounts, ← hdom]
    have hlen : (fill st.ents st.start k dom).length = preds.length := by rw [fill_length _ _ _ _ hfl, hinv.len]
    have hbefore : seps[st.start - 1]? = some true := by
      rcases hinv.before with h0 | h0
      · omega
      · exact h0
    have hword : IsWord seps st.start (k + 1) := by
      refine ⟨by omega, fun i h1 h2 => ?_, hinv.before⟩
      rcases Nat.lt_or_ge i k with h3 | h3
      · exact hinv.nosep i h1 h3
      · obtain rfl : i = k := by omega
        exact hs
    rw [he]
    refine ⟨by rw [around_length, hlen], ?_, ?_, ?_, ?_⟩
    · intro a b hw hb
      have hbk : b < k := by
        have := (List.getElem?_eq_some_iff.mp hb).1
        rcases Nat.lt_or_ge b k with h0 | h0
        · exact h0
        · obtain rfl : b = k := by omega
          rw [hs] at hb
          exact nomatch hb
      have hbs : b < st.start := by
        by_contra h0
        have := hinv.nosep b (by omega) hbk
        rw [this] at hb
        exact nomatch hb
      refine ⟨_, dominate_spec _ _ _, fun i h1 h2 => ?_⟩
      have hi : seps[i]? = some false := hw.2.1 i h1 h2
      rw [around_get _ _ _ _ _ _ (by omega) (by
        intro _ h3
        rw [← h3, hi] at hbefore
        exact nomatch hbefore), fill_get _ _ _ _ _ hfl, if_neg (by omega)]
      exact hinv.words a b hw hb hbk i h1 h2
    · intro i hi hsi
      have hik : i ≠ k := by
        rintro rfl
        rw [hs] at hsi
        exact nomatch hsi
      rcases around_val (fill st.ents st.start k dom) bg st.start k dom i (by rw [hlen]; exact hi) with h1 | ⟨h1, h2, h3, h4⟩
      · rw [h1, fill_get _ _ _ _ _ hfl, if_neg]
        · exact hinv.seps i hi hsi
        · rintro ⟨h2, h3⟩
          have := hinv.nosep i h2 h3
          rw [hsi] at this
          exact nomatch this
      · refine .inr ⟨h1, st.start, k + 1, hword, h3, .inl hk1, by omega, ?_⟩
        rw [h2] at hspec
        exact hspec
    · intro a ha han hw
      have hast : a = st.start := by
        rcases Nat.lt_trichotomy a st.start with h5 | h5 | h5
        · have := hw.2.1 (st.start - 1) (by omega) (by omega)
          rw [this] at hbefore
          exact nomatch hbefore
        · exact h5
        · rcases hw.2.2 with h6 | h6
          · omega
          · have := hinv.nosep (a - 1) (by omega) (by omega)
            rw [this] at h6
            exact nomatch h6
      subst hast
      have hsl : slice preds st.start (k + 1) = preds.drop st.start := by
        unfold slice
        rw [List.take_of_length_le (by omega)]
      rw [hsl] at hspec
      refine ⟨dom, hspec, fun i h1 h2 => ?_, ?_⟩
      · rw [around_get _ _ _ _ _ _ (by omega) (by intro; omega), fill_get _ _ _ _ _ hfl, if_pos ⟨h1, by omega⟩]
      · have hpk : preds.length - 1 = k := by omega
        rw [hpk]
        rcases around_val (fill st.ents st.start k dom) bg st.start k dom k (by rw [hlen]; omega) with h1 | ⟨h1, h2, -, -⟩
        · left
          rw [h1, fill_get _ _ _ _ _ hfl, if_neg (by omega), hinv.rest k hsk]
        · exact .inr ⟨h2, h1⟩
    · intro hno
      have := hno (st.start - 1) (by omega)
      rw [this] at hbefore
      exact nomatch hbefore

/-! ### Cells -/

theorem cellCounts_wf (pad : ℕ) (labels : List ℕ) (len : ℕ) : PyDict.WF (cellCounts pad labels len) :=
  PyDict.WF_del (Counter.wf_ofList _) _

theorem cellCounts_at0 (pad : ℕ) (labels : List ℕ) (len l : ℕ) :
    Counter.at0 (cellCounts pad labels len) l = if pad = l then 0 else (labels.take len).count l := by
  unfold cellCounts
  rw [Counter.at0_del (Counter.wf_ofList _), Counter.at0_ofList]
  split_ifs
  · rfl
  · rw [List.count]
    rfl

theorem ofList_keys (l : List ℕ) (k : ℕ) : k ∈ PyDict.keys (Counter.ofList l) ↔ k ∈ l := by
  induction l using List.reverseRecOn with
  | nil => simp [Counter.ofList, PyDict.keys]
  | append_singleton l x ih =>
    have : Counter.ofList (l ++ [x]) = Counter.bump (Counter.ofList l) x 1 := by simp [Counter.ofList, List.foldl_append]
    rw [this, Counter.mem_keys_bump, ih, List.mem_append, List.mem_singleton]

theorem cellCounts_keys (pad : ℕ) (labels : List ℕ) (len l : ℕ) :
    l ∈ PyDict.keys (cellCounts pad labels len) ↔ l ≠ pad ∧ l ∈ labels.take len := by
  unfold cellCounts
  rw [Counter.mem_keys_del (Counter.wf_ofList _), ofList_keys]

theorem at0_mem {d : PyDict ℕ ℕ} (h : PyDict.WF d) {x : ℕ × ℕ} (hx : x ∈ d) : Counter.at0 d x.1 = x.2 := by
  have := PyDict.get?_of_mem h (show (x.1, x.2) ∈ d from hx)
  simp [Counter.at0, PyDict.getD, this]

theorem mem_modes {d : PyDict ℕ ℕ} (h : PyDict.WF d) (w : ℕ) :
    w ∈ modes d ↔ w ∈ PyDict.keys d ∧ ∀ l, Counter.at0 d l ≤ Counter.at0 d w := by
  have hp := Counter.sortDesc_perm d
  have hs := Counter.sortDesc_sorted d
  unfold modes Counter.mostCommon
  cases hd : Counter.sortDesc d with
  | nil =>
    rw [hd] at hp
    have : d = [] := by simpa using hp
    subst this
    simp [PyDict.keys]
  | cons y ys =>
    rw [hd] at hp hs
    rw [List.pairwise_cons] at hs
    have hyd : y ∈ d := hp.mem_iff.mp (by simp)
    have hmax : ∀ l, Counter.at0 d l ≤ y.2 := by
      intro l
      by_cases hl : l ∈ PyDict.keys d
      · obtain ⟨x, hx, rfl⟩ := List.mem_map.mp hl
        rw [at0_mem h hx]
        rcases List.mem_cons.mp (hp.mem_iff.mpr hx) with rfl | hx'
        · exact Nat.le_refl _
        · exact hs.1 x hx'
      · rw [Counter.at0_of_not_mem hl]; exact Nat.zero_le _
    have hg : ((y :: ys).take 1)[0]? = some y := by simp
    simp only [hg, List.mem_map, List.mem_filter, beq_iff_eq]
    constructor
    · rintro ⟨x, ⟨hx, hxy⟩, rfl⟩
      have hxd := hp.mem_iff.mp hx
      refine ⟨List.mem_map_of_mem hxd, fun l => ?_⟩
      rw [at0_mem h hxd, ← hxy]
      exact hmax l
    · rintro ⟨hk, hm⟩
      obtain ⟨x, hx, rfl⟩ := List.mem_map.mp hk
      refine ⟨x, ⟨hp.mem_iff.mpr hx, ?_⟩, rfl⟩
      have h1 := hm y.1
      rw [at0_mem h hyd, at0_mem h hx] at h1
      have h2 := hmax x.1
      rw [at0_mem h hx] at h2
      omega

theorem modes_nodup {d : PyDict ℕ ℕ} (h : PyDict.WF d) : (modes d).Nodup := by
  unfold modes
  refine List.Nodup.sublist (List.filter_sublist.map _) ?_
  have hp := (Counter.sortDesc_perm d).map (·.1)
  exact hp.nodup_iff.mpr h

theorem modes_nil {d : PyDict ℕ ℕ} (h : PyDict.WF d) (hm : modes d = []) : d = [] := by
  have hp := Counter.sortDesc_perm d
  have hs := Counter.sortDesc_sorted d
  cases hd : Counter.sortDesc d with
  | nil =>
    rw [hd] at hp
    simpa using hp
  | cons y ys =>
    unfold modes Counter.mostCommon at hm
    rw [hd] at hm
    simp at hm

theorem cellLabel_spec (choice : List ℕ → ℕ) (hc : ∀ l, l ≠ [] → choice l ∈ l) (dflt pad : ℕ) (labels : List ℕ) (len : ℕ) :
    IsCellLabel dflt pad (labels.take len) (cellLabel choice dflt pad labels len) := by
  have hwf := cellCounts_wf pad labels len
  have hat := cellCounts_at0 pad labels len
  have hkeys := cellCounts_keys pad labels len
  have hmm := mem_modes hwf
  have hnd := modes_nodup hwf
  have key : ∀ w, w ∈ modes (cellCounts pad labels len) → w ≠ pad ∧ w ∈ labels.take len ∧
      ∀ l, l ≠ pad → (labels.take len).count l ≤ (labels.take len).count w := by
    intro w hw
    obtain ⟨h1, h2⟩ := (hmm w).1 hw
    obtain ⟨h3, h4⟩ := (hkeys w).1 h1
    refine ⟨h3, h4, fun l hl => ?_⟩
    have := h2 l
    rwa [hat, hat, if_neg (Ne.symm hl), if_neg (Ne.symm h3)] at this
  have key2 : ∀ w l, w ∈ modes (cellCounts pad labels len) → l ≠ pad →
      (labels.take len).count w ≤ (labels.take len).count l → l ∈ modes (cellCounts pad labels len) := by
    intro w l hw hl hle
    obtain ⟨h3, h4, h5⟩ := key w hw
    have hpos := List.count_pos_iff.mpr h4
    refine (hmm l).2 ⟨(hkeys l).2 ⟨hl, List.count_pos_iff.mp (by omega)⟩, fun l' => ?_⟩
    have := ((hmm w).1 hw).2 l'
    rw [hat w, if_neg (Ne.symm h3)] at this
    rw [hat l, if_neg (Ne.symm hl)]
    omega
  unfold cellLabel
  split
  · rename_i h
    have h := modes_nil hwf h
    intro l hl
    by_contra hne
    have := (hkeys l).2 ⟨hne, hl⟩
    rw [h] at this
    simp [PyDict.keys] at this
  · rename_i m h
    obtain ⟨h1, h2, h3⟩ := key m (by rw [h]; simp)
    refine ⟨h1, h2, h3, fun hm l hl hld => ?_⟩
    by_contra hge
    have := key2 m l (by rw [h]; simp) hl (by omega)
    rw [h, List.mem_singleton] at this
    exact hld (this.trans hm)
  · rename_i h1 h2
    generalize hms : modes (cellCounts pad labels len) = ms at *
    by_cases hd : dflt ∈ ms
    · rw [if_pos hd]
      have hne : ms.erase dflt ≠ [] := by
        intro he
        match ms, hd, h1, h2, he with
        | [], hd, _, _, _ => exact absurd hd (by simp)
        | [m], _, _, h2, _ => exact h2 m rfl
        | a :: b :: r, _, _, _, he =>
          have := congrArg List.length he
          rw [List.length_erase] at this
          split_ifs at this <;> simp at this
      have hmem := hc _ hne
      obtain ⟨k1, k2⟩ := (List.Nodup.mem_erase_iff hnd).1 hmem
      obtain ⟨g1, g2, g3⟩ := key _ k2
      exact ⟨g1, g2, g3, fun he => absurd he k1⟩
    · rw [if_neg hd]
      have hmem := hc ms (by intro he; exact h1 he)
      obtain ⟨g1, g2, g3⟩ := key _ hmem
      exact ⟨g1, g2, g3, fun he => absurd (he ▸ hmem) hd⟩

theorem at0_cons (x : ℕ × ℕ) (d : PyDict ℕ ℕ) (k : ℕ) :
    Counter.at0 (x :: d) k = if x.1 = k then x.2 else Counter.at0 d k := by
  obtain ⟨a, b⟩ := x
  simp only [Counter.at0, PyDict.getD, PyDict.get?]
  split_ifs <;> rfl

theorem total_del {d : PyDict ℕ ℕ} (h : PyDict.WF d) (k : ℕ) :
    ((PyDict.del d k).map (·.2)).sum + Counter.at0 d k = (d.map (·.2)).sum := by
  induction d with
  | nil => rfl
  | cons x d ih =>
    obtain ⟨h1, h2⟩ := List.nodup_cons.mp h
    have := ih h2
    by_cases hk : x.1 = k
    · have h0 : Counter.at0 d k = 0 := Counter.at0_of_not_mem (by rw [← hk]; exact h1)
      have hx : Counter.at0 (x :: d) k = x.2 := by rw [at0_cons, if_pos hk]
      have hdel : (PyDict.del (x :: d) k) = PyDict.del d k ∨ (PyDict.del (x :: d) k) = d := by
        simp [PyDict.del, hk]
      rw [hx, List.map_cons, List.sum_cons]
      rcases hdel with hdel | hdel <;> rw [hdel]
      · omega
      · omega
    · have hx : Counter.at0 (x :: d) k = Counter.at0 d k := by rw [at0_cons, if_neg hk]
      have hdel : PyDict.del (x :: d) k = x :: PyDict.del d k := by simp [PyDict.del, hk]
      rw [hx, hdel, List.map_cons, List.sum_cons, List.map_cons, List.sum_cons]
      omega

theorem total_ofList (l : List ℕ) : ((Counter.ofList l).map (·.2)).sum = l.length := by
  induction l using List.reverseRecOn with
  | nil => rfl
  | append_singleton l x ih =>
    have h1 : Counter.ofList (l ++ [x]) = Counter.bump (Counter.ofList l) x 1 := by simp [Counter.ofList, List.foldl_append]
    have := Counter.total_bump (Counter.ofList l) x 1
    unfold Counter.total PyDict.values at this
    rw [h1, this, ih]
    simp

theorem cellCounts_total (pad : ℕ) (labels : List ℕ) (len : ℕ) :
    ((cellCounts pad labels len).map (·.2)).sum = ((labels.take len).filter (· ≠ pad)).length := by
  have h1 := total_del (Counter.wf_ofList (labels.take len)) pad
  rw [total_ofList, Counter.at0_ofList] at h1
  have h2 := List.length_eq_countP_add_countP (fun x => decide (x = pad)) (l := labels.take len)
  rw [← List.countP_eq_length_filter]
  have h3 : (labels.take len).countP (fun x => decide (¬ decide (x = pad) = true)) =
      (labels.take len).countP (fun x => decide (x ≠ pad)) := by
    congr 1; funext x; simp
  unfold cellCounts
  omega

theorem sum_range_at0 {d : PyDict ℕ ℕ} (h : PyDict.WF d) (num : ℕ) (hlt : ∀ x ∈ d, x.1 < num) :
    ((List.range num).map fun l => Counter.at0 d l).sum = (d.map (·.2)).sum := by
  induction d with
  | nil => simp [Counter.at0, PyDict.getD, PyDict.get?]
  | cons x d ih =>
    obtain ⟨h1, h2⟩ := List.nodup_cons.mp h
    have := ih h2 fun y hy => hlt y (by simp [hy])
    have hx := hlt x (by simp)
    have hat : ∀ l, Counter.at0 (x :: d) l = Counter.at0 d l + if l = x.1 then x.2 else 0 := by
      intro l
      by_cases hl : l = x.1
      · subst hl
        rw [Counter.at0_of_not_mem (d := d) h1]
        rw [at0_cons, if_pos rfl, if_pos rfl]; omega
      · rw [if_neg hl]
        rw [at0_cons, if_neg (Ne.symm hl)]; omega
    have hone : ∀ n, x.1 < n → ((List.range n).map fun l => if l = x.1 then x.2 else 0).sum = x.2 := by
      intro n
      induction n with
      | zero => intro h; omega
      | succ n ihn =>
        intro hn
        rw [List.range_succ, List.map_append, List.sum_append]
        by_cases he : x.1 = n
        · have hz : ((List.range n).map fun l => if l = x.1 then x.2 else 0) = (List.range n).map fun _ => 0 := by
            refine List.map_congr_left fun l hl => if_neg ?_
            have := List.mem_range.mp hl
            omega
          rw [hz]
          simp [he]
        · rw [ihn (by omega)]
          simp [Ne.symm he]
    have hsplit : ∀ n, ((List.range n).map fun l => Counter.at0 (x :: d) l).sum =
        ((List.range n).map fun l => Counter.at0 d l).sum + ((List.range n).map fun l => if l = x.1 then x.2 else 0).sum := by
      intro n
      induction n with
      | zero => rfl
      | succ n ihn =>
        simp only [List.range_succ, List.map_append, List.sum_append, List.map_cons, List.map_nil, List.sum_cons, List.sum_nil, ihn,
          hat n]
        omega
    rw [hsplit, this, hone num hx, List.map_cons, List.sum_cons]
    omega

end Verif.Postprocess
