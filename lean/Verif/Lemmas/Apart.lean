import Verif.Spec.Apart
import Mathlib.Data.List.Perm.Basic
import Mathlib.Data.List.Induction

/-! Lemmas for `Verif.Props.Apart`. -/

namespace Verif.Apart

open Verif.Spec.Apart

variable {ρ η β ω : Type}

/-- The keys are the hashes of the rows, each once. -/
def Keys (lib : Lib ρ η β) (keys : List ℕ) (rows : List ρ) : Prop :=
  keys.Nodup ∧ ∀ x, x ∈ keys ↔ x ∈ rows.map lib.hash

theorem mem_insertKey {keys : List ℕ} {k x : ℕ} : x ∈ insertKey keys k ↔ x ∈ keys ∨ x = k := by
  unfold insertKey
  split
  · constructor
    · exact Or.inl
    · rintro (h | rfl) <;> assumption
  · simp

theorem nodup_insertKey {keys : List ℕ} {k : ℕ} (h : keys.Nodup) : (insertKey keys k).Nodup := by
  unfold insertKey
  split
  · exact h
  · rename_i hk
    rw [List.nodup_append]
    refine ⟨h, by simp, ?_⟩
    intro a ha b hb hab
    simp at hb
    subst hb; subst hab
    exact hk ha

theorem keys_fold (lib : Lib ρ η β) (rows : List ρ) : ∀ {keys : List ℕ} {old : List ρ}, Keys lib keys old →
    Keys lib (rows.foldl (fun ks r => insertKey ks (lib.hash r)) keys) (old ++ rows) := by
  induction rows with
  | nil => intro keys old h; simpa using h
  | cons r rs ih =>
    intro keys old h
    have h' : Keys lib (insertKey keys (lib.hash r)) (old ++ [r]) := by
      refine ⟨nodup_insertKey h.1, fun x => ?_⟩
      rw [mem_insertKey, h.2 x]
      simp [eq_comm]
    have := ih h'
    simpa using this

theorem foldl_insertKey (b : List ℕ) : ∀ {keys : List ℕ}, keys.Nodup →
    (b.foldl insertKey keys).Nodup ∧ ∀ x, x ∈ b.foldl insertKey keys ↔ x ∈ keys ∨ x ∈ b := by
  induction b with
  | nil => intro keys h; simpa using h
  | cons k ks ih =>
    intro keys h
    have := ih (nodup_insertKey (k := k) h)
    refine ⟨this.1, fun x => ?_⟩
    rw [List.foldl_cons, this.2 x, mem_insertKey]
    simp [or_assoc]

theorem keys_length {lib : Lib ρ η β} {keys : List ℕ} {rows : List ρ} (h : Keys lib keys rows) :
    keys.length = (rows.map lib.hash).dedup.length := by
  apply List.Perm.length_eq
  rw [List.perm_ext_iff_of_nodup h.1 (List.nodup_dedup _)]
  intro x
  rw [h.2 x, List.mem_dedup]

/-- What holds of one profile. -/
def Good (lib : Lib ρ η β) (w : World η β ω) (i : ℕ) (p : Prof) (x : Bool × List ρ) : Prop :=
  p.acc = i ∧ p.total = x.2.length ∧ w.accs[i]? = some (x.2.flatMap lib.pieces) ∧
  (x.1 = false → p.store = i ∧ ∃ keys, w.stores[i]? = some (.full keys) ∧ Keys lib keys x.2) ∧
  (x.1 = true → ∃ sk, w.stores[p.store]? = some (.hll sk))

/-- What holds after every history. -/
structure Inv (lib : Lib ρ η β) (w : World η β ω) (s : List (Bool × List ρ)) : Prop where
  hs : w.stores.length = s.length
  ha : w.accs.length = s.length
  hp : w.profs.length = s.length
  good : ∀ i p, w.profs[i]? = some p → ∃ x, s[i]? = some x ∧ Good lib w i p x

theorem lt_of_some {α : Type} {l : List α} {i : ℕ} {a : α} (h : l[i]? = some a) : i < l.length := by
  by_contra hn
  rw [List.getElem?_eq_none (by omega)] at h
  cases h

theorem append_some {α : Type} {l m : List α} {i : ℕ} {a : α} (h : l[i]? = some a) : (l ++ m)[i]? = some a := by
  rw [List.getElem?_append_left (lt_of_some h)]; exact h

theorem snoc_cases {α : Type} {l : List α} {i : ℕ} {a b : α} (h : (l ++ [b])[i]? = some a) :
    l[i]? = some a ∨ (i = l.length ∧ a = b) := by
  rcases Nat.lt_trichotomy i l.length with hi | hi | hi
  · rw [List.getElem?_append_left hi] at h; exact Or.inl h
  · subst hi; right; simpa [eq_comm] using h
  · rw [List.getElem?_eq_none (by simp; omega)] at h; cases h

theorem snoc_self {α : Type} {l : List α} {n : ℕ} {b : α} (h : l.length = n) : (l ++ [b])[n]? = some b := by
  subst h; simp

theorem inv_make {lib : Lib ρ η β} {w : World η β ω} {s : List (Bool × List ρ)} (h : Inv lib w s) (b : Bool) (o : ω) :
    Inv lib (make lib w b o) (s ++ [(b, [])]) := by
  refine ⟨by simp [make, h.hs], by simp [make, h.ha], by simp [make, h.hp], ?_⟩
  intro i p hp
  rcases snoc_cases hp with hp | ⟨rfl, rfl⟩
  · obtain ⟨x, hx, h1, h2, h3, h4, h5⟩ := h.good i p hp
    refine ⟨x, append_some hx, h1, h2, append_some h3, fun hf => ?_, fun ht => ?_⟩
    · obtain ⟨a, keys, hk, hk'⟩ := h4 hf
      exact ⟨a, keys, append_some hk, hk'⟩
    · obtain ⟨sk, hk⟩ := h5 ht
      exact ⟨sk, append_some hk⟩
  · refine ⟨(b, []), snoc_self h.hp.symm, by rw [h.ha, h.hp], rfl, snoc_self (by rw [h.ha, h.hp]), ?_, ?_⟩
    · intro hf
      simp only at hf
      subst hf
      refine ⟨by rw [h.hs, h.hp], [], snoc_self (by rw [h.hs, h.hp]), by simp [Keys]⟩
    · intro ht
      simp only at ht
      subst ht
      exact ⟨lib.empty, snoc_self rfl⟩

theorem inv_update {lib : Lib ρ η β} {w : World η β ω} {s : List (Bool × List ρ)} (h : Inv lib w s) (i : ℕ) (rows : List ρ) :
    Inv lib (update lib w i rows) (s.modify i fun x => (x.1, x.2 ++ rows)) := by
  unfold update
  cases hp : w.profs[i]? with
  | none =>
    have hi : s.length ≤ i := by rw [← h.hp]; exact List.getElem?_eq_none_iff.mp hp
    rw [List.modify_eq_self hi]
    exact h
  | some p =>
    obtain ⟨x, hx, g1, g2, g3, g4, g5⟩ := h.good i p hp
    refine ⟨by simp [h.hs], by simp [h.ha], by simp [h.hp], ?_⟩
    intro k q hq
    simp only [List.getElem?_set] at hq
    by_cases hik : i = k
    · subst hik
      simp only [if_true] at hq
      rw [if_pos (lt_of_some hp)] at hq
      cases hq
      refine ⟨(x.1, x.2 ++ rows), by simp [hx], g1, by simp [g2], ?_, ?_, ?_⟩
      · simp [g1, g3]
      · intro hf
        obtain ⟨e, keys, hk, hk'⟩ := g4 hf
        refine ⟨e, _, by simp [e, hk, Store.feed], keys_fold lib rows hk'⟩
      · intro ht
        obtain ⟨sk, hk⟩ := g5 ht
        exact ⟨rows.foldl lib.add sk, by simp [hk, Store.feed]⟩
    · rw [if_neg hik] at hq
      obtain ⟨y, hy, k1, k2, k3, k4, k5⟩ := h.good k q hq
      refine ⟨y, by simp [hy, hik], k1, k2, by simp [k3, g1, hik], ?_, ?_⟩
      · intro hf
        obtain ⟨e, keys, hk, hk'⟩ := k4 hf
        have hne : p.store ≠ k := by
          intro he
          cases hb : x.1 with
          | false => exact hik ((g4 hb).1 ▸ he)
          | true =>
            obtain ⟨sk, hsk⟩ := g5 hb
            rw [he, hk] at hsk
            cases hsk
        exact ⟨e, keys, by simp [hk, hne], hk'⟩
      · intro ht
        obtain ⟨sk, hk⟩ := k5 ht
        by_cases he : p.store = q.store
        · exact ⟨rows.foldl lib.add sk, by simp [hk, he, Store.feed]⟩
        · exact ⟨sk, by simp [hk, he]⟩

theorem kind_of {lib : Lib ρ η β} {w : World η β ω} {i : ℕ} {p : Prof} {x : Bool × List ρ} (g : Good lib w i p x) :
    (∃ keys, x.1 = false ∧ p.store = i ∧ w.stores[p.store]? = some (.full keys) ∧ Keys lib keys x.2) ∨
    (∃ sk, x.1 = true ∧ w.stores[p.store]? = some (.hll sk)) := by
  obtain ⟨_, _, _, h4, h5⟩ := g
  cases hb : x.1 with
  | false =>
    obtain ⟨e, keys, hk, hk'⟩ := h4 hb
    exact Or.inl ⟨keys, rfl, e, by rw [e]; exact hk, hk'⟩
  | true =>
    obtain ⟨sk, hk⟩ := h5 hb
    exact Or.inr ⟨sk, rfl, hk⟩

theorem inv_merge {lib : Lib ρ η β} {w : World η β ω} {s : List (Bool × List ρ)} (h : Inv lib w s) (i j : ℕ) :
    Inv lib (merge lib w i j) (given s (.merge i j : Op ρ ω)) := by
  unfold merge given
  cases hp : w.profs[i]? with
  | none =>
    have : s[i]? = none := by
      rw [List.getElem?_eq_none_iff, ← h.hp]; exact List.getElem?_eq_none_iff.mp hp
    simp only [this]; exact h
  | some p =>
    obtain ⟨x, hx, gx⟩ := h.good i p hp
    cases hq : w.profs[j]? with
    | none =>
      have : s[j]? = none := by
        rw [List.getElem?_eq_none_iff, ← h.hp]; exact List.getElem?_eq_none_iff.mp hq
      simp only [this, hx]; exact h
    | some q =>
      obtain ⟨y, hy, gy⟩ := h.good j q hq
      simp only [hx, hy]
      have hacc : w.accs.getD p.acc [] ++ w.accs.getD q.acc [] = (x.2 ++ y.2).flatMap lib.pieces := by
        simp [List.getD, gx.1, gy.1, gx.2.2.1, gy.2.2.1]
      rcases kind_of gx with ⟨ka, xa, ea, sa, Ka⟩ | ⟨ka, xa, sa⟩ <;> rcases kind_of gy with ⟨kb, yb, eb, sb, Kb⟩ | ⟨kb, yb, sb⟩
      · simp only [sa, sb, xa, yb, if_true]
        refine ⟨by simp [joined, h.hs], by simp [joined, h.ha], by simp [joined, h.hp], ?_⟩
        intro k r hr
        rcases snoc_cases hr with hr | ⟨rfl, rfl⟩
        · obtain ⟨z, hz, h1, h2, h3, h4, h5⟩ := h.good k r hr
          refine ⟨z, append_some hz, h1, h2, append_some h3, fun hf => ?_, fun ht => ?_⟩
          · obtain ⟨a, keys, hk, hk'⟩ := h4 hf
            exact ⟨a, keys, append_some hk, hk'⟩
          · obtain ⟨sk, hk⟩ := h5 ht
            exact ⟨sk, append_some hk⟩
        · refine ⟨(false, x.2 ++ y.2), snoc_self h.hp.symm, by simp [h.ha, h.hp], by simp [gx.2.1, gy.2.1], ?_, ?_, by simp⟩
          · simp only [joined, hacc]
            exact snoc_self (by rw [h.ha, h.hp])
          · intro _
            refine ⟨by simp [h.hs, h.hp], _, snoc_self (by rw [h.hs, h.hp]), ?_⟩
            have h1 := foldl_insertKey ka (keys := []) (by simp)
            have h2 := foldl_insertKey kb h1.1
            refine ⟨h2.1, fun z => ?_⟩
            rw [h2.2 z, h1.2 z, Ka.2 z, Kb.2 z]
            simp
      · simp only [sa, sb, xa, yb]; exact h
      · simp only [sa, sb, xa, yb]; exact h
      · simp only [sa, sb, xa, yb, if_true]
        refine ⟨by simp [joined, h.hs], by simp [joined, h.ha], by simp [joined, h.hp], ?_⟩
        intro k r hr
        rcases snoc_cases hr with hr | ⟨rfl, rfl⟩
        · obtain ⟨z, hz, h1, h2, h3, h4, h5⟩ := h.good k r hr
          refine ⟨z, append_some hz, h1, h2, append_some h3, fun hf => ?_, fun ht => ?_⟩
          · obtain ⟨a, keys, hk, hk'⟩ := h4 hf
            refine ⟨a, keys, append_some ?_, hk'⟩
            rw [List.getElem?_set]
            split
            · rename_i he; rw [he, hk] at sa; cases sa
            · exact hk
          · obtain ⟨sk, hk⟩ := h5 ht
            by_cases he : p.store = r.store
            · exact ⟨_, append_some (by simp only [List.getElem?_set]; rw [if_pos he, if_pos (lt_of_some sa)])⟩
            · exact ⟨sk, append_some (by rw [List.getElem?_set, if_neg he]; exact hk)⟩
        · refine ⟨(true, x.2 ++ y.2), snoc_self h.hp.symm, by simp [h.ha, h.hp], by simp [gx.2.1, gy.2.1], ?_, by simp, ?_⟩
          · simp only [joined, hacc]
            exact snoc_self (by rw [h.ha, h.hp])
          · intro _
            exact ⟨_, append_some (by simp only [List.getElem?_set, if_true]; rw [if_pos (lt_of_some sa)])⟩

theorem inv_step {lib : Lib ρ η β} {w : World η β ω} {s : List (Bool × List ρ)} (h : Inv lib w s) (op : Op ρ ω) :
    Inv lib (step lib w op) (given s op) := by
  cases op with
  | make b o => exact inv_make h b o
  | update i rows => exact inv_update h i rows
  | merge i j => exact inv_merge h i j
  | set i o =>
    simp only [step, setOptions, given]
    split
    · exact h
    · exact ⟨h.hs, h.ha, h.hp, h.good⟩

theorem inv_foldl {lib : Lib ρ η β} (ops : List (Op ρ ω)) : ∀ {w : World η β ω} {s : List (Bool × List ρ)}, Inv lib w s →
    Inv lib (ops.foldl (step lib) w) (ops.foldl given s) := by
  induction ops with
  | nil => intro w s h; exact h
  | cons op ops ih => intro w s h; exact ih (inv_step h op)

theorem inv_run (lib : Lib ρ η β) (ops : List (Op ρ ω)) : Inv lib (run lib ops) (rowsGiven ops) :=
  inv_foldl ops ⟨rfl, rfl, rfl, by simp [World.none]⟩

/-- Addresses of a profile do not change. -/
theorem step_addresses (lib : Lib ρ η β) (w : World η β ω) (op : Op ρ ω) {i : ℕ} {p : Prof} (hp : w.profs[i]? = some p) :
    ∃ p', (step lib w op).profs[i]? = some p' ∧ p'.store = p.store ∧ p'.opts = p.opts := by
  cases op with
  | make b o => exact ⟨p, append_some hp, rfl, rfl⟩
  | update k rows =>
    simp only [step, update]
    split
    · exact ⟨p, hp, rfl, rfl⟩
    · rename_i q hq
      by_cases hk : k = i
      · subst hk
        rw [hp] at hq; cases hq
        exact ⟨{ p with total := p.total + rows.length },
          by simp only [List.getElem?_set, if_true]; rw [if_pos (lt_of_some hp)], rfl, rfl⟩
      · exact ⟨p, by simp [hk, hp], rfl, rfl⟩
  | merge k l =>
    simp only [step, merge]
    split
    · split
      · exact ⟨p, append_some hp, rfl, rfl⟩
      · exact ⟨p, append_some hp, rfl, rfl⟩
      · exact ⟨p, hp, rfl, rfl⟩
    · exact ⟨p, hp, rfl, rfl⟩
  | set k o =>
    simp only [step, setOptions]
    split
    · exact ⟨p, hp, rfl, rfl⟩
    · exact ⟨p, hp, rfl, rfl⟩

theorem foldl_addresses (lib : Lib ρ η β) (ops : List (Op ρ ω)) : ∀ (w : World η β ω) {i : ℕ} {p : Prof}, w.profs[i]? = some p →
    ∃ p', (ops.foldl (step lib) w).profs[i]? = some p' ∧ p'.store = p.store ∧ p'.opts = p.opts := by
  induction ops with
  | nil => intro w i p h; exact ⟨p, h, rfl, rfl⟩
  | cons op ops ih =>
    intro w i p h
    obtain ⟨p1, h1, e1, e2⟩ := step_addresses lib w op h
    obtain ⟨p2, h2, f1, f2⟩ := ih _ h1
    exact ⟨p2, h2, f1.trans e1, f2.trans e2⟩

/-- Profiles with sketches that were not yet left operands: stores of their own, with the rows given. -/
structure Own (lib : Lib ρ η β) (w : World η β ω) (s : List (Bool × List ρ)) (spent : ℕ → Prop) : Prop where
  sketch : ∀ i p x, w.profs[i]? = some p → s[i]? = some x → x.1 = true → ¬ spent i →
    w.stores[p.store]? = some (.hll (x.2.foldl lib.add lib.empty))
  apart : ∀ i j p q x y, w.profs[i]? = some p → w.profs[j]? = some q → s[i]? = some x → s[j]? = some y → x.1 = true → y.1 = true →
    ¬ spent i → ¬ spent j → i ≠ j → p.store ≠ q.store

theorem lookup_prof {lib : Lib ρ η β} {w : World η β ω} {s : List (Bool × List ρ)} (h : Inv lib w s) {i : ℕ} {x : Bool × List ρ}
    (hx : s[i]? = some x) : ∃ p, w.profs[i]? = some p ∧ Good lib w i p x := by
  have hi : i < w.profs.length := by rw [h.hp]; exact lt_of_some hx
  obtain ⟨y, hy, g⟩ := h.good i _ (List.getElem?_eq_getElem hi)
  rw [hx] at hy; cases hy
  exact ⟨_, List.getElem?_eq_getElem hi, g⟩

theorem own_make {lib : Lib ρ η β} {w : World η β ω} {s : List (Bool × List ρ)} {sp : ℕ → Prop} (h : Inv lib w s)
    (ho : Own lib w s sp) (b : Bool) (o : ω) : Own lib (make lib w b o) (s ++ [(b, [])]) sp := by
  have store_lt : ∀ {i : ℕ} {p : Prof} {x : Bool × List ρ}, w.profs[i]? = some p → s[i]? = some x → x.1 = true → p.store < w.stores.length := by
    intro i p x hp hx hb
    obtain ⟨y, hy, g⟩ := h.good i p hp
    rw [hx] at hy; cases hy
    obtain ⟨sk, hk⟩ := g.2.2.2.2 hb
    exact lt_of_some hk
  constructor
  · intro i p x hp hx hb hs
    rcases snoc_cases hp with hp | ⟨rfl, rfl⟩
    · rcases snoc_cases hx with hx | ⟨e, _⟩
      · exact append_some (ho.sketch i p x hp hx hb hs)
      · have := lt_of_some hp; rw [h.hp] at this; omega
    · rcases snoc_cases hx with hx | ⟨_, rfl⟩
      · have := lt_of_some hx; rw [h.hp] at this; omega
      · simp only at hb
        subst hb
        exact snoc_self rfl
  · intro i j p q x y hp hq hx hy hb hc hs ht hij
    rcases snoc_cases hp with hp | ⟨rfl, rfl⟩
    · rcases snoc_cases hx with hx | ⟨e, _⟩
      · rcases snoc_cases hq with hq | ⟨rfl, rfl⟩
        · rcases snoc_cases hy with hy | ⟨e, _⟩
          · exact ho.apart i j p q x y hp hq hx hy hb hc hs ht hij
          · have := lt_of_some hq; rw [h.hp] at this; omega
        · have := store_lt hp hx hb
          simp only; omega
      · have := lt_of_some hp; rw [h.hp] at this; omega
    · rcases snoc_cases hq with hq | ⟨rfl, rfl⟩
      · rcases snoc_cases hy with hy | ⟨e, _⟩
        · have := store_lt hq hy hc
          simp only; omega
        · have := lt_of_some hq; rw [h.hp] at this; omega
      · exact absurd rfl hij

theorem own_update {lib : Lib ρ η β} {w : World η β ω} {s : List (Bool × List ρ)} {sp : ℕ → Prop} (h : Inv lib w s)
    (ho : Own lib w s sp) (i : ℕ) (rows : List ρ) (hi : ¬ sp i) :
    Own lib (update lib w i rows) (s.modify i fun x => (x.1, x.2 ++ rows)) sp := by
  unfold update
  cases hp : w.profs[i]? with
  | none =>
    have hi : s.length ≤ i := by rw [← h.hp]; exact List.getElem?_eq_none_iff.mp hp
    rw [List.modify_eq_self hi]
    exact ho
  | some p =>
    obtain ⟨x, hx, gx⟩ := h.good i p hp
    have back : ∀ {k : ℕ} {q : Prof} {y : Bool × List ρ}, (w.profs.set i { p with total := p.total + rows.length })[k]? = some q →
        (s.modify i fun x => (x.1, x.2 ++ rows))[k]? = some y →
        ∃ q' y', w.profs[k]? = some q' ∧ s[k]? = some y' ∧ q.store = q'.store ∧ y.1 = y'.1 ∧
          (i = k → q' = p ∧ y' = x ∧ y.2 = x.2 ++ rows) ∧ (i ≠ k → y = y') := by
      intro k q y hq hy
      by_cases hk : i = k
      · subst hk
        simp only [List.getElem?_set, if_true] at hq
        rw [if_pos (lt_of_some hp)] at hq
        simp [hx] at hy
        cases hq
        subst hy
        exact ⟨p, x, hp, hx, rfl, rfl, fun _ => ⟨rfl, rfl, rfl⟩, fun hn => absurd rfl hn⟩
      · rw [List.getElem?_set, if_neg hk] at hq
        simp [hk] at hy
        exact ⟨q, y, hq, hy, rfl, rfl, fun e => absurd e hk, fun _ => rfl⟩
    constructor
    · intro k q y hq hy hb hs
      obtain ⟨q', y', hq', hy', e1, e2, e3, e4⟩ := back hq hy
      have hk := ho.sketch k q' y' hq' hy' (e2 ▸ hb) hs
      by_cases hik : i = k
      · obtain ⟨rfl, rfl, e⟩ := e3 hik
        simp [hk, e1, e, Store.feed]
      · have e := e4 hik
        subst e
        rw [e1]
        have hne : p.store ≠ q'.store := by
          rcases kind_of gx with ⟨ka, xa, ea, sa, _⟩ | ⟨ka, xa, sa⟩
          · intro he; rw [he, hk] at sa; cases sa
          · exact ho.apart i k p q' x y hp hq' hx hy' xa hb hi hs hik
        simp [hne, hk]
    · intro k l q r y z hq hr hy hz hb hc hs ht hkl
      obtain ⟨q', y', hq', hy', e1, e2, _, _⟩ := back hq hy
      obtain ⟨r', z', hr', hz', f1, f2, _, _⟩ := back hr hz
      rw [e1, f1]
      exact ho.apart k l q' r' y' z' hq' hr' hy' hz' (e2 ▸ hb) (f2 ▸ hc) hs ht hkl

theorem own_merge {lib : Lib ρ η β} {w : World η β ω} {s : List (Bool × List ρ)} {sp : ℕ → Prop} (h : Inv lib w s)
    (law : MergeLaw lib) (ho : Own lib w s sp) (i j : ℕ) (hi : ¬ sp i) (hj : ¬ sp j) :
    Own lib (merge lib w i j) (given s (.merge i j : Op ρ ω)) (fun k => sp k ∨ k = i) := by
  have weak : Own lib w s (fun k => sp k ∨ k = i) :=
    ⟨fun k p x a b c d => ho.sketch k p x a b c (fun e => d (Or.inl e)),
      fun k l p q x y a b c d e f g g' => ho.apart k l p q x y a b c d e f (fun e => g (Or.inl e)) (fun e => g' (Or.inl e))⟩
  unfold merge given
  cases hp : w.profs[i]? with
  | none =>
    have : s[i]? = none := by
      rw [List.getElem?_eq_none_iff, ← h.hp]; exact List.getElem?_eq_none_iff.mp hp
    simp only [this]; exact weak
  | some p =>
    obtain ⟨x, hx, gx⟩ := h.good i p hp
    cases hq : w.profs[j]? with
    | none =>
      have : s[j]? = none := by
        rw [List.getElem?_eq_none_iff, ← h.hp]; exact List.getElem?_eq_none_iff.mp hq
      simp only [this, hx]; exact weak
    | some q =>
      obtain ⟨y, hy, gy⟩ := h.good j q hq
      simp only [hx, hy]
      rcases kind_of gx with ⟨ka, xa, ea, sa, Ka⟩ | ⟨ka, xa, sa⟩ <;> rcases kind_of gy with ⟨kb, yb, eb, sb, Kb⟩ | ⟨kb, yb, sb⟩
      · simp only [sa, sb, xa, yb, if_true]
        constructor
        · intro k r z hr hz hb hs
          rcases snoc_cases hz with hz | ⟨_, rfl⟩
          · rcases snoc_cases hr with hr | ⟨e, _⟩
            · exact append_some (weak.sketch k r z hr hz hb hs)
            · have := lt_of_some hz; rw [← h.hp] at this; omega
          · simp at hb
        · intro k l r t z u hr ht hz hu hb hc hs hs' hkl
          rcases snoc_cases hz with hz | ⟨_, rfl⟩
          · rcases snoc_cases hu with hu | ⟨_, rfl⟩
            · rcases snoc_cases hr with hr | ⟨e, _⟩
              · rcases snoc_cases ht with ht | ⟨e, _⟩
                · exact weak.apart k l r t z u hr ht hz hu hb hc hs hs' hkl
                · have := lt_of_some hu; rw [← h.hp] at this; omega
              · have := lt_of_some hz; rw [← h.hp] at this; omega
            · simp at hc
          · simp at hb
      · simp only [sa, sb, xa, yb]; exact weak
      · simp only [sa, sb, xa, yb]; exact weak
      · have ska := ho.sketch i p x hp hx xa hi
        have skb := ho.sketch j q y hq hy yb hj
        rw [sa] at ska; rw [sb] at skb
        cases ska; cases skb
        simp only [sa, sb, xa, yb, if_true]
        have ne_left : ∀ {k : ℕ} {r : Prof} {z : Bool × List ρ}, w.profs[k]? = some r →
            s[k]? = some z → z.1 = true → ¬ (sp k ∨ k = i) → p.store ≠ r.store := by
          intro k r z hr hz hb hs
          exact ho.apart i k p r x z hp hr hx hz xa hb hi (fun e => hs (Or.inl e)) (fun e => hs (Or.inr e.symm))
        constructor
        · intro k r z hr hz hb hs
          rcases snoc_cases hr with hr | ⟨rfl, rfl⟩
          · rcases snoc_cases hz with hz | ⟨e, _⟩
            · refine append_some ?_
              rw [List.getElem?_set, if_neg (ne_left hr hz hb hs)]
              exact weak.sketch k r z hr hz hb hs
            · have := lt_of_some hr; rw [h.hp] at this; omega
          · rcases snoc_cases hz with hz | ⟨_, rfl⟩
            · have := lt_of_some hz; rw [← h.hp] at this; simp at this
            · refine append_some ?_
              simp only [List.getElem?_set, if_true]
              rw [if_pos (lt_of_some sa), law]
        · intro k l r t z u hr ht hz hu hb hc hs hs' hkl
          rcases snoc_cases hr with hr | ⟨rfl, rfl⟩
          · rcases snoc_cases hz with hz | ⟨e, _⟩
            · rcases snoc_cases ht with ht | ⟨rfl, rfl⟩
              · rcases snoc_cases hu with hu | ⟨e, _⟩
                · exact weak.apart k l r t z u hr ht hz hu hb hc hs hs' hkl
                · have := lt_of_some ht; rw [h.hp] at this; omega
              · exact fun e => ne_left hr hz hb hs e.symm
            · have := lt_of_some hr; rw [h.hp] at this; omega
          · rcases snoc_cases ht with ht | ⟨rfl, rfl⟩
            · rcases snoc_cases hu with hu | ⟨e, _⟩
              · exact ne_left ht hu hc hs'
              · have := lt_of_some ht; rw [h.hp] at this; omega
            · exact absurd rfl hkl

theorem own_run {lib : Lib ρ η β} (law : MergeLaw lib) (ops : List (Op ρ ω)) (ho : OnceLeft ops) :
    Own lib (run lib ops) (rowsGiven ops) (fun i => Spent i ops) := by
  induction ops using List.reverseRecOn with
  | nil =>
    constructor
    · intro i p x hp; simp [run, World.none] at hp
    · intro i j p q x y hp; simp [run, World.none] at hp
  | append_singleton ops op ih =>
    have hpre : OnceLeft ops := by
      intro pre o post e i hn
      exact ho pre o (post ++ [op]) (by rw [e]; simp) i hn
    have hlast := ho ops op [] rfl
    have h := inv_run lib ops
    have own := ih hpre
    have mono : ∀ {sp sp' : ℕ → Prop} {w : World η β ω} {s : List (Bool × List ρ)}, (∀ i, sp i → sp' i) → Own lib w s sp →
        Own lib w s sp' := fun hs o =>
      ⟨fun k p x a b c d => o.sketch k p x a b c (fun e => d (hs _ e)),
        fun k l p q x y a b c d e f g g' => o.apart k l p q x y a b c d e f (fun e => g (hs _ e)) (fun e => g' (hs _ e))⟩
    have old : ∀ i, Spent i ops → Spent i (ops ++ [op]) := fun i ⟨j, hj⟩ => ⟨j, List.mem_append_left _ hj⟩
    rw [show run lib (ops ++ [op]) = step lib (run lib ops) op by simp [run],
      show rowsGiven (ops ++ [op]) = given (rowsGiven ops) op by simp [rowsGiven]]
    cases op with
    | make b o => exact mono old (own_make h own b o)
    | update i rows => exact mono old (own_update h own i rows (hlast i rfl))
    | merge i j =>
      refine mono ?_ (own_merge h law own i j (hlast i (Or.inl rfl)) (hlast j (Or.inr rfl)))
      rintro k (hk | rfl)
      · exact old k hk
      · exact ⟨j, by simp⟩
    | set i o =>
      refine mono old ?_
      simp only [step, setOptions, given]
      split
      · exact own
      · exact ⟨own.sketch, own.apart⟩

/-- Options are shared exactly within a family. -/
structure Fam (w : World η β ω) (s : List (Bool × ℕ)) : Prop where
  len : w.profs.length = s.length
  bound : ∀ (i : ℕ) (p : Prof) (f : Bool × ℕ), w.profs[i]? = some p → s[i]? = some f → p.opts < w.options.length ∧ f.2 < s.length
  same : ∀ (i j : ℕ) (p q : Prof) (f g : Bool × ℕ), w.profs[i]? = some p → w.profs[j]? = some q → s[i]? = some f → s[j]? = some g →
    (p.opts = q.opts ↔ f.2 = g.2)

theorem fam_make {w : World η β ω} {s : List (Bool × ℕ)} (lib : Lib ρ η β) (h : Fam w s) (b : Bool) (o : ω) :
    Fam (make lib w b o) (s ++ [(b, s.length)]) := by
  refine ⟨by simp [make, h.len], ?_, ?_⟩
  · intro i p f hp hf
    rcases snoc_cases hp with hp | ⟨rfl, rfl⟩ <;> rcases snoc_cases hf with hf | ⟨e, rfl⟩
    · have := h.bound i p f hp hf
      simp only [make, List.length_append, List.length_cons, List.length_nil]
      omega
    · have := lt_of_some hp; rw [h.len] at this; omega
    · have := lt_of_some hf; rw [h.len] at this; omega
    · simp [make]
  · intro i j p q f g hp hq hf hg
    rcases snoc_cases hp with hp | ⟨rfl, rfl⟩ <;> rcases snoc_cases hf with hf | ⟨e, rfl⟩
    · rcases snoc_cases hq with hq | ⟨rfl, rfl⟩ <;> rcases snoc_cases hg with hg | ⟨e, rfl⟩
      · exact h.same i j p q f g hp hq hf hg
      · have := lt_of_some hq; rw [h.len] at this; omega
      · have := lt_of_some hg; rw [h.len] at this; omega
      · have := h.bound i p f hp hf
        simp only; omega
    · have := lt_of_some hp; rw [h.len] at this; omega
    · have := lt_of_some hf; rw [h.len] at this; omega
    · rcases snoc_cases hq with hq | ⟨rfl, rfl⟩ <;> rcases snoc_cases hg with hg | ⟨e', rfl⟩
      · have := h.bound j q g hq hg
        simp only; omega
      · have := lt_of_some hq; rw [h.len] at this; omega
      · have := lt_of_some hg; rw [h.len] at this; omega
      · simp

theorem fam_copy {w w' : World η β ω} {s : List (Bool × ℕ)} (h : Fam w s) {i : ℕ} {p r : Prof} {f : Bool × ℕ}
    (hp : w.profs[i]? = some p) (hf : s[i]? = some f) (hw : w'.profs = w.profs ++ [r]) (ho : w'.options = w.options)
    (hr : r.opts = p.opts) : Fam w' (s ++ [f]) := by
  have back : ∀ {k : ℕ} {q : Prof} {g : Bool × ℕ}, w'.profs[k]? = some q → (s ++ [f])[k]? = some g →
      ∃ (k' : ℕ) (q' : Prof), w.profs[k']? = some q' ∧ s[k']? = some g ∧ q.opts = q'.opts := by
    intro k q g hq hg
    rw [hw] at hq
    rcases snoc_cases hq with hq | ⟨rfl, rfl⟩ <;> rcases snoc_cases hg with hg | ⟨e, rfl⟩
    · exact ⟨k, q, hq, hg, rfl⟩
    · have := lt_of_some hq; rw [h.len] at this; omega
    · have := lt_of_some hg; rw [h.len] at this; omega
    · exact ⟨i, p, hp, hf, hr⟩
  refine ⟨by simp [hw, h.len], ?_, ?_⟩
  · intro k q g hq hg
    obtain ⟨k', q', a, b, c⟩ := back hq hg
    have := h.bound k' q' g a b
    rw [ho, c]
    simp only [List.length_append, List.length_cons, List.length_nil]
    omega
  · intro k l q t g u hq ht hg hu
    obtain ⟨k', q', a, b, c⟩ := back hq hg
    obtain ⟨l', t', a', b', c'⟩ := back ht hu
    rw [c, c']
    exact h.same k' l' q' t' g u a a' b b'

theorem fam_run (lib : Lib ρ η β) (ops : List (Op ρ ω)) :
    Fam (run lib ops) (families ops) ∧ (families ops).map Prod.fst = (rowsGiven ops).map Prod.fst := by
  induction ops using List.reverseRecOn with
  | nil => exact ⟨⟨rfl, by simp [run, World.none], by simp [run, World.none]⟩, rfl⟩
  | append_singleton ops op ih =>
    obtain ⟨h, hk⟩ := ih
    have inv := inv_run lib ops
    rw [show run lib (ops ++ [op]) = step lib (run lib ops) op by simp [run],
      show rowsGiven (ops ++ [op]) = given (rowsGiven ops) op by simp [rowsGiven],
      show families (ops ++ [op]) = descend (families ops) op by simp [families]]
    generalize run lib ops = w at *
    generalize rowsGiven ops = s at *
    generalize families ops = fs at *
    cases op with
    | make b o => exact ⟨fam_make lib h b o, by simp [descend, given, hk]⟩
    | update i rows =>
      constructor
      · simp only [step, update, descend]
        split
        · exact h
        · rename_i p hp
          have back : ∀ {k : ℕ} {q : Prof}, (w.profs.set i { p with total := p.total + rows.length })[k]? = some q →
              ∃ q' : Prof, w.profs[k]? = some q' ∧ q.opts = q'.opts := by
            intro k q hq
            by_cases e : i = k
            · subst e
              simp only [List.getElem?_set, if_true] at hq
              rw [if_pos (lt_of_some hp)] at hq
              cases hq
              exact ⟨p, hp, rfl⟩
            · rw [List.getElem?_set, if_neg e] at hq
              exact ⟨q, hq, rfl⟩
          refine ⟨by simp [h.len], ?_, ?_⟩
          · intro k q g hq hg
            obtain ⟨q', a, b⟩ := back hq
            rw [b]
            exact h.bound k q' g a hg
          · intro k l q t g u hq ht hg hu
            obtain ⟨q', a, b⟩ := back hq
            obtain ⟨t', a', b'⟩ := back ht
            rw [b, b']
            exact h.same k l q' t' g u a a' hg hu
      · simp only [descend, given, hk]
        apply List.ext_getElem?
        intro k
        simp only [List.getElem?_map, List.getElem?_modify]
        cases s[k]? with
        | none => rfl
        | some a => by_cases e : i = k <;> simp [e]
    | merge i j =>
      have kinds : ∀ k : ℕ, (fs[k]?).map Prod.fst = (s[k]?).map Prod.fst := by
        intro k
        rw [← List.getElem?_map, ← List.getElem?_map, hk]
      simp only [step, merge, descend, given]
      have ki := kinds i
      have kj := kinds j
      cases hx : s[i]? with
      | none =>
        rw [hx] at ki
        have hf : fs[i]? = none := by simpa using ki
        have hp : w.profs[i]? = none := by
          rw [List.getElem?_eq_none_iff, inv.hp]; exact List.getElem?_eq_none_iff.mp hx
        simp only [hf, hp]
        exact ⟨h, hk⟩
      | some x =>
        obtain ⟨p, hp, gx⟩ := lookup_prof inv hx
        rw [hx] at ki
        obtain ⟨f, hf, ef⟩ : ∃ f, fs[i]? = some f ∧ f.1 = x.1 := by
          cases hf : fs[i]? with
          | none => rw [hf] at ki; simp at ki
          | some f => rw [hf] at ki; exact ⟨f, rfl, by simpa using ki⟩
        cases hy : s[j]? with
        | none =>
          rw [hy] at kj
          have hg : fs[j]? = none := by simpa using kj
          have hq : w.profs[j]? = none := by
            rw [List.getElem?_eq_none_iff, inv.hp]; exact List.getElem?_eq_none_iff.mp hy
          simp only [hg, hq, hp, hf]
          exact ⟨h, hk⟩
        | some y =>
          obtain ⟨q, hq, gy⟩ := lookup_prof inv hy
          rw [hy] at kj
          obtain ⟨g, hg, eg⟩ : ∃ g, fs[j]? = some g ∧ g.1 = y.1 := by
            cases hg : fs[j]? with
            | none => rw [hg] at kj; simp at kj
            | some g => rw [hg] at kj; exact ⟨g, rfl, by simpa using kj⟩
          simp only [hp, hq, hf, hg]
          rcases kind_of gx with ⟨ka, xa, ea, sa, Ka⟩ | ⟨ka, xa, sa⟩ <;>
            rcases kind_of gy with ⟨kb, yb, eb, sb, Kb⟩ | ⟨kb, yb, sb⟩
          · simp only [sa, sb, ef, eg, xa, yb, if_true]
            exact ⟨fam_copy h hp hf rfl rfl rfl, by simp [hk, ef, xa]⟩
          · simp only [sa, sb, ef, eg, xa, yb]; exact ⟨h, hk⟩
          · simp only [sa, sb, ef, eg, xa, yb]; exact ⟨h, hk⟩
          · simp only [sa, sb, ef, eg, xa, yb, if_true]
            exact ⟨fam_copy h hp hf rfl rfl rfl, by simp [hk, ef, xa]⟩
    | set i o =>
      refine ⟨?_, hk⟩
      simp only [step, setOptions, descend]
      split
      · exact h
      · exact ⟨h.len, by simpa using h.bound, h.same⟩

end Verif.Apart
