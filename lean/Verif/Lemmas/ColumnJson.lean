import Mathlib.Data.List.Forall2
import Mathlib.Data.List.Nodup
import Mathlib.Data.List.Perm.Basic
import Verif.Lemmas.PyDict
import Verif.Spec.ColumnJson

/-! Helper lemmas about column profiles as JSON. -/

namespace Verif.ColumnJson

open Verif
open Verif.Schema (Key)
open Verif.Spec.ColumnJson

variable {F T L : Type} {lib : Lib F T L}

/-! ### Lists of pairs -/

/-- Dictionaries with the same keys in the same order and related values. -/
abbrev Related (R : Val F T L → Val F T L → Prop) (d e : List (Key × Val F T L)) : Prop :=
  List.Forall₂ (fun x y => x.1 = y.1 ∧ R x.2 y.2) d e

theorem related_keys {R : Val F T L → Val F T L → Prop} {d e} (h : Related R d e) : d.map Prod.fst = e.map Prod.fst := by
  induction h with
  | nil => rfl
  | cons h _ ih => simp [h.1, ih]

theorem related_get {R : Val F T L → Val F T L → Prop} {d e} (h : Related R d e) {k v} (hv : PyDict.get? d k = some v) :
    ∃ w, PyDict.get? e k = some w ∧ R v w := by
  induction h with
  | nil => simp at hv
  | @cons x y _ _ h _ ih =>
    obtain ⟨a, b⟩ := x; obtain ⟨a', b'⟩ := y
    obtain ⟨h1, h2⟩ := h
    simp only at h1 h2; subst h1
    rw [PyDict.get?_cons] at hv ⊢
    split_ifs at hv ⊢ with hk
    · cases hv; exact ⟨b', rfl, h2⟩
    · exact ih hv

theorem related_get' {R : Val F T L → Val F T L → Prop} {d e} (h : Related R d e) {k w} (hw : PyDict.get? e k = some w) :
    ∃ v, PyDict.get? d k = some v ∧ R v w := by
  induction h with
  | nil => simp at hw
  | @cons x y _ _ h _ ih =>
    obtain ⟨a, b⟩ := x; obtain ⟨a', b'⟩ := y
    obtain ⟨h1, h2⟩ := h
    simp only at h1 h2; subst h1
    rw [PyDict.get?_cons] at hw ⊢
    split_ifs at hw ⊢ with hk
    · cases hw; exact ⟨b, rfl, h2⟩
    · exact ih hw

theorem related_mem {R : Val F T L → Val F T L → Prop} {d e} (h : Related R d e) {k w} (hw : (k, w) ∈ e) :
    ∃ v, (k, v) ∈ d ∧ R v w := by
  induction h with
  | nil => simp at hw
  | @cons x y _ _ h _ ih =>
    obtain ⟨a, b⟩ := x; obtain ⟨a', b'⟩ := y
    obtain ⟨h1, h2⟩ := h
    simp only at h1 h2; subst h1
    rcases List.mem_cons.1 hw with hw | hw
    · cases hw; exact ⟨b, List.mem_cons_self, h2⟩
    · obtain ⟨v, hv, hr⟩ := ih hw
      exact ⟨v, List.mem_cons_of_mem _ hv, hr⟩

theorem related_mono {R S : Val F T L → Val F T L → Prop} {d e} (h : Related R d e) (hs : ∀ v w, R v w → S v w) : Related S d e :=
  h.imp fun _ _ hx => ⟨hx.1, hs _ _ hx.2⟩

theorem strKeys_of {R : Val F T L → Val F T L → Prop} {d e} (h : Related R d e) (hd : StrKeys d) : StrKeys e := by
  unfold StrKeys at *; rw [← related_keys h]; exact hd

theorem same_get {d e : List (Key × Val F T L)} (h : Related (Same lib) d e) (k : Key) (v w : Val F T L)
    (hv : PyDict.get? d k = some v) (hw : PyDict.get? e k = some w) : Same lib v w := by
  obtain ⟨w', hw', hs⟩ := related_get h hv
  rw [hw] at hw'; cases hw'; exact hs

theorem same_dict {d e : List (Key × Val F T L)} (h : Related (Same lib) d e) : Same lib (.dict d) (.dict e) :=
  .dict (related_keys h) (same_get h)

/-! ### Writing -/

theorem foldl_set : ∀ (l acc : List (Key × Val F T L)), ((acc ++ l).map Prod.fst).Nodup →
    l.foldl (fun acc kv => PyDict.set acc kv.1 kv.2) acc = acc ++ l
  | [], acc, _ => by simp
  | (k, v) :: t, acc, h => by
    rw [List.foldl_cons, PyDict.set_of_not_mem (d := acc) (k := k)]
    · rw [foldl_set t (acc ++ [(k, v)]) (by simpa using h)]; simp
    · intro hk
      simp only [List.map_append, List.map_cons, List.nodup_append] at h
      exact h.2.2 k hk k (by simp) rfl

theorem fromPairs_nodup {l : List (Key × Val F T L)} (h : (l.map Prod.fst).Nodup) : fromPairs l = l := by
  have := foldl_set l [] (by simpa using h)
  simpa [fromPairs] using this

theorem dumpPairs_ok : ∀ (d : List (Key × Val F T L)), (∀ k ∈ d.map Prod.fst, ∃ s, k = Key.str s) →
    (∀ k v, (k, v) ∈ d → ∃ w, dump lib v = .ok w) →
    ∃ e, dumpPairs lib d = .ok e ∧ Related (fun v w => dump lib v = .ok w) d e
  | [], _, _ => ⟨[], rfl, .nil⟩
  | (k, v) :: t, hk, hd => by
    obtain ⟨w, hw⟩ := hd k v List.mem_cons_self
    obtain ⟨e, he, hr⟩ := dumpPairs_ok t (fun k h => hk k (by simp only [List.map_cons]; exact List.mem_cons_of_mem _ h))
      (fun k v h => hd k v (List.mem_cons_of_mem _ h))
    obtain ⟨s, rfl⟩ := hk k (by simp)
    refine ⟨(.str s, w) :: e, ?_, .cons ⟨rfl, hw⟩ hr⟩
    rw [dumpPairs, hw]
    simp [he, jsonKey, Except.map]

/-- Writing a dictionary with strings as keys. -/
theorem dump_dict {d : List (Key × Val F T L)} (hk : StrKeys d) (hd : ∀ k v, (k, v) ∈ d → ∃ w, dump lib v = .ok w) :
    ∃ e, dumpPairs lib d = .ok e ∧ fromPairs e = e ∧ Related (fun v w => dump lib v = .ok w) d e := by
  obtain ⟨e, he, hr⟩ := dumpPairs_ok d hk.2 hd
  refine ⟨e, he, fromPairs_nodup ?_, hr⟩
  rw [← related_keys hr]; exact hk.1

theorem dumpList_ok : ∀ (l : List (Val F T L)), (∀ v ∈ l, ∃ w, dump lib v = .ok w) →
    ∃ m, dumpList lib l = .ok m ∧ List.Forall₂ (fun v w => dump lib v = .ok w) l m
  | [], _ => ⟨[], rfl, .nil⟩
  | v :: t, h => by
    obtain ⟨w, hw⟩ := h v List.mem_cons_self
    obtain ⟨m, hm, hr⟩ := dumpList_ok t fun v hv => h v (List.mem_cons_of_mem _ hv)
    refine ⟨w :: m, ?_, .cons hw hr⟩
    rw [dumpList, hw]
    simp [hm, Except.map]

theorem forall2_idx {R : Val F T L → Val F T L → Prop} {l m : List (Val F T L)} (h : List.Forall₂ R l m) (i : ℕ) (v w : Val F T L)
    (hv : l[i]? = some v) (hw : m[i]? = some w) : R v w := by
  induction h generalizing i with
  | nil => simp at hv
  | cons h _ ih =>
    cases i with
    | zero => simp at hv hw; subst hv; subst hw; exact h
    | succ i => simp at hv hw; exact ih i hv hw

/-- What a plain value is written as: a plain value that can stand for it. -/
def Written (lib : Lib F T L) (v w : Val F T L) : Prop := dump lib v = .ok w ∧ Same lib v w ∧ Plain w

theorem plain_dump {v : Val F T L} (h : Plain v) : ∃ w, Written lib v w := by
  induction h with
  | none => exact ⟨.none, by simp [dump], .none, .none⟩
  | bool b => exact ⟨.bool b, by simp [dump], .bool b, .bool b⟩
  | str s => exact ⟨.str s, by simp [dump], .str s, .str s⟩
  | num hx =>
    rename_i v x
    cases v <;> simp only [number, reduceCtorEq] at hx
    · exact ⟨.int _, by rw [dump], .num (x := x) hx hx, .num (x := x) hx⟩
    · exact ⟨.float _, by rw [dump], .num (x := x) hx hx, .num (x := x) hx⟩
    · exact ⟨.int _, by rw [dump], .num (x := x) hx hx, .num (x := x) hx⟩
    · exact ⟨.float _, by rw [dump], .num (x := x) hx hx, .num (x := x) hx⟩
    · exact ⟨.int _, by rw [dump], .num (x := x) hx hx, .num (x := x) hx⟩
  | list _ ih =>
    rename_i l _
    obtain ⟨m, hm, hr⟩ := dumpList_ok (lib := lib) l fun v hv => by
      obtain ⟨w, hw, _⟩ := ih v hv; exact ⟨w, hw⟩
    have hr' : List.Forall₂ (fun v w => Same lib v w ∧ Plain w) l m := by
      have : ∀ (l m : List (Val F T L)), (∀ v ∈ l, ∃ w, Written lib v w) → List.Forall₂ (fun v w => dump lib v = .ok w) l m →
          List.Forall₂ (fun v w => Same lib v w ∧ Plain w) l m := by
        intro l m h1 h2
        induction h2 with
        | nil => exact .nil
        | cons h _ ih =>
          refine .cons ?_ (ih fun v hv => h1 v (List.mem_cons_of_mem _ hv))
          obtain ⟨w, hw, hs⟩ := h1 _ List.mem_cons_self
          rw [hw] at h; cases h; exact hs
      exact this l m ih hr
    refine ⟨.list m, by rw [dump, hm]; rfl, .list hr'.length_eq fun i v w hv hw => (forall2_idx hr' i v w hv hw).1, .list ?_⟩
    intro w hw
    obtain ⟨i, hi⟩ := List.getElem?_of_mem hw
    have hlt : i < l.length := by
      rw [hr'.length_eq]; by_contra hc; rw [List.getElem?_eq_none (by omega)] at hi; simp at hi
    exact (forall2_idx hr' i _ w (List.getElem?_eq_getElem hlt) hi).2
  | dict hk _ ih =>
    rename_i d _
    obtain ⟨e, he, hf, hr⟩ := dump_dict (lib := lib) hk fun k v hv => by
      obtain ⟨w, hw, _⟩ := ih k v hv; exact ⟨w, hw⟩
    have hr' : Related (fun v w => Same lib v w ∧ Plain w) d e := by
      have : ∀ (d e : List (Key × Val F T L)), (∀ k v, (k, v) ∈ d → ∃ w, Written lib v w) →
          Related (fun v w => dump lib v = .ok w) d e → Related (fun v w => Same lib v w ∧ Plain w) d e := by
        intro d e h1 h2
        induction h2 with
        | nil => exact .nil
        | cons h _ ih =>
          refine .cons ⟨h.1, ?_⟩ (ih fun k v hv => h1 k v (List.mem_cons_of_mem _ hv))
          obtain ⟨w, hw, hs⟩ := h1 _ _ List.mem_cons_self
          have h2 := h.2
          simp only [hw, Except.ok.injEq] at h2; rw [← h2]; exact hs
      exact this d e ih hr
    refine ⟨.dict e, by rw [dump, he]; simp [Except.map, hf], same_dict (related_mono hr' fun _ _ h => h.1),
      .dict (strKeys_of hr hk) ?_⟩
    intro k w hw
    obtain ⟨v, _, h⟩ := related_mem hr' hw
    exact h.2

/-! ### Values of one kind, written and loaded -/

/-- Written, read and loaded by `f` the value is one for which `Q` holds. -/
def Trip (lib : Lib F T L) (f : Val F T L → Except Err (Val F T L)) (v : Val F T L) (Q : Val F T L → Prop) : Prop :=
  ∃ w u, dump lib v = .ok w ∧ f w = .ok u ∧ Q u

theorem trip_plain {v : Val F T L} (h : Plain v) : Trip lib .ok v fun u => Same lib v u ∧ Plain u := by
  obtain ⟨w, h1, h2, h3⟩ := plain_dump (lib := lib) h
  exact ⟨w, w, h1, rfl, h2, h3⟩

theorem mapValues_ok {f : Val F T L → Except Err (Val F T L)} {Q : Val F T L → Val F T L → Prop} :
    ∀ (d e : List (Key × Val F T L)), Related (fun v w => dump lib v = .ok w) d e →
      (∀ k v, (k, v) ∈ d → Trip lib f v (Q v)) → ∃ g, mapValues f e = .ok g ∧ Related Q d g
  | [], _, h, _ => by cases h; exact ⟨[], rfl, .nil⟩
  | (k, v) :: t, e, h, hd => by
    cases h with
    | cons h ht =>
      rename_i y e
      obtain ⟨k', w⟩ := y
      obtain ⟨h1, h2⟩ := h
      simp only at h1 h2; subst h1
      obtain ⟨w', u, hw, hu, hq⟩ := hd k v List.mem_cons_self
      rw [h2] at hw; cases hw
      obtain ⟨g, hg, hr⟩ := mapValues_ok t e ht fun k v hv => hd k v (List.mem_cons_of_mem _ hv)
      exact ⟨(k, u) :: g, by simp [mapValues, hu, hg, Except.map], .cons ⟨rfl, hq⟩ hr⟩

/-- A dictionary whose values are loaded one by one. -/
theorem trip_dict {f : Val F T L → Except Err (Val F T L)} {Q : Val F T L → Val F T L → Prop} {d : List (Key × Val F T L)}
    (hk : StrKeys d) (hd : ∀ k v, (k, v) ∈ d → Trip lib f v (Q v)) :
    ∃ e g, dump lib (.dict d) = .ok (.dict e) ∧ mapValues f e = .ok g ∧ Related Q d g := by
  obtain ⟨e, he, hf, hr⟩ := dump_dict (lib := lib) hk fun k v hv => by
    obtain ⟨w, _, hw, _⟩ := hd k v hv; exact ⟨w, hw⟩
  obtain ⟨g, hg, hq⟩ := mapValues_ok d e hr hd
  exact ⟨e, g, by rw [dump, he]; simp [Except.map, hf], hg, hq⟩

theorem trip_optFloat {v : Val F T L} (h : OptFloat v) : Trip lib (optFloat lib) v fun u => Same lib v u ∧ OptFloat u := by
  rcases h with rfl | ⟨f, rfl | rfl⟩
  · exact ⟨.none, .none, by simp [dump], rfl, .none, .inl rfl⟩
  · exact ⟨.float f, .npFloat f, by simp [dump], rfl, .num (x := .inr f) rfl rfl, .inr ⟨f, .inr rfl⟩⟩
  · exact ⟨.float f, .npFloat f, by simp [dump], rfl, .num (x := .inr f) rfl rfl, .inr ⟨f, .inr rfl⟩⟩

theorem trip_optInt {v : Val F T L} (h : OptInt v) : Trip lib optInt v fun u => Same lib v u ∧ OptInt u := by
  rcases h with rfl | ⟨z, rfl | rfl⟩
  · exact ⟨.none, .none, by simp [dump], rfl, .none, .inl rfl⟩
  · exact ⟨.int z, .npInt z, by simp [dump], rfl, .num (x := .inl z) rfl rfl, .inr ⟨z, .inr rfl⟩⟩
  · exact ⟨.int z, .npInt z, by simp [dump], rfl, .num (x := .inl z) rfl rfl, .inr ⟨z, .inr rfl⟩⟩

theorem trip_float {v : Val F T L} (h : AFloat v) : Trip lib (nanFloat lib) v fun u => Same lib v u ∧ AFloat u := by
  have key : ∀ f, ∃ u, nanFloat lib (.float f) = .ok u ∧ number u = some (.inr f) ∧ AFloat u := by
    intro f
    by_cases hn : lib.isNan f
    · exact ⟨.float f, by simp [nanFloat, hn], rfl, f, .inl rfl⟩
    · exact ⟨.npFloat f, by simp [nanFloat, hn], rfl, f, .inr rfl⟩
  rcases h with ⟨f, rfl | rfl⟩ <;> obtain ⟨u, hu, hn, ha⟩ := key f
  · exact ⟨.float f, u, by simp [dump], hu, .num (x := .inr f) rfl hn, ha⟩
  · exact ⟨.float f, u, by simp [dump], hu, .num (x := .inr f) rfl hn, ha⟩

theorem optFloat_plain {v : Val F T L} (h : OptFloat v) : Plain v := by
  rcases h with rfl | ⟨f, rfl | rfl⟩
  · exact .none
  · exact .num (x := .inr f) rfl
  · exact .num (x := .inr f) rfl

theorem trip_optStamp {v : Val F T L} (h : OptMoment lib v) : Trip lib (optStamp lib) v fun u => Same lib v u ∧ OptMoment lib u := by
  rcases h with rfl | ⟨t, hm, ht⟩
  · exact ⟨.none, .none, by simp [dump], rfl, .none, .inl rfl⟩
  · have hd : dump lib v = .ok (.str (lib.iso t)) := by
      cases v <;> simp only [moment, reduceCtorEq, Option.some.injEq] at hm <;> subst hm <;> rw [dump]
    exact ⟨_, .stamp t, hd, by simp [optStamp, ht, Except.map], .time hm rfl, .inr ⟨t, rfl, ht⟩⟩

theorem optArray_of {v : Val F T L} (h : OptArray v) : Trip lib (fun w => .ok (optArray w)) v fun u => Same lib v u ∧ OptArray u := by
  rcases h with rfl | ⟨l, rfl, hl⟩
  · exact ⟨.none, .none, by simp [dump], rfl, .none, .inl rfl⟩
  · obtain ⟨w, h1, h2, h3⟩ := plain_dump (lib := lib) hl
    cases h2 with
    | num hx => simp [number] at hx
    | time hx => simp [moment] at hx
    | list _ _ =>
      rename_i m hm hs
      exact ⟨.list m, .array (.list m), by rw [dump]; exact h1, rfl, .array (.list hm hs), .inr ⟨m, rfl, h3⟩⟩

theorem histArrays_map (g : List (Key × Val F T L)) :
    histArrays (.dict g) = (mapValues (fun w => .ok (optArray w)) g).map .dict := by
  have : ∀ g : List (Key × Val F T L), mapValues (fun w => .ok (optArray w)) g = .ok (g.map fun kv => (kv.1, optArray kv.2)) := by
    intro g
    induction g with
    | nil => rfl
    | cons x t ih => obtain ⟨k, v⟩ := x; simp [mapValues, ih, Except.map]
  rw [this]; rfl

theorem trip_bins {v : Val F T L} (h : Bins v) : Trip lib histArrays v fun u => Same lib v u ∧ Bins u := by
  obtain ⟨d, rfl, hk, hd⟩ := h
  obtain ⟨e, g, he, hg, hr⟩ := trip_dict (lib := lib) (f := fun w => .ok (optArray w)) (Q := fun v u => Same lib v u ∧ OptArray u) hk
    fun k v hv => optArray_of (hd k v hv)
  refine ⟨.dict e, .dict g, he, by rw [histArrays_map, hg]; rfl, same_dict (related_mono hr fun _ _ h => h.1), g, rfl, strKeys_of hr hk, ?_⟩
  intro k w hw
  obtain ⟨v, _, h⟩ := related_mem hr hw
  exact h.2

/-! ### Attributes, one after the other -/

/-- While a dictionary or an object is loaded: `e` has the values of `d` as they were written, and those in `done` already loaded. -/
structure Prog (lib : Lib F T L) (Q : Key → Val F T L → Val F T L → Prop) (d e : Dict F T L) (done : List Key) : Prop where
  pending : ∀ k v, PyDict.get? d k = some v → k ∉ done → ∃ w, dump lib v = .ok w ∧ PyDict.get? e k = some w
  finished : ∀ k v, PyDict.get? d k = some v → k ∈ done → ∃ u, PyDict.get? e k = some u ∧ Q k v u

theorem prog_get {Q : Key → Val F T L → Val F T L → Prop} {d e : Dict F T L} {done : List Key} (h : Prog lib Q d e done) {k v}
    {f : Val F T L → Except Err (Val F T L)} (hv : PyDict.get? d k = some v) (hn : k ∉ done) (ht : Trip lib f v (Q k v)) :
    ∃ w u, PyDict.get? e k = some w ∧ f w = .ok u ∧ Prog lib Q d (PyDict.set e k u) (k :: done) ∧ Q k v u := by
  obtain ⟨w, hw, he⟩ := h.pending k v hv hn
  obtain ⟨w', u, hw', hu, hq⟩ := ht
  rw [hw] at hw'; cases hw'
  refine ⟨w, u, he, hu, ⟨?_, ?_⟩, hq⟩
  · intro k' v' hv' hn'
    simp only [List.mem_cons, not_or] at hn'
    rw [PyDict.get?_set, if_neg (fun h => hn'.1 h.symm)]
    exact h.pending k' v' hv' hn'.2
  · intro k' v' hv' hd
    rw [PyDict.get?_set]
    split_ifs with hk
    · subst hk; rw [hv] at hv'; cases hv'; exact ⟨u, rfl, hq⟩
    · rcases List.mem_cons.1 hd with hd | hd
      · exact absurd hd.symm hk
      · exact h.finished k' v' hv' hd

theorem keys_set_of_get {e : Dict F T L} {k w} (h : PyDict.get? e k = some w) (u : Val F T L) :
    (PyDict.set e k u).map Prod.fst = e.map Prod.fst := by
  have hk : k ∈ PyDict.keys e := (PyDict.mem_keys_iff _ _).2 ⟨w, h⟩
  have := PyDict.keys_set e k u
  rw [if_pos hk] at this
  exact this

theorem prog_item {Q : Key → Val F T L → Val F T L → Prop} {d e : Dict F T L} {done : List Key} (h : Prog lib Q d e done) {k v}
    {f : Val F T L → Except Err (Val F T L)} (hv : PyDict.get? d k = some v) (hn : k ∉ done) (ht : Trip lib f v (Q k v)) :
    ∃ e', onItem f k e = .ok e' ∧ Prog lib Q d e' (k :: done) ∧ e'.map Prod.fst = e.map Prod.fst := by
  obtain ⟨w, u, he, hu, hp, _⟩ := prog_get h hv hn ht
  exact ⟨_, by simp [onItem, item, he, hu, Except.map], hp, keys_set_of_get he u⟩

theorem prog_attr {Q : Key → Val F T L → Val F T L → Prop} {d e : Dict F T L} {done : List Key} (h : Prog lib Q d e done) {k v}
    {f : Val F T L → Except Err (Val F T L)} (hv : PyDict.get? d k = some v) (hn : k ∉ done) (ht : Trip lib f v (Q k v)) :
    ∃ e', onAttr f k e = .ok e' ∧ Prog lib Q d e' (k :: done) ∧ e'.map Prod.fst = e.map Prod.fst := by
  obtain ⟨w, u, he, hu, hp, _⟩ := prog_get h hv hn ht
  exact ⟨_, by simp [onAttr, attr, he, hu, Except.map], hp, keys_set_of_get he u⟩

theorem prog_items {Q : Key → Val F T L → Val F T L → Prop} {d : Dict F T L} {f : Val F T L → Except Err (Val F T L)} :
    ∀ (ks : List String) (e : Dict F T L) (done : List Key), Prog lib Q d e done → ks.Nodup → (∀ s ∈ ks, Key.str s ∉ done) →
      (∀ s ∈ ks, ∃ v, PyDict.get? d (.str s) = some v ∧ Trip lib f v (Q (.str s) v)) →
      ∃ e', onItems f ks e = .ok e' ∧ Prog lib Q d e' ((ks.map Key.str).reverse ++ done) ∧ e'.map Prod.fst = e.map Prod.fst
  | [], e, done, h, _, _, _ => ⟨e, rfl, by simpa using h, rfl⟩
  | s :: ks, e, done, h, hn, hd, hf => by
    obtain ⟨v, hv, ht⟩ := hf s List.mem_cons_self
    obtain ⟨e1, h1, hp, hk⟩ := prog_item h hv (hd s List.mem_cons_self) ht
    rw [List.nodup_cons] at hn
    obtain ⟨e2, h2, hp2, hk2⟩ := prog_items ks e1 (.str s :: done) hp hn.2
      (fun x hx hm => by
        rcases List.mem_cons.1 hm with h' | h'
        · cases h'; exact hn.1 hx
        · exact hd x (List.mem_cons_of_mem _ hx) h')
      (fun x hx => hf x (List.mem_cons_of_mem _ hx))
    exact ⟨e2, by simp [onItems, h1, h2], by simpa using hp2, hk2.trans hk⟩

theorem prog_attrs {Q : Key → Val F T L → Val F T L → Prop} {d : Dict F T L} {f : Val F T L → Except Err (Val F T L)} :
    ∀ (ks : List String) (e : Dict F T L) (done : List Key), Prog lib Q d e done → ks.Nodup → (∀ s ∈ ks, Key.str s ∉ done) →
      (∀ s ∈ ks, ∃ v, PyDict.get? d (.str s) = some v ∧ Trip lib f v (Q (.str s) v)) →
      ∃ e', onAttrs f ks e = .ok e' ∧ Prog lib Q d e' ((ks.map Key.str).reverse ++ done) ∧ e'.map Prod.fst = e.map Prod.fst
  | [], e, done, h, _, _, _ => ⟨e, rfl, by simpa using h, rfl⟩
  | s :: ks, e, done, h, hn, hd, hf => by
    obtain ⟨v, hv, ht⟩ := hf s List.mem_cons_self
    obtain ⟨e1, h1, hp, hk⟩ := prog_attr h hv (hd s List.mem_cons_self) ht
    rw [List.nodup_cons] at hn
    obtain ⟨e2, h2, hp2, hk2⟩ := prog_attrs ks e1 (.str s :: done) hp hn.2
      (fun x hx hm => by
        rcases List.mem_cons.1 hm with h' | h'
        · cases h'; exact hn.1 hx
        · exact hd x (List.mem_cons_of_mem _ hx) h')
      (fun x hx => hf x (List.mem_cons_of_mem _ hx))
    exact ⟨e2, by simp [onAttrs, h1, h2], by simpa using hp2, hk2.trans hk⟩

theorem prog_start {Q : Key → Val F T L → Val F T L → Prop} {d e : Dict F T L} (h : Related (fun v w => dump lib v = .ok w) d e) :
    Prog lib Q d e [] :=
  ⟨fun k v hv _ => by obtain ⟨w, hw, hd⟩ := related_get h hv; exact ⟨w, hd, hw⟩, fun _ _ _ h => by simp at h⟩

/-- In the end every value can stand for the one there was. -/
theorem prog_end {Q : Key → Val F T L → Val F T L → Prop} {d e : Dict F T L} {done : List Key} (h : Prog lib Q d e done)
    (hq : ∀ k v, PyDict.get? d k = some v → k ∉ done → ∀ w, dump lib v = .ok w → Q k v w) (k : Key) (v : Val F T L)
    (hv : PyDict.get? d k = some v) : ∃ u, PyDict.get? e k = some u ∧ Q k v u := by
  by_cases hd : k ∈ done
  · exact h.finished k v hv hd
  · obtain ⟨w, hw, he⟩ := h.pending k v hv hd
    exact ⟨w, he, hq k v hv hd w hw⟩

theorem plain_q {v w : Val F T L} (h : Plain v) (hw : dump lib v = .ok w) : Same lib v w ∧ Plain w := by
  obtain ⟨w', h1, h2⟩ := plain_dump (lib := lib) h
  rw [hw] at h1; cases h1; exact h2

theorem get_of_mem {d : Dict F T L} (h : StrKeys d) {k v} (hm : (k, v) ∈ d) : PyDict.get? d k = some v := PyDict.get?_of_mem h.1 hm

/-- A dictionary after all its values were loaded. -/
theorem dict_end {Q : Key → Val F T L → Val F T L → Prop} {d e : Dict F T L} (hk : StrKeys d) (hke : e.map Prod.fst = d.map Prod.fst)
    (h : ∀ k v, PyDict.get? d k = some v → ∃ u, PyDict.get? e k = some u ∧ Q k v u) (hs : ∀ k v u, Q k v u → Same lib v u) :
    Same lib (.dict d) (.dict e) ∧ StrKeys e ∧ ∀ k u, (k, u) ∈ e → ∃ v, (k, v) ∈ d ∧ Q k v u := by
  have hke' : StrKeys e := by unfold StrKeys at *; rw [hke]; exact hk
  refine ⟨.dict hke.symm ?_, hke', ?_⟩
  · intro k v w hv hw
    obtain ⟨u, hu, hq⟩ := h k v hv
    rw [hw] at hu; cases hu; exact hs _ _ _ hq
  · intro k u hu
    have hu' := get_of_mem hke' hu
    have : k ∈ d.map Prod.fst := by rw [← hke]; exact List.mem_map_of_mem (f := Prod.fst) hu
    obtain ⟨v, hv⟩ := (PyDict.mem_keys_iff d k).1 this
    obtain ⟨u', h1, h2⟩ := h k v hv
    rw [hu'] at h1; cases h1
    exact ⟨v, PyDict.mem_of_get? hv, h2⟩

/-- The histogram. -/
theorem trip_hist {v : Val F T L} (h : Histogram v) : Trip lib (convertHist lib) v fun u => Same lib v u ∧ Histogram u := by
  obtain ⟨d, rfl, hk, hp, ⟨x, hx, hxf⟩, ⟨y, hy, hyf⟩, ⟨z, hz, hzb⟩⟩ := h
  obtain ⟨e, he, hf, hr⟩ := dump_dict (lib := lib) hk fun k v hv => by
    by_cases hh : k = .str "histogram"
    · subst hh
      have := (get_of_mem hk hv).symm.trans (get_of_mem hk hz); cases this
      obtain ⟨w, _, hw, _⟩ := trip_bins (lib := lib) hzb; exact ⟨w, hw⟩
    · obtain ⟨w, hw, _⟩ := plain_dump (lib := lib) (hp k v hv hh); exact ⟨w, hw⟩
  let Q : Key → Val F T L → Val F T L → Prop := fun k v u => Same lib v u ∧
    (k = .str "histogram" → Bins u) ∧ (k ≠ .str "histogram" → Plain u) ∧ (k = .str "total_loss" ∨ k = .str "current_loss" → OptFloat u)
  obtain ⟨e1, h1, p1, k1⟩ := prog_items (Q := Q) (f := optFloat lib) ["total_loss", "current_loss"] e [] (prog_start hr) (by decide)
    (by simp) (by
      intro s hs
      have key : ∀ s w, s ≠ "histogram" → (Key.str s, w) ∈ d → OptFloat w →
          ∃ v, PyDict.get? d (.str s) = some v ∧ Trip lib (optFloat lib) v (Q (.str s) v) := by
        intro s w hs hm ho
        refine ⟨w, get_of_mem hk hm, ?_⟩
        obtain ⟨w', u, a1, a2, a3, a4⟩ := trip_optFloat (lib := lib) ho
        exact ⟨w', u, a1, a2, a3, fun h => absurd (Key.str.inj h) hs, fun _ => optFloat_plain a4, fun _ => a4⟩
      simp only [List.mem_cons, List.not_mem_nil, or_false] at hs
      rcases hs with rfl | rfl
      · exact key _ x (by decide) hx hxf
      · exact key _ y (by decide) hy hyf)
  obtain ⟨e2, h2, p2, k2⟩ := prog_item (f := histArrays) p1 (get_of_mem hk hz) (by simp) (by
    obtain ⟨w', u, a1, a2, a3, a4⟩ := trip_bins (lib := lib) hzb
    exact ⟨w', u, a1, a2, a3, fun _ => a4, fun h => absurd rfl h, fun h => by simp at h⟩)
  have hend := prog_end p2 (by
    intro k v hv hn w hw
    simp only [List.map_cons, List.map_nil, List.reverse_cons, List.reverse_nil, List.nil_append, List.append_nil, List.cons_append, List.mem_cons,
      List.not_mem_nil, or_false, not_or] at hn
    have := plain_q (lib := lib) (hp k v (PyDict.mem_of_get? hv) hn.1) hw
    exact ⟨this.1, fun h => absurd h hn.1, fun _ => this.2, fun h => h.elim (fun h => absurd h hn.2.2) fun h => absurd h hn.2.1⟩)
  obtain ⟨s1, s2, s3⟩ := dict_end (lib := lib) hk ((k2.trans k1).trans (related_keys hr).symm) hend fun _ _ _ h => h.1
  refine ⟨.dict e, .dict e2, by rw [dump, he]; simp [Except.map, hf], by simp [convertHist, h1, h2, Except.map], s1, e2, rfl, s2, ?_, ?_, ?_, ?_⟩
  · intro k w hw hn
    obtain ⟨v, _, hq⟩ := s3 k w hw
    exact hq.2.2.1 hn
  · obtain ⟨u, hu, hq⟩ := hend _ _ (get_of_mem hk hx)
    exact ⟨u, PyDict.mem_of_get? hu, hq.2.2.2 (.inl rfl)⟩
  · obtain ⟨u, hu, hq⟩ := hend _ _ (get_of_mem hk hy)
    exact ⟨u, PyDict.mem_of_get? hu, hq.2.2.2 (.inr rfl)⟩
  · obtain ⟨u, hu, hq⟩ := hend _ _ (get_of_mem hk hz)
    exact ⟨u, PyDict.mem_of_get? hu, hq.2.1 rfl⟩

theorem trip_hists {v : Val F T L} (h : Histograms v) : Trip lib (convertHists lib) v fun u => Same lib v u ∧ Histograms u := by
  obtain ⟨d, rfl, hk, hd⟩ := h
  obtain ⟨e, g, he, hg, hr⟩ := trip_dict (lib := lib) (f := convertHist lib) (Q := fun v u => Same lib v u ∧ Histogram u) hk
    fun k v hv => trip_hist (hd k v hv)
  refine ⟨.dict e, .dict g, he, by simp [convertHists, hg, Except.map], same_dict (related_mono hr fun _ _ h => h.1), g, rfl, strKeys_of hr hk, ?_⟩
  intro k w hw
  obtain ⟨v, _, h⟩ := related_mem hr hw
  exact h.2

theorem trip_precision {v : Val F T L} (h : Precision v) : Trip lib (precisionFloats lib) v fun u => Same lib v u ∧ Precision u := by
  obtain ⟨d, rfl, ⟨hk, hp⟩, hf⟩ := h
  obtain ⟨e, he, hfe, hr⟩ := dump_dict (lib := lib) hk fun k v hv => by
    obtain ⟨w, hw, _⟩ := plain_dump (lib := lib) (hp k v hv); exact ⟨w, hw⟩
  let five := ["min", "max", "sum", "mean", "biased_var"]
  let Q : Key → Val F T L → Val F T L → Prop := fun k v u => Same lib v u ∧ Plain u ∧ (∀ s ∈ five, k = .str s → OptFloat u)
  obtain ⟨e1, h1, p1, k1⟩ := prog_items (Q := Q) (f := optFloat lib) five e [] (prog_start hr) (by decide)
    (by simp) (by
      intro s hs
      obtain ⟨w, hm, ho⟩ := hf s hs
      refine ⟨w, get_of_mem hk hm, ?_⟩
      obtain ⟨w', u, a1, a2, a3, a4⟩ := trip_optFloat (lib := lib) ho
      exact ⟨w', u, a1, a2, a3, optFloat_plain a4, fun _ _ _ => a4⟩)
  have hend := prog_end p1 (by
    intro k v hv hn w hw
    have := plain_q (lib := lib) (hp k v (PyDict.mem_of_get? hv)) hw
    refine ⟨this.1, this.2, fun s hs h => absurd ?_ hn⟩
    subst h
    simp only [List.append_nil, List.mem_reverse]
    exact List.mem_map_of_mem hs)
  obtain ⟨s1, s2, s3⟩ := dict_end (lib := lib) hk (k1.trans (related_keys hr).symm) hend fun _ _ _ h => h.1
  refine ⟨.dict e, .dict e1, by rw [dump, he]; simp [Except.map, hfe], by simp only [precisionFloats]; rw [h1]; rfl, s1, e1, rfl, ⟨s2, ?_⟩, ?_⟩
  · intro k w hw
    obtain ⟨v, _, hq⟩ := s3 k w hw
    exact hq.2.1
  · intro s hs
    obtain ⟨w, hm, _⟩ := hf s hs
    obtain ⟨u, hu, hq⟩ := hend _ _ (get_of_mem hk hm)
    exact ⟨u, PyDict.mem_of_get? hu, hq.2.2 s hs rfl⟩

/-! ### Functions, categories, mappings and labelers -/

theorem methods_mem {c : Cls} {f : String} (h : f ∈ methods c) : f ∈ c.methods := by
  have : ∀ f ∈ methods c, f ∈ c.methods := by cases c <;> decide +kernel
  exact this f h

theorem calcs_ok {c : Cls} : ∀ (d e : List (Key × Val F T L)), Related (fun v w => dump lib v = .ok w) d e →
    (∀ k w, (k, w) ∈ d → ∃ f ∈ methods c, w = .func f) → ∃ g, loadCalcs c e = .ok g ∧ Related (fun v u => v = u) d g
  | [], _, h, _ => by cases h; exact ⟨[], rfl, .nil⟩
  | (k, v) :: t, e, h, hd => by
    cases h with
    | @cons _ y _ e h ht =>
      obtain ⟨k', w⟩ := y
      obtain ⟨h1, h2⟩ := h
      simp only at h1 h2; subst h1
      obtain ⟨f, hf, rfl⟩ := hd k v List.mem_cons_self
      rw [dump] at h2; cases h2
      obtain ⟨g, hg, hr⟩ := calcs_ok t e ht fun k v hv => hd k v (List.mem_cons_of_mem _ hv)
      exact ⟨(k, .func f) :: g, by simp [loadCalcs, methods_mem hf, hg, Except.map], .cons ⟨rfl, rfl⟩ hr⟩

theorem related_eq {d e : List (Key × Val F T L)} (h : Related (fun v u => v = u) d e) : d = e := by
  induction h with
  | nil => rfl
  | @cons x y _ _ h _ ih => obtain ⟨a, b⟩ := x; obtain ⟨a', b'⟩ := y; obtain ⟨h1, h2⟩ := h; simp only at h1 h2; rw [h1, h2, ih]

theorem same_funcs {d : List (Key × Val F T L)} (h : ∀ k w, (k, w) ∈ d → ∃ f, w = .func f) : Same lib (.dict d) (.dict d) := by
  refine .dict rfl fun k v w hv hw => ?_
  rw [hv] at hw; cases hw
  obtain ⟨f, rfl⟩ := h k v (PyDict.mem_of_get? hv)
  exact .func f

/-- The functions of calculations are found again. -/
theorem calcs_trip {c : Cls} {v : Val F T L} (h : Calculations (methods c) v) :
    ∃ e g, dump lib v = .ok (.dict e) ∧ loadCalcs c e = .ok g ∧ Same lib v (.dict g) ∧ Calculations (methods c) (.dict g) := by
  obtain ⟨d, rfl, hk, hd⟩ := h
  obtain ⟨e, he, hf, hr⟩ := dump_dict (lib := lib) hk fun k v hv => by
    obtain ⟨f, _, rfl⟩ := hd k v hv; exact ⟨.str f, by rw [dump]⟩
  obtain ⟨g, hg, hq⟩ := calcs_ok d e hr hd
  have := related_eq hq; subst this
  exact ⟨e, d, by rw [dump, he]; simp [Except.map, hf], hg, same_funcs fun k w hw => by obtain ⟨f, _, h⟩ := hd k w hw; exact ⟨f, h⟩,
    d, rfl, hk, hd⟩

/-- A dictionary of plain values. -/
theorem plainDict_dump {d : List (Key × Val F T L)} (h : PlainDict d) :
    ∃ e, dumpPairs lib d = .ok e ∧ fromPairs e = e ∧ Related (Same lib) d e ∧ PlainDict e := by
  obtain ⟨e, he, hf, hr⟩ := dump_dict (lib := lib) h.1 fun k v hv => by
    obtain ⟨w, hw, _⟩ := plain_dump (lib := lib) (h.2 k v hv); exact ⟨w, hw⟩
  have hr' : ∀ (d e : List (Key × Val F T L)), (∀ k v, (k, v) ∈ d → Plain v) → Related (fun v w => dump lib v = .ok w) d e →
      Related (fun v u => Same lib v u ∧ Plain u) d e := by
    intro d e h1 h2
    induction h2 with
    | nil => exact .nil
    | cons h _ ih =>
      exact .cons ⟨h.1, plain_q (h1 _ _ List.mem_cons_self) h.2⟩ (ih fun k v hv => h1 k v (List.mem_cons_of_mem _ hv))
  have hr2 := hr' d e h.2 hr
  refine ⟨e, he, hf, related_mono hr2 fun _ _ h => h.1, strKeys_of hr h.1, ?_⟩
  intro k w hw
  obtain ⟨v, _, h⟩ := related_mem hr2 hw
  exact h.2

theorem intKeys_ok (hl : LibOk lib) : ∀ (d acc : List (Key × Val F T L)), (∀ k ∈ d.map Prod.fst, ∃ z, k = Key.int z) →
    (∀ k w, (k, w) ∈ d → Plain w) → ((acc ++ d).map Prod.fst).Nodup →
    ∃ e g, dumpPairs lib d = .ok e ∧ e.map Prod.fst = d.map (fun x => jsonKey lib x.1) ∧ intKeys lib e acc = .ok (acc ++ g) ∧
      Related (fun v u => Same lib v u ∧ Plain u) d g
  | [], acc, _, _, _ => ⟨[], [], rfl, rfl, by simp [intKeys], .nil⟩
  | (k, v) :: t, acc, hk, hp, hn => by
    obtain ⟨z, rfl⟩ := hk k (by simp)
    obtain ⟨w, hw, hs⟩ := plain_dump (lib := lib) (hp _ v List.mem_cons_self)
    obtain ⟨e, g, h1, h2, h3, h4⟩ := intKeys_ok hl t (acc ++ [(.int z, w)])
      (fun k h => hk k (by simp only [List.map_cons]; exact List.mem_cons_of_mem _ h))
      (fun k w h => hp k w (List.mem_cons_of_mem _ h)) (by simpa using hn)
    refine ⟨(.str (lib.fmt z), w) :: e, (.int z, w) :: g, ?_, ?_, ?_, .cons ⟨rfl, hs⟩ h4⟩
    · rw [dumpPairs, hw]; simp [h1, jsonKey, Except.map]
    · simp [h2, jsonKey]
    · rw [intKeys, hl.ints]
      simp only
      rw [PyDict.set_of_not_mem, h3]
      · simp
      · intro hm
        simp only [List.map_append, List.map_cons, List.nodup_append] at hn
        exact hn.2.2 _ hm _ (by simp) rfl

theorem trip_mapping (hl : LibOk lib) {v : Val F T L} (h : Mapping v) :
    Trip lib (optMapping lib) v fun u => Same lib v u ∧ Mapping u := by
  rcases h with rfl | ⟨d, rfl, hn, hk, hp⟩
  · exact ⟨.none, .none, by simp [dump], rfl, .none, .inl rfl⟩
  · obtain ⟨e, g, h1, h2, h3, h4⟩ := intKeys_ok hl d [] hk hp (by simpa using hn)
    have hne : (e.map Prod.fst).Nodup := by
      rw [h2, show d.map (fun x => jsonKey lib x.1) = (d.map Prod.fst).map (jsonKey lib) by simp]
      refine List.Nodup.map_on ?_ hn
      intro x hx y hy hxy
      obtain ⟨a, rfl⟩ := hk x hx
      obtain ⟨b, rfl⟩ := hk y hy
      simp only [jsonKey, Key.str.injEq] at hxy
      rw [hl.fmt a b hxy]
    refine ⟨.dict e, .dict g, by rw [dump, h1]; simp [Except.map, fromPairs_nodup hne], by simp [optMapping, h3, Except.map],
      same_dict (related_mono h4 fun _ _ h => h.1), .inr ⟨g, rfl, ?_, ?_, ?_⟩⟩
    · rw [← related_keys h4]; exact hn
    · rw [← related_keys h4]; exact hk
    · intro k w hw
      obtain ⟨v, _, h⟩ := related_mem h4 hw
      exact h.2

theorem labeler_trip (hl : LibOk lib) {v : Val F T L} (h : ALabeler lib v) :
    ∃ s m, dump lib v = .ok (.dict [(.str "from_library", .str s)]) ∧ lib.library s = .ok m ∧ Same lib v (.labeler m) ∧
      ALabeler lib (.labeler m) := by
  obtain ⟨l, s, rfl, hs⟩ := h
  obtain ⟨m, h1, h2⟩ := hl.labelers l s hs
  exact ⟨s, m, by rw [dump, hs], h1, .labeler hs h2, m, s, rfl, h2⟩

/-! ### The attributes of a column profile -/

/-- Attributes with functions. -/
def calcNames : List String :=
  ["_NumericStatsMixin__calculations", "_IntColumn__calculations", "_FloatColumn__calculations", "_TextColumn__calculations",
    "_DateTimeColumn__calculations", "_OrderColumn__calculations", "_CategoricalColumn__calculations", "_DataLabelerColumn__calculations"]

/-- Attributes whose values are plain. -/
def plainName (c : Cls) (s : String) : Bool :=
  decide (s ∉ "times" :: calcNames ++ ["_stored_histogram", "histogram_methods", "num_zeros", "num_negatives", "_biased_variance",
    "_biased_skewness", "_biased_kurtosis", "_precision", "_dt_obj_min", "_dt_obj_max", "_categories", "_reverse_label_mapping",
    "_sum_predictions", "data_labeler", "_data_store_type"]) && (decide (s ∉ ["min", "max", "sum"]) || decide (c = .datetime))

theorem fits_plain {c : Cls} {s : String} (v : Val F T L) (h : plainName c s = true) : Fits lib c s v ↔ Plain v := by
  simp only [plainName, calcNames, List.cons_append, List.nil_append, List.mem_cons, List.not_mem_nil, or_false, not_or, Bool.and_eq_true,
    decide_eq_true_eq, Bool.or_eq_true] at h
  obtain ⟨⟨h1, a1, a2, a3, a4, a5, a6, a7, a8, b1, b2, b3, b4, b5, b6, b7, b8, b9, b10, b11, b12, b13, b14, b15⟩, hd⟩ := h
  unfold Fits
  rw [if_neg h1, if_neg (by simp [a1, a2, a3, a4, a5, a6, a7, a8]), if_neg b1, if_neg b2, if_neg, if_neg (by simp [b3, b4]),
    if_neg (by simp [b5, b6, b7]), if_neg b8, if_neg (by simp [b9, b10]), if_neg b11, if_neg b12, if_neg b13, if_neg b14, if_neg b15]
  rintro ⟨hm, hc⟩
  rcases hd with hd | hd
  · simp only [List.mem_cons, List.not_mem_nil, or_false] at hm
    rcases hm with h | h | h
    · exact hd.1 h
    · exact hd.2.1 h
    · exact hd.2.2 h
  · exact hc hd

/-- A loaded value can stand for the one there was and is of its kind. -/
def Good (lib : Lib F T L) (c : Cls) (k : Key) (v u : Val F T L) : Prop := Same lib v u ∧ ∀ s, k = .str s → Fits lib c s u

theorem trip_good {c : Cls} {s : String} {f : Val F T L → Except Err (Val F T L)} {v : Val F T L} {P : Val F T L → Prop}
    (h : Trip lib f v fun u => Same lib v u ∧ P u) (hp : ∀ u, Fits lib c s u ↔ P u) : Trip lib f v (Good lib c (.str s) v) := by
  obtain ⟨w, u, h1, h2, h3, h4⟩ := h
  exact ⟨w, u, h1, h2, h3, fun s' hs => by cases hs; exact (hp u).2 h4⟩

/-- The names of the attributes of a new profile. -/
def freshNames : Cls → List String
  | .int => numeric ++ base ++ ["match_count", "_IntColumn__calculations"]
  | .float =>
    numeric ++ base ++ ["match_count", "_precision", "_FloatColumn__z_value_precision", "_FloatColumn__precision_sample_ratio",
      "_FloatColumn__calculations"]
  | .text => numeric ++ base ++ ["match_count", "vocab", "_TextColumn__calculations"]
  | .datetime =>
    base ++ ["match_count", "date_formats", "min", "max", "_dt_obj_min", "_dt_obj_max", "_DateTimeColumn__calculations"]
  | .order => ["order", "_last_value", "_first_value", "_data_store_type", "_piecewise", "_OrderColumn__calculations"] ++ base
  | .category =>
    base ++ ["_categories", "_CategoricalColumn__calculations", "_top_k_categories", "max_sample_size_to_check_stop_condition",
      "stop_condition_unique_value_ratio", "_stop_condition_is_met", "_stopped_at_unique_ratio", "_stopped_at_unique_count",
      "_cms_max_num_heavy_hitters", "cms_num_hashes", "cms_num_buckets", "cms"]
  | .labeler =>
    base ++ ["_max_sample_size", "data_labeler", "_reverse_label_mapping", "_possible_data_labels", "_rank_distribution",
      "_sum_predictions", "_top_k_voting", "_min_voting_prob", "_min_prob_differential", "_top_k_labels", "_min_top_label_prob",
      "_DataLabelerColumn__calculations"]
where
  base := ["name", "col_index", "sample_size", "metadata", "times", "thread_safe"]
  numeric := ["min", "max", "_top_k_modes", "sum", "_biased_variance", "_biased_skewness", "_biased_kurtosis", "_median_is_enabled",
    "_median_abs_dev_is_enabled", "max_histogram_bin", "min_histogram_bin", "histogram_bin_method_names", "histogram_selection",
    "user_set_histogram_bin", "bias_correction", "_mode_is_enabled", "num_zeros", "num_negatives", "_num_quantiles",
    "histogram_methods", "_stored_histogram", "_batch_history", "quantiles", "_NumericStatsMixin__calculations"]

theorem fresh_keys (c : Cls) (name lab : Val F T L) : (fresh lib c name lab).map Prod.fst = (freshNames c).map Key.str := by
  cases c <;> rfl

theorem fresh_nodup (c : Cls) (name lab : Val F T L) : ((fresh lib c name lab).map Prod.fst).Nodup := by
  rw [fresh_keys]
  refine List.Nodup.map (fun a b h => Key.str.inj h) ?_
  cases c <;> decide +kernel

theorem fresh_required (c : Cls) (name lab : Val F T L) (k : Key) (h : k ∈ (fresh lib c name lab).map Prod.fst) :
    ∃ s ∈ required c, k = .str s := by
  rw [fresh_keys] at h
  obtain ⟨s, hs, rfl⟩ := List.mem_map.1 h
  have : ∀ s ∈ freshNames c, s ∈ required c := by cases c <;> decide +kernel
  exact ⟨s, this s hs, rfl⟩

/-! ### `load_from_dict` of the base class -/

theorem setAttrs_ok {c : Cls} : ∀ (l : List (Key × Val F T L)) (acc : Dict F T L), (l.map Prod.fst).Nodup → PyDict.WF acc →
    (∀ k w, (k, w) ∈ l → within "__calculations" k = true → ∃ d d', w = .dict d ∧ loadCalcs c d = .ok d') →
    ∃ r, setAttrs c l acc = .ok r ∧ PyDict.WF r ∧ (∀ k, k ∈ r.map Prod.fst ↔ k ∈ l.map Prod.fst ∨ k ∈ acc.map Prod.fst) ∧
      (∀ k, k ∉ l.map Prod.fst → PyDict.get? r k = PyDict.get? acc k) ∧
      (∀ k w, (k, w) ∈ l → within "__calculations" k = false → PyDict.get? r k = some w) ∧
      (∀ k d d', (k, .dict d) ∈ l → within "__calculations" k = true → loadCalcs c d = .ok d' → PyDict.get? r k = some (.dict d'))
  | [], acc, _, hw, _ => ⟨acc, rfl, hw, by simp, by simp, by simp, by simp⟩
  | (k, w) :: t, acc, hn, hw, hc => by
    rw [List.map_cons, List.nodup_cons] at hn
    have step : ∀ u, (∀ r, setAttrs c t (PyDict.set acc k u) = .ok r → setAttrs c ((k, w) :: t) acc = .ok r) →
        (within "__calculations" k = false → u = w) →
        (∀ d d', w = .dict d → within "__calculations" k = true → loadCalcs c d = .ok d' → u = .dict d') →
        ∃ r, setAttrs c ((k, w) :: t) acc = .ok r ∧ PyDict.WF r ∧
          (∀ k', k' ∈ r.map Prod.fst ↔ k' ∈ ((k, w) :: t).map Prod.fst ∨ k' ∈ acc.map Prod.fst) ∧
          (∀ k', k' ∉ ((k, w) :: t).map Prod.fst → PyDict.get? r k' = PyDict.get? acc k') ∧
          (∀ k' w', (k', w') ∈ (k, w) :: t → within "__calculations" k' = false → PyDict.get? r k' = some w') ∧
          (∀ k' d d', (k', .dict d) ∈ (k, w) :: t → within "__calculations" k' = true → loadCalcs c d = .ok d' →
            PyDict.get? r k' = some (.dict d')) := fun u h1 h2 h3 => by
      obtain ⟨r, hr, r1, r2, r3, r4, r5⟩ := setAttrs_ok t (PyDict.set acc k u) hn.2 (PyDict.WF_set hw k u)
        fun k w h => hc k w (List.mem_cons_of_mem _ h)
      have hk : PyDict.get? r k = some u := by rw [r3 k hn.1, PyDict.get?_set, if_pos rfl]
      refine ⟨r, h1 r hr, r1, ?_, ?_, ?_, ?_⟩
      · intro k'
        rw [r2]
        have := PyDict.keys_set acc k u
        simp only [PyDict.keys] at this
        rw [this]
        by_cases hka : k ∈ PyDict.keys acc
        · simp only [PyDict.keys] at hka
          simp only [hka, if_true, List.map_cons, List.mem_cons]
          constructor
          · rintro (h | h)
            · exact .inl (.inr h)
            · exact .inr h
          · rintro ((rfl | h) | h)
            · exact .inr hka
            · exact .inl h
            · exact .inr h
        · simp only [PyDict.keys] at hka
          simp only [hka, if_false, List.map_cons, List.mem_cons, List.mem_append, List.not_mem_nil, or_false]
          tauto
      · intro k' hk'
        simp only [List.map_cons, List.mem_cons, not_or] at hk'
        rw [r3 k' hk'.2, PyDict.get?_set, if_neg (fun h => hk'.1 h.symm)]
      · intro k' w' hm hwi
        rcases List.mem_cons.1 hm with hm | hm
        · cases hm; rw [hk, h2 hwi]
        · exact r4 k' w' hm hwi
      · intro k' d d' hm hwi hl
        rcases List.mem_cons.1 hm with hm | hm
        · cases hm; rw [hk, h3 d d' rfl hwi hl]
        · exact r5 k' d d' hm hwi hl
    by_cases hwi : within "__calculations" k = true
    · obtain ⟨d, d', rfl, hl⟩ := hc k w List.mem_cons_self hwi
      refine step (.dict d') (fun r hr => by simp [setAttrs, hwi, hl, hr]) (fun h => by rw [hwi] at h; cases h) ?_
      intro d1 d1' he _ hl1
      cases he; rw [hl] at hl1; cases hl1; rfl
    · refine step w (fun r hr => by simp [setAttrs, hwi, hr]) (fun _ => rfl) ?_
      intro _ _ _ h
      exact absurd h hwi

theorem loadBase_ok {c : Cls} {lab name : Val F T L} {data : Dict F T L} {t : List (Key × Val F T L)} (hn : PyDict.WF data)
    (hname : PyDict.get? data (.str "name") = some name) (ht : PyDict.get? data (.str "times") = some (.dict t))
    (hc : ∀ k w, PyDict.get? data k = some w → within "__calculations" k = true → ∃ d d', w = .dict d ∧ loadCalcs c d = .ok d') :
    ∃ r, loadBase lib c lab data = .ok r ∧ PyDict.WF r ∧
      (∀ k, k ∈ r.map Prod.fst ↔ k ∈ data.map Prod.fst ∨ k ∈ (fresh lib c name lab).map Prod.fst) ∧
      PyDict.get? r (.str "times") = some (.ddict .float t) ∧
      (∀ k w, PyDict.get? data k = some w → k ≠ .str "times" → within "__calculations" k = false → PyDict.get? r k = some w) ∧
      (∀ k d d', PyDict.get? data k = some (.dict d) → within "__calculations" k = true → loadCalcs c d = .ok d' →
        PyDict.get? r k = some (.dict d')) ∧
      (∀ k, k ≠ .str "times" → PyDict.get? data k = none → PyDict.get? r k = PyDict.get? (fresh lib c name lab) k) := by
  have hdel : ∀ k w, (k, w) ∈ PyDict.del data (.str "times") ↔ k ≠ .str "times" ∧ PyDict.get? data k = some w := by
    intro k w
    rw [PyDict.mem_iff_get? (PyDict.WF_del hn _), PyDict.get?_del hn]
    split_ifs with h
    · simp [h.symm]
    · simp [Ne.symm h]
  have htimes : Key.str "times" ∈ (fresh lib c name lab).map Prod.fst := by
    rw [fresh_keys]; exact List.mem_map_of_mem (by cases c <;> decide +kernel)
  obtain ⟨r, hr, r1, r2, r3, r4, r5⟩ := setAttrs_ok (c := c) (PyDict.del data (.str "times"))
    (PyDict.set (fresh lib c name lab) (.str "times") (.ddict .float t)) (PyDict.WF_del hn _) (PyDict.WF_set (fresh_nodup c name lab) _ _)
    (fun k w h hwi => hc k w ((hdel k w).1 h).2 hwi)
  have hkdel : ∀ k, k ∈ (PyDict.del data (.str "times")).map Prod.fst ↔ k ≠ .str "times" ∧ k ∈ data.map Prod.fst := by
    intro k
    rw [show List.map Prod.fst (PyDict.del data (.str "times")) = PyDict.keys (PyDict.del data (.str "times")) from rfl, PyDict.keys_del,
      List.Nodup.mem_erase_iff hn]; rfl
  have hnone : Key.str "times" ∉ (PyDict.del data (.str "times")).map Prod.fst := by rw [hkdel]; simp
  refine ⟨r, by simp only [loadBase, hname, ht, hr], r1, ?_, ?_, ?_, ?_, ?_⟩
  · intro k
    rw [r2, hkdel, keys_set_of_get (w := PyDict.getD (fresh lib c name lab) (.str "times") .none)]
    · by_cases hk : k = .str "times"
      · subst hk; simp [htimes]
      · simp [hk]
    · obtain ⟨v, hv⟩ := (PyDict.mem_keys_iff _ _).1 htimes
      simp [PyDict.getD, hv]
  · rw [r3 _ hnone, PyDict.get?_set, if_pos rfl]
  · intro k w hk hne hwi
    exact r4 k w ((hdel k w).2 ⟨hne, hk⟩) hwi
  · intro k d d' hk hwi hl
    refine r5 k d d' ((hdel _ _).2 ⟨?_, hk⟩) hwi hl
    rintro rfl
    exact absurd hwi (by decide +kernel)
  · intro k hne hk
    rw [r3 k (by rw [hkdel]; rintro ⟨_, hm⟩; exact absurd hk (by obtain ⟨v, hv⟩ := (PyDict.mem_keys_iff _ _).1 hm; rw [hv]; simp)),
      PyDict.get?_set, if_neg (Ne.symm hne)]

theorem within_names {c : Cls} {s : String} (h : s ∈ required c ∨ s ∈ possible c) :
    within "__calculations" (.str s) = true ↔ s ∈ calcNames := by
  have : ∀ s ∈ required c ++ possible c, within "__calculations" (.str s) = decide (s ∈ calcNames) := by cases c <;> decide +kernel
  rw [this s (List.mem_append.2 h)]; simp

/-- After the base class: times and functions are loaded. -/
theorem base_prog {c : Cls} {lab : Val F T L} {d data : Dict F T L} (hn : PyDict.WF data) (hp : Prog lib (Good lib c) d data [])
    (hd : ∀ k v, PyDict.get? d k = some v → ∃ s, k = .str s ∧ (s ∈ required c ∨ s ∈ possible c) ∧ Fits lib c s v)
    (hname : ∃ v, PyDict.get? d (.str "name") = some v) (ht : ∃ v, PyDict.get? d (.str "times") = some v)
    (hw : ∀ k w, PyDict.get? data k = some w → within "__calculations" k = true → ∃ v, PyDict.get? d k = some v) :
    ∃ r name, loadBase lib c lab data = .ok r ∧ PyDict.WF r ∧
      (∀ k, k ∈ r.map Prod.fst ↔ k ∈ data.map Prod.fst ∨ k ∈ (fresh lib c name lab).map Prod.fst) ∧
      Prog lib (Good lib c) d r (("times" :: calcNames).map Key.str) ∧
      (∀ k w, PyDict.get? data k = some w → k ≠ .str "times" → within "__calculations" k = false → PyDict.get? r k = some w) ∧
      (∀ k, k ≠ .str "times" → PyDict.get? data k = none → PyDict.get? r k = PyDict.get? (fresh lib c name lab) k) := by
  obtain ⟨nv, hnv⟩ := hname
  obtain ⟨nw, _, hnw⟩ := hp.pending _ nv hnv (by simp)
  obtain ⟨tv, htv⟩ := ht
  obtain ⟨_, hts, _, htf⟩ := hd _ tv htv
  cases hts
  simp only [Fits, if_true] at htf
  obtain ⟨td, rfl, htd⟩ := htf
  obtain ⟨te, te1, te2, te3, te4⟩ := plainDict_dump (lib := lib) htd
  obtain ⟨tw, htw, htw'⟩ := hp.pending _ _ htv (by simp)
  rw [dump, te1] at htw
  simp only [Except.map, te2, Except.ok.injEq] at htw
  subst htw
  have hcalc : ∀ k v, PyDict.get? d k = some v → within "__calculations" k = true →
      ∃ e g, PyDict.get? data k = some (.dict e) ∧ loadCalcs c e = .ok g ∧ Good lib c k v (.dict g) := by
    intro k v hv hwi
    obtain ⟨s, rfl, hs, hf⟩ := hd k v hv
    have hsc := (within_names hs).1 hwi
    have hne : s ≠ "times" := by rintro rfl; revert hsc; decide +kernel
    have hfit : ∀ u : Val F T L, Fits lib c s u ↔ Calculations (methods c) u := by
      intro u; unfold Fits; unfold calcNames at hsc; rw [if_neg hne, if_pos hsc]
    obtain ⟨e, g, h1, h2, h3, h4⟩ := calcs_trip (lib := lib) ((hfit v).1 hf)
    obtain ⟨w, hw1, hw2⟩ := hp.pending _ v hv (by simp)
    rw [h1] at hw1; cases hw1
    exact ⟨e, g, hw2, h2, h3, fun s' hs' => by cases hs'; exact (hfit _).2 h4⟩
  obtain ⟨r, h1, h2, h3, h4, h5, h6, h7⟩ := loadBase_ok (lib := lib) (c := c) (lab := lab) hn hnw htw' (by
    intro k w hk hwi
    obtain ⟨v, hv⟩ := hw k w hk hwi
    obtain ⟨e, g, e1, e2, _⟩ := hcalc k v hv hwi
    rw [hk] at e1; cases e1
    exact ⟨e, g, rfl, e2⟩)
  refine ⟨r, nw, h1, h2, h3, ⟨?_, ?_⟩, h5, h7⟩
  · intro k v hv hnd
    obtain ⟨s, rfl, hs, _⟩ := hd k v hv
    obtain ⟨w, w1, w2⟩ := hp.pending _ v hv (by simp)
    simp only [List.map_cons, List.mem_cons, not_or] at hnd
    refine ⟨w, w1, h5 _ w w2 hnd.1 ?_⟩
    rw [← Bool.not_eq_true, within_names hs]
    intro hm
    exact hnd.2 (List.mem_map_of_mem hm)
  · intro k v hv hm
    obtain ⟨s, rfl, hs, hf⟩ := hd k v hv
    have hm' : s ∈ "times" :: calcNames := by
      obtain ⟨x, hx, hxs⟩ := List.mem_map.1 hm; cases hxs; exact hx
    rcases List.mem_cons.1 hm' with rfl | hm'
    · rw [htv] at hv; cases hv
      refine ⟨_, h4, .ddict (related_keys te3) (same_get te3), fun s hs => ?_⟩
      cases hs
      simp only [Fits, if_true]
      exact ⟨te, rfl, te4⟩
    · have hwi := (within_names hs).2 hm'
      obtain ⟨e, g, e1, e2, e3⟩ := hcalc _ v hv hwi
      exact ⟨_, h6 _ e g e1 hwi e2, e3⟩

/-! ### The classes -/

theorem ite_elim {p A B C : Prop} [Decidable p] (ha : A → C) (hb : B → C) (h : if p then A else B) : C := by
  by_cases hp : p
  · rw [if_pos hp] at h; exact ha h
  · rw [if_neg hp] at h; exact hb h

theorem fits_dump (hl : LibOk lib) {c : Cls} {s : String} {v : Val F T L} (h : Fits lib c s v) : ∃ w, dump lib v = .ok w := by
  unfold Fits at h
  revert h
  refine ite_elim (fun h => ?_) <| ite_elim (fun h => ?_) <| ite_elim (fun h => ?_) <| ite_elim (fun h => ?_) <| ite_elim (fun h => ?_) <| ite_elim (fun h => ?_) <| ite_elim (fun h => ?_) <| ite_elim (fun h => ?_) <| ite_elim (fun h => ?_) <| ite_elim (fun h => ?_) <| ite_elim (fun h => ?_) <| ite_elim (fun h => ?_) <| ite_elim (fun h => ?_) <| ite_elim (fun h => ?_) <| fun h => ?_
  · obtain ⟨d, rfl, hd⟩ := h
    obtain ⟨e, he, _⟩ := plainDict_dump (lib := lib) hd
    exact ⟨_, by rw [dump, he]; rfl⟩
  · obtain ⟨e, g, he, _⟩ := calcs_trip (lib := lib) h; exact ⟨_, he⟩
  · obtain ⟨w, _, hw, _⟩ := trip_hist (lib := lib) h; exact ⟨w, hw⟩
  · obtain ⟨w, _, hw, _⟩ := trip_hists (lib := lib) h; exact ⟨w, hw⟩
  · obtain ⟨w, _, hw, _⟩ := trip_optFloat (lib := lib) h; exact ⟨w, hw⟩
  · obtain ⟨w, _, hw, _⟩ := trip_optInt (lib := lib) h; exact ⟨w, hw⟩
  · obtain ⟨w, _, hw, _⟩ := trip_float (lib := lib) h; exact ⟨w, hw⟩
  · obtain ⟨w, _, hw, _⟩ := trip_precision (lib := lib) h; exact ⟨w, hw⟩
  · obtain ⟨w, _, hw, _⟩ := trip_optStamp (lib := lib) h; exact ⟨w, hw⟩
  · obtain ⟨d, hv, hd⟩ := h
    obtain ⟨e, he, _⟩ := plainDict_dump (lib := lib) hd
    rcases hv with rfl | rfl
    · exact ⟨_, by rw [dump, he]; rfl⟩
    · exact ⟨_, by rw [dump, he]; rfl⟩
  · obtain ⟨w, _, hw, _⟩ := trip_mapping hl h; exact ⟨w, hw⟩
  · obtain ⟨w, _, hw, _⟩ := optArray_of (lib := lib) h; exact ⟨w, hw⟩
  · obtain ⟨_, _, hw, _⟩ := labeler_trip hl h; exact ⟨_, hw⟩
  · rcases h with rfl | rfl
    · exact ⟨_, by rw [dump]⟩
    · exact ⟨_, by rw [dump]⟩
  · obtain ⟨w, hw, _⟩ := plain_dump (lib := lib) h; exact ⟨w, hw⟩

theorem column_strKeys {c : Cls} {a : Dict F T L} (h : ColumnOk lib c a) : StrKeys a :=
  ⟨h.nodup, fun k hk => by obtain ⟨s, hs, _⟩ := h.only k hk; exact ⟨s, hs⟩⟩

theorem column_get {c : Cls} {a : Dict F T L} (h : ColumnOk lib c a) (k : Key) (v : Val F T L) (hv : PyDict.get? a k = some v) :
    ∃ s, k = .str s ∧ (s ∈ required c ∨ s ∈ possible c) ∧ Fits lib c s v := by
  have hm := PyDict.mem_of_get? hv
  obtain ⟨s, rfl, hs⟩ := h.only k (List.mem_map_of_mem (f := Prod.fst) hm)
  exact ⟨s, rfl, hs, h.fits s v hm⟩

theorem column_has {c : Cls} {a : Dict F T L} (h : ColumnOk lib c a) {s : String} (hs : s ∈ required c) :
    ∃ v, PyDict.get? a (.str s) = some v ∧ Fits lib c s v := by
  obtain ⟨v, hv⟩ := (PyDict.mem_keys_iff a _).1 (h.has s hs)
  obtain ⟨s', h1, _, h3⟩ := column_get h _ v hv
  cases h1; exact ⟨v, hv, h3⟩

theorem column_dump (hl : LibOk lib) {c : Cls} {a : Dict F T L} (h : ColumnOk lib c a) :
    ∃ e, dumpPairs lib a = .ok e ∧ fromPairs e = e ∧ Related (fun v w => dump lib v = .ok w) a e :=
  dump_dict (column_strKeys h) fun k v hv => by
    obtain ⟨s, _, _, hf⟩ := column_get h k v (get_of_mem (column_strKeys h) hv)
    exact fits_dump hl hf

theorem names_base {c : Cls} : "name" ∈ required c ∧ "times" ∈ required c := by cases c <;> decide +kernel

/-- The result of loading a profile. -/
structure Loaded (lib : Lib F T L) (c : Cls) (a r : Dict F T L) : Prop where
  wf : PyDict.WF r
  keys : ∀ k, k ∈ r.map Prod.fst ↔ k ∈ a.map Prod.fst
  good : ∀ k v, PyDict.get? a k = some v → ∃ u, PyDict.get? r k = some u ∧ Good lib c k v u

theorem loaded_same {c : Cls} {a r : Dict F T L} (h : Loaded lib c a r) (n : String) : Same lib (.obj n a) (.obj n r) :=
  .obj (fun k => (h.keys k).symm) fun k v w hv hw => by
    obtain ⟨u, hu, hg⟩ := h.good k v hv
    rw [hw] at hu; cases hu; exact hg.1

theorem loaded_mem {c : Cls} {a r : Dict F T L} (h : Loaded lib c a r) {k u} (hu : PyDict.get? r k = some u) :
    ∃ v, PyDict.get? a k = some v ∧ Good lib c k v u := by
  have : k ∈ a.map Prod.fst := (h.keys k).1 ((PyDict.mem_keys_iff r k).2 ⟨u, hu⟩)
  obtain ⟨v, hv⟩ := (PyDict.mem_keys_iff a k).1 this
  obtain ⟨u', h1, h2⟩ := h.good k v hv
  rw [hu] at h1; cases h1; exact ⟨v, hv, h2⟩

/-- It can be saved again. -/
theorem loaded_ok {c : Cls} {a r : Dict F T L} (ha : ColumnOk lib c a) (h : Loaded lib c a r)
    (ho : c = .order → (.str "_data_store_type", .func "float64") ∈ r →
      (.str "sample_size", .int 0) ∈ r ∨ ∃ v w, (.str "_first_value", v) ∈ r ∧ (.str "_last_value", w) ∈ r ∧ AFloat v ∧ AFloat w) :
    ColumnOk lib c r := by
  refine ⟨h.wf, fun s hs => (h.keys _).2 (ha.has s hs), fun k hk => ha.only k ((h.keys k).1 hk), ?_, ?_⟩
  · intro s u hu
    obtain ⟨v, _, hg⟩ := loaded_mem h (PyDict.get?_of_mem h.wf hu)
    exact hg.2 s rfl
  · intro hm
    refine ho ?_ hm
    obtain ⟨s, hs, hs'⟩ := ha.only _ ((h.keys _).1 (List.mem_map_of_mem (f := Prod.fst) hm))
    cases hs
    revert hs'
    cases c <;> decide +kernel

/-- A profile whose attributes were all in the data. -/
theorem base_column (hl : LibOk lib) {c : Cls} {a : Dict F T L} {lab : Val F T L} (h : ColumnOk lib c a) :
    ∃ e r, dumpPairs lib a = .ok e ∧ fromPairs e = e ∧ loadBase lib c lab e = .ok r ∧ PyDict.WF r ∧
      (∀ k, k ∈ r.map Prod.fst ↔ k ∈ a.map Prod.fst) ∧ Prog lib (Good lib c) a r (("times" :: calcNames).map Key.str) := by
  obtain ⟨e, e1, e2, e3⟩ := column_dump hl h
  have hke := related_keys e3
  obtain ⟨r, name, r1, r2, r3, r4, _⟩ := base_prog (lab := lab) (show PyDict.WF e by unfold PyDict.WF PyDict.keys; rw [← hke]; exact h.nodup)
    (prog_start (Q := Good lib c) e3) (column_get h) (by obtain ⟨v, hv, _⟩ := column_has h (names_base (c := c)).1; exact ⟨v, hv⟩)
    (by obtain ⟨v, hv, _⟩ := column_has h (names_base (c := c)).2; exact ⟨v, hv⟩)
    (fun k w hw _ => by obtain ⟨v, hv, _⟩ := related_get' e3 hw; exact ⟨v, hv⟩)
  refine ⟨e, r, e1, e2, r1, r2, ?_, r4⟩
  intro k
  rw [r3, ← hke]
  constructor
  · rintro (hk | hk)
    · exact hk
    · obtain ⟨s, hs, rfl⟩ := fresh_required c name lab k hk
      exact h.has s hs
  · exact .inl

/-- The rest of the attributes is plain. -/
theorem prog_loaded {c : Cls} {a r : Dict F T L} {done : List Key} (h : ColumnOk lib c a) (hw : PyDict.WF r)
    (hk : ∀ k, k ∈ r.map Prod.fst ↔ k ∈ a.map Prod.fst) (hp : Prog lib (Good lib c) a r done)
    (hd : ∀ s ∈ required c ++ possible c, Key.str s ∉ done → plainName c s = true) : Loaded lib c a r := by
  refine ⟨hw, hk, prog_end hp ?_⟩
  intro k v hv hn w hdw
  obtain ⟨s, rfl, hs, hf⟩ := column_get h k v hv
  have hpn := hd s (List.mem_append.2 hs) hn
  have := plain_q (lib := lib) ((fits_plain v hpn).1 hf) hdw
  exact ⟨this.1, fun s' hs' => by cases hs'; exact (fits_plain w hpn).2 this.2⟩

/-- The attributes `_reformat_numeric_stats_types_on_serialized_profiles` converts. -/
def reformatted : List String :=
  ["_stored_histogram", "histogram_methods", "min", "max", "sum", "num_zeros", "num_negatives", "_biased_variance", "_biased_skewness",
    "_biased_kurtosis"]

theorem reformat_ok {c : Cls} {a r : Dict F T L} {done : List Key} (h : ColumnOk lib c a) (hc : isNumeric c)
    (hp : Prog lib (Good lib c) a r done) (hd : ∀ s ∈ reformatted, Key.str s ∉ done) :
    ∃ r' done', reformat lib r = .ok r' ∧ Prog lib (Good lib c) a r' done' ∧ r'.map Prod.fst = r.map Prod.fst ∧
      ∀ k, k ∈ done' ↔ k ∈ done ∨ k ∈ reformatted.map Key.str := by
  have hdt : c ≠ .datetime := by rcases hc with rfl | rfl | rfl <;> decide
  have hreq : ∀ s ∈ reformatted, s ∈ required c := by rcases hc with rfl | rfl | rfl <;> decide +kernel
  have get : ∀ s ∈ reformatted, ∃ v, PyDict.get? a (.str s) = some v ∧ Fits lib c s v := fun s hs => column_has h (hreq s hs)
  obtain ⟨v1, g1, f1⟩ := get "_stored_histogram" (by decide)
  obtain ⟨r1, a1, p1, k1⟩ := prog_attr (f := convertHist lib) hp g1 (hd _ (by decide))
    (trip_good (trip_hist (by simpa [Fits] using f1)) (by simp [Fits]))
  obtain ⟨v2, g2, f2⟩ := get "histogram_methods" (by decide)
  obtain ⟨r2, a2, p2, k2⟩ := prog_attr (f := convertHists lib) p1 g2
    (by simp only [List.mem_cons, not_or]; exact ⟨by decide, hd _ (by decide)⟩)
    (trip_good (trip_hists (by simpa [Fits] using f2)) (by simp [Fits]))
  obtain ⟨r3, a3, p3, k3⟩ := prog_attrs (f := optFloat lib) ["min", "max", "sum"] r2 _ p2 (by decide) (by
      intro s hs hm
      have hs' : s ∈ reformatted ∧ Key.str s ≠ .str "histogram_methods" ∧ Key.str s ≠ .str "_stored_histogram" := by
        clear hm; revert hs; revert s; decide +kernel
      simp only [List.mem_cons] at hm
      rcases hm with hm | hm | hm
      · exact hs'.2.1 hm
      · exact hs'.2.2 hm
      · exact hd s hs'.1 hm)
    (by
      intro s hs
      have hfit : ∀ u : Val F T L, Fits lib c s u ↔ OptFloat u := by
        intro u
        simp only [List.mem_cons, List.not_mem_nil, or_false] at hs
        rcases hs with rfl | rfl | rfl <;> simp [Fits, hdt]
      obtain ⟨v, g, f⟩ := get s (by clear hfit; revert hs; revert s; decide +kernel)
      exact ⟨v, g, trip_good (trip_optFloat ((hfit v).1 f)) hfit⟩)
  obtain ⟨r4, a4, p4, k4⟩ := prog_attrs (f := optInt) ["num_zeros", "num_negatives"] r3 _ p3 (by decide) (by
      intro s hs hm
      have hs' : s ∈ reformatted ∧ Key.str s ∉ (["min", "max", "sum"].map Key.str).reverse ∧ Key.str s ≠ .str "histogram_methods" ∧
          Key.str s ≠ .str "_stored_histogram" := by
        clear hm; revert hs; revert s; decide +kernel
      simp only [List.mem_append, List.mem_cons] at hm
      rcases hm with hm | hm | hm | hm
      · exact hs'.2.1 hm
      · exact hs'.2.2.1 hm
      · exact hs'.2.2.2 hm
      · exact hd s hs'.1 hm)
    (by
      intro s hs
      have hfit : ∀ u : Val F T L, Fits lib c s u ↔ OptInt u := by
        intro u
        simp only [List.mem_cons, List.not_mem_nil, or_false] at hs
        rcases hs with rfl | rfl <;> simp [Fits]
      obtain ⟨v, g, f⟩ := get s (by clear hfit; revert hs; revert s; decide +kernel)
      exact ⟨v, g, trip_good (trip_optInt ((hfit v).1 f)) hfit⟩)
  obtain ⟨r5, a5, p5, k5⟩ := prog_attrs (f := nanFloat lib) ["_biased_variance", "_biased_skewness", "_biased_kurtosis"] r4 _ p4
    (by decide) (by
      intro s hs hm
      have hs' : s ∈ reformatted ∧ Key.str s ∉ (["num_zeros", "num_negatives"].map Key.str).reverse ∧
          Key.str s ∉ (["min", "max", "sum"].map Key.str).reverse ∧ Key.str s ≠ .str "histogram_methods" ∧
          Key.str s ≠ .str "_stored_histogram" := by
        clear hm; revert hs; revert s; decide +kernel
      simp only [List.mem_append, List.mem_cons] at hm
      rcases hm with hm | hm | hm | hm | hm
      · exact hs'.2.1 hm
      · exact hs'.2.2.1 hm
      · exact hs'.2.2.2.1 hm
      · exact hs'.2.2.2.2 hm
      · exact hd s hs'.1 hm)
    (by
      intro s hs
      have hfit : ∀ u : Val F T L, Fits lib c s u ↔ AFloat u := by
        intro u
        simp only [List.mem_cons, List.not_mem_nil, or_false] at hs
        rcases hs with rfl | rfl | rfl <;> simp [Fits]
      obtain ⟨v, g, f⟩ := get s (by clear hfit; revert hs; revert s; decide +kernel)
      exact ⟨v, g, trip_good (trip_float ((hfit v).1 f)) hfit⟩)
  refine ⟨r5, _, by simp only [reformat, a1, a2, a3, a4, a5], p5, (((k5.trans k4).trans k3).trans k2).trans k1, ?_⟩
  intro k
  simp only [reformatted, List.map_cons, List.map_nil, List.reverse_cons, List.reverse_nil, List.nil_append, List.cons_append,
    List.mem_cons, List.not_mem_nil, or_false]
  tauto

theorem wf_of_keys {r r' : Dict F T L} (h : r'.map Prod.fst = r.map Prod.fst) (hw : PyDict.WF r) : PyDict.WF r' := by
  unfold PyDict.WF PyDict.keys at *; rw [h]; exact hw

/-- Integers and text. -/
theorem load_plain_numeric (hl : LibOk lib) {c : Cls} {a : Dict F T L} (h : ColumnOk lib c a) (hc : c = .int ∨ c = .text) :
    ∃ e r, dumpPairs lib a = .ok e ∧ fromPairs e = e ∧ loadAttrs lib c e = .ok r ∧ Loaded lib c a r := by
  obtain ⟨e, r, e1, e2, r1, r2, r3, r4⟩ := base_column (lab := .none) hl h
  obtain ⟨r', done, f1, f2, f3, f4⟩ := reformat_ok h (by rcases hc with rfl | rfl <;> simp [isNumeric]) r4 (by decide +kernel)
  refine ⟨e, r', e1, e2, ?_, prog_loaded h (wf_of_keys f3 r2) (by rw [f3]; exact r3) f2 ?_⟩
  · rcases hc with rfl | rfl <;> simp only [loadAttrs, r1, f1]
  · intro s hs hn
    rw [f4, not_or] at hn
    have : ∀ s ∈ required c ++ possible c, Key.str s ∉ (("times" :: calcNames).map Key.str) → Key.str s ∉ reformatted.map Key.str →
        plainName c s = true := by rcases hc with rfl | rfl <;> decide +kernel
    exact this s hs hn.1 hn.2

/-- Decimals. -/
theorem load_float (hl : LibOk lib) {a : Dict F T L} (h : ColumnOk lib .float a) :
    ∃ e r, dumpPairs lib a = .ok e ∧ fromPairs e = e ∧ loadAttrs lib .float e = .ok r ∧ Loaded lib .float a r := by
  obtain ⟨e, r, e1, e2, r1, r2, r3, r4⟩ := base_column (lab := .none) hl h
  obtain ⟨r', done, f1, f2, f3, f4⟩ := reformat_ok h (by simp [isNumeric]) r4 (by decide +kernel)
  obtain ⟨v, g, f⟩ := column_has h (s := "_precision") (by decide +kernel)
  obtain ⟨r'', g1, g2, g3⟩ := prog_attr (f := precisionFloats lib) f2 g (by rw [f4]; decide +kernel)
    (trip_good (trip_precision (by simpa [Fits] using f)) (by simp [Fits]))
  refine ⟨e, r'', e1, e2, by simp only [loadAttrs, r1, f1, g1], prog_loaded h (wf_of_keys (g3.trans f3) r2) (by rw [g3, f3]; exact r3) g2 ?_⟩
  intro s hs hn
  simp only [List.mem_cons, f4, not_or] at hn
  have : ∀ s ∈ required .float ++ possible .float, Key.str s ≠ .str "_precision" → Key.str s ∉ (("times" :: calcNames).map Key.str) →
      Key.str s ∉ reformatted.map Key.str → plainName .float s = true := by decide +kernel
  exact this s hs hn.1 hn.2.1 hn.2.2

/-- Dates. -/
theorem load_datetime (hl : LibOk lib) {a : Dict F T L} (h : ColumnOk lib .datetime a) :
    ∃ e r, dumpPairs lib a = .ok e ∧ fromPairs e = e ∧ loadAttrs lib .datetime e = .ok r ∧ Loaded lib .datetime a r := by
  obtain ⟨e, r, e1, e2, r1, r2, r3, r4⟩ := base_column (lab := .none) hl h
  obtain ⟨r', g1, g2, g3⟩ := prog_attrs (f := optStamp lib) ["_dt_obj_min", "_dt_obj_max"] r _ r4 (by decide) (by decide +kernel) (by
    intro s hs
    have hfit : ∀ u : Val F T L, Fits lib .datetime s u ↔ OptMoment lib u := by
      intro u
      simp only [List.mem_cons, List.not_mem_nil, or_false] at hs
      rcases hs with rfl | rfl <;> simp [Fits]
    obtain ⟨v, g, f⟩ := column_has h (s := s) (by clear hfit; revert hs; revert s; decide +kernel)
    exact ⟨v, g, trip_good (trip_optStamp ((hfit v).1 f)) hfit⟩)
  refine ⟨e, r', e1, e2, by simp only [loadAttrs, r1, g1], prog_loaded h (wf_of_keys g3 r2) (by rw [g3]; exact r3) g2 ?_⟩
  decide +kernel

/-- A profile one attribute of which is loaded in another way. -/
theorem del_column (hl : LibOk lib) {c : Cls} {a : Dict F T L} {lab : Val F T L} {x : String} (h : ColumnOk lib c a)
    (hx : x ≠ "name") (hxt : x ≠ "times") (data : List (Key × Val F T L) → Dict F T L)
    (hdata : ∀ e, PyDict.WF e → PyDict.WF (data e) ∧ ∀ k, k ≠ .str x → PyDict.get? (data e) k = PyDict.get? e k)
    (hcalc : within "__calculations" (.str x) = false) :
    ∃ e r name, dumpPairs lib a = .ok e ∧ fromPairs e = e ∧ Related (fun v w => dump lib v = .ok w) a e ∧
      loadBase lib c lab (data e) = .ok r ∧ PyDict.WF r ∧
      (∀ k, k ≠ .str x → (k ∈ r.map Prod.fst ↔ k ∈ a.map Prod.fst)) ∧
      Prog lib (Good lib c) (PyDict.del a (.str x)) r (("times" :: calcNames).map Key.str) ∧
      (∀ w, PyDict.get? (data e) (.str x) = some w → PyDict.get? r (.str x) = some w) ∧
      (PyDict.get? (data e) (.str x) = none → PyDict.get? r (.str x) = PyDict.get? (fresh lib c name lab) (.str x)) := by
  obtain ⟨e, e1, e2, e3⟩ := column_dump hl h
  have hke := related_keys e3
  have hwe : PyDict.WF e := by unfold PyDict.WF PyDict.keys; rw [← hke]; exact h.nodup
  obtain ⟨hwd, hgd⟩ := hdata e hwe
  have hdel : ∀ k v, PyDict.get? (PyDict.del a (.str x)) k = some v ↔ k ≠ .str x ∧ PyDict.get? a k = some v := by
    intro k v
    rw [PyDict.get?_del h.nodup]
    split_ifs with hk
    · simp [hk.symm]
    · simp [Ne.symm hk]
  have hpr : Prog lib (Good lib c) (PyDict.del a (.str x)) (data e) [] := by
    refine ⟨fun k v hv _ => ?_, fun _ _ _ h => by simp at h⟩
    obtain ⟨hne, hv⟩ := (hdel k v).1 hv
    obtain ⟨w, hw, hd⟩ := related_get e3 hv
    exact ⟨w, hd, by rw [hgd k hne]; exact hw⟩
  obtain ⟨r, name, r1, r2, r3, r4, r5, r6⟩ := base_prog (lab := lab) hwd hpr (fun k v hv => column_get h k v ((hdel k v).1 hv).2)
    (by
      obtain ⟨v, hv, _⟩ := column_has h (names_base (c := c)).1
      exact ⟨v, (hdel _ _).2 ⟨fun hc => hx (Key.str.inj hc).symm, hv⟩⟩)
    (by
      obtain ⟨v, hv, _⟩ := column_has h (names_base (c := c)).2
      exact ⟨v, (hdel _ _).2 ⟨fun hc => hxt (Key.str.inj hc).symm, hv⟩⟩)
    (fun k w hw hwi => by
      have hne : k ≠ .str x := by rintro rfl; rw [hcalc] at hwi; cases hwi
      rw [hgd k hne] at hw
      obtain ⟨v, hv, _⟩ := related_get' e3 hw
      exact ⟨v, (hdel _ _).2 ⟨hne, hv⟩⟩)
  have hxt' : Key.str x ≠ .str "times" := fun hc => hxt (Key.str.inj hc)
  refine ⟨e, r, name, e1, e2, e3, r1, r2, ?_, r4, fun w hw => r5 _ w hw hxt' hcalc, fun hn => r6 _ hxt' hn⟩
  intro k hne
  rw [r3, show k ∈ (data e).map Prod.fst ↔ k ∈ e.map Prod.fst by
    have := PyDict.mem_keys_iff (data e) k
    have h2 := PyDict.mem_keys_iff e k
    unfold PyDict.keys at this h2
    rw [this, h2, hgd k hne], ← hke]
  constructor
  · rintro (hk | hk)
    · exact hk
    · obtain ⟨s, hs, rfl⟩ := fresh_required c name lab k hk
      exact h.has s hs
  · exact .inl

/-- The same when that attribute has been loaded as well. -/
theorem del_loaded {c : Cls} {a r : Dict F T L} {done : List Key} {x : String} {v u : Val F T L} (h : ColumnOk lib c a)
    (hw : PyDict.WF r) (hk : ∀ k, k ≠ .str x → (k ∈ r.map Prod.fst ↔ k ∈ a.map Prod.fst))
    (hp : Prog lib (Good lib c) (PyDict.del a (.str x)) r done)
    (hd : ∀ s ∈ required c ++ possible c, s ≠ x → Key.str s ∉ done → plainName c s = true)
    (hv : PyDict.get? a (.str x) = some v) (hu : PyDict.get? r (.str x) = some u) (hg : Good lib c (.str x) v u) : Loaded lib c a r := by
  have hdel : ∀ k v, PyDict.get? (PyDict.del a (.str x)) k = some v ↔ k ≠ .str x ∧ PyDict.get? a k = some v := by
    intro k v
    rw [PyDict.get?_del h.nodup]
    split_ifs with hk
    · simp [hk.symm]
    · simp [Ne.symm hk]
  refine ⟨hw, ?_, ?_⟩
  · intro k
    by_cases hkx : k = .str x
    · subst hkx
      exact ⟨fun _ => (PyDict.mem_keys_iff a _).2 ⟨v, hv⟩, fun _ => (PyDict.mem_keys_iff r _).2 ⟨u, hu⟩⟩
    · exact hk k hkx
  · intro k v' hv'
    by_cases hkx : k = .str x
    · subst hkx; rw [hv] at hv'; cases hv'; exact ⟨u, hu, hg⟩
    · refine prog_end hp ?_ k v' ((hdel k v').2 ⟨hkx, hv'⟩)
      intro k v hv hn w hdw
      obtain ⟨hne, hv⟩ := (hdel k v).1 hv
      obtain ⟨s, rfl, hs, hf⟩ := column_get h k v hv
      have hpn := hd s (List.mem_append.2 hs) (fun hc => hne (by rw [hc])) hn
      have := plain_q (lib := lib) ((fits_plain v hpn).1 hf) hdw
      exact ⟨this.1, fun s' hs' => by cases hs'; exact (fits_plain w hpn).2 this.2⟩

/-- Categories. -/
theorem load_category (hl : LibOk lib) {a : Dict F T L} (h : ColumnOk lib .category a) :
    ∃ e r, dumpPairs lib a = .ok e ∧ fromPairs e = e ∧ loadAttrs lib .category e = .ok r ∧ Loaded lib .category a r := by
  obtain ⟨e, r, name, e1, e2, e3, r1, r2, r3, r4, _⟩ := del_column (lab := .none) (x := "_categories") hl h (by decide) (by decide)
    (fun e => PyDict.del e (.str "_categories"))
    (fun e he => ⟨PyDict.WF_del he _, fun k hk => by rw [PyDict.get?_del he, if_neg (Ne.symm hk)]⟩) (by decide +kernel)
  obtain ⟨v, hv, hf⟩ := column_has h (s := "_categories") (by decide +kernel)
  have hfit : ∀ u : Val F T L, Fits lib .category "_categories" u ↔ Categories u := by simp [Fits]
  obtain ⟨d, hvd, hd⟩ := (hfit v).1 hf
  obtain ⟨g, g1, g2, g3, g4⟩ := plainDict_dump (lib := lib) hd
  obtain ⟨w, hw, hdw⟩ := related_get e3 hv
  have hwg : w = .dict g := by
    rcases hvd with rfl | rfl
    · rw [dump, g1] at hdw; simpa [Except.map, g2] using hdw.symm
    · rw [dump, g1] at hdw; simpa [Except.map, g2] using hdw.symm
  subst hwg
  have hsame : Same lib v (.ddict .int g) := by
    rcases hvd with rfl | rfl
    · exact .default (related_keys g3) (same_get g3)
    · exact .ddict (related_keys g3) (same_get g3)
  refine ⟨e, PyDict.set r (.str "_categories") (.ddict .int g), e1, e2, by simp only [loadAttrs, loadCategory, hw, r1, Except.map], ?_⟩
  refine del_loaded (x := "_categories") (u := .ddict .int g) (done := ("times" :: calcNames).map Key.str) h (PyDict.WF_set r2 _ _) ?_ ?_
    (by decide +kernel) hv (by rw [PyDict.get?_set, if_pos rfl]) ⟨hsame, fun s hs => by cases hs; exact (hfit _).2 ⟨g, .inr rfl, g4⟩⟩
  · intro k hk
    rw [← r3 k hk]
    have h1 := PyDict.mem_keys_iff (PyDict.set r (.str "_categories") (.ddict .int g)) k
    have h2 := PyDict.mem_keys_iff r k
    unfold PyDict.keys at h1 h2
    rw [h1, h2, PyDict.get?_set, if_neg (Ne.symm hk)]
  · have hne : ∀ k v, PyDict.get? (PyDict.del a (.str "_categories")) k = some v → k ≠ .str "_categories" := by
      intro k v hkv hc
      rw [PyDict.get?_del h.nodup, if_pos hc.symm] at hkv; cases hkv
    refine ⟨fun k v hkv hn => ?_, fun k v hkv hn => ?_⟩
    · rw [PyDict.get?_set, if_neg (Ne.symm (hne k v hkv))]; exact r4.pending k v hkv hn
    · rw [PyDict.get?_set, if_neg (Ne.symm (hne k v hkv))]; exact r4.finished k v hkv hn

/-- Labels. -/
theorem load_labels (hl : LibOk lib) {a : Dict F T L} (h : ColumnOk lib .labeler a) :
    ∃ e r, dumpPairs lib a = .ok e ∧ fromPairs e = e ∧ loadAttrs lib .labeler e = .ok r ∧ Loaded lib .labeler a r := by
  obtain ⟨v, hv, hf⟩ := column_has h (s := "data_labeler") (by decide +kernel)
  have hfit : ∀ u : Val F T L, Fits lib .labeler "data_labeler" u ↔ ALabeler lib u := by simp [Fits]
  obtain ⟨s, m, m1, m2, m3, m4⟩ := labeler_trip hl ((hfit v).1 hf)
  obtain ⟨e, r, name, e1, e2, e3, r1, r2, r3, r4, _, r6⟩ := del_column (lab := .labeler m) (x := "data_labeler") hl h (by decide)
    (by decide) (fun e => PyDict.del e (.str "data_labeler"))
    (fun e he => ⟨PyDict.WF_del he _, fun k hk => by rw [PyDict.get?_del he, if_neg (Ne.symm hk)]⟩) (by decide +kernel)
  have hwe : PyDict.WF e := by unfold PyDict.WF PyDict.keys; rw [← related_keys e3]; exact h.nodup
  obtain ⟨w, hw, hdw⟩ := related_get e3 hv
  rw [m1] at hdw; cases hdw
  have hlab : loadedLabeler lib (.dict [(.str "from_library", .str s)]) = .ok (.labeler m) := by
    simp [loadedLabeler, truthy, reloadLabeler, PyDict.get?_cons, m2, Except.map]
  have hrl : PyDict.get? r (.str "data_labeler") = some (.labeler m) := by
    rw [r6 (by rw [PyDict.get?_del hwe, if_pos rfl])]
    rfl
  have hdel : ∀ s v, s ≠ "data_labeler" → PyDict.get? a (.str s) = some v →
      PyDict.get? (PyDict.del a (.str "data_labeler")) (.str s) = some v := by
    intro s v hs hv
    rw [PyDict.get?_del h.nodup, if_neg (fun hc => hs (Key.str.inj hc).symm)]; exact hv
  obtain ⟨v1, hv1, hf1⟩ := column_has h (s := "_reverse_label_mapping") (by decide +kernel)
  obtain ⟨r', a1, p1, k1⟩ := prog_attr (f := optMapping lib) r4 (hdel _ v1 (by decide) hv1) (by decide +kernel)
    (trip_good (trip_mapping hl (by simpa [Fits] using hf1)) (by simp [Fits]))
  obtain ⟨v2, hv2, hf2⟩ := column_has h (s := "_sum_predictions") (by decide +kernel)
  obtain ⟨r'', a2, p2, k2⟩ := prog_attr (f := fun v => .ok (optArray v)) p1 (hdel _ v2 (by decide) hv2) (by decide +kernel)
    (trip_good (optArray_of (by simpa [Fits] using hf2)) (by simp [Fits]))
  have hrl'' : PyDict.get? r'' (.str "data_labeler") = some (.labeler m) := by
    have step : ∀ (f : Val F T L → Except Err (Val F T L)) k (x y : Dict F T L), k ≠ Key.str "data_labeler" → onAttr f k x = .ok y →
        PyDict.get? y (.str "data_labeler") = PyDict.get? x (.str "data_labeler") := by
      intro f k x y hk hxy
      unfold onAttr at hxy
      split at hxy
      · cases hxy
      · rename_i v _
        cases hfv : f v with
        | error e => rw [hfv] at hxy; cases hxy
        | ok w =>
          rw [hfv] at hxy
          simp only [Except.map, Except.ok.injEq] at hxy
          rw [← hxy, PyDict.get?_set, if_neg hk]
    rw [step _ _ _ _ (by decide) a2, step _ _ _ _ (by decide) a1, hrl]
  refine ⟨e, r'', e1, e2, by simp only [loadAttrs, loadLabels, hw, hlab, r1, a1, a2], ?_⟩
  refine del_loaded h (wf_of_keys (k2.trans k1) r2) (by rw [k2, k1]; exact r3) p2 (by decide +kernel) hv hrl''
    ⟨m3, fun s hs => by cases hs; exact (hfit _).2 m4⟩

/-- Orders. -/
theorem load_order (hl : LibOk lib) {a : Dict F T L} (h : ColumnOk lib .order a) :
    ∃ e r, dumpPairs lib a = .ok e ∧ fromPairs e = e ∧ loadAttrs lib .order e = .ok r ∧ Loaded lib .order a r ∧
      ColumnOk lib .order r := by
  obtain ⟨v, hv, hf⟩ := column_has h (s := "_data_store_type") (by decide +kernel)
  have hfit : ∀ u : Val F T L, Fits lib .order "_data_store_type" u ↔ StoreType u := by simp [Fits]
  obtain ⟨t, rfl, ht⟩ : ∃ t, v = .func t ∧ (t = "str" ∨ t = "float64") := by
    rcases (hfit v).1 hf with rfl | rfl
    · exact ⟨_, rfl, .inl rfl⟩
    · exact ⟨_, rfl, .inr rfl⟩
  obtain ⟨e, r, name, e1, e2, e3, r1, r2, r3, r4, r5, _⟩ := del_column (lab := .none) (x := "_data_store_type") hl h (by decide)
    (by decide) (fun e => PyDict.set e (.str "_data_store_type") (.func t))
    (fun e he => ⟨PyDict.WF_set he _ _, fun k hk => by rw [PyDict.get?_set, if_neg (Ne.symm hk)]⟩) (by decide +kernel)
  obtain ⟨w, hw, hdw⟩ := related_get e3 hv
  rw [dump] at hdw; cases hdw
  have hrt := r5 (.func t) (by rw [PyDict.get?_set, if_pos rfl])
  have hplain : ∀ s, s ∈ ["sample_size", "_first_value", "_last_value"] → ∃ v w, PyDict.get? a (.str s) = some v ∧ dump lib v = .ok w ∧
      PyDict.get? r (.str s) = some w ∧ Same lib v w ∧ Plain w := by
    intro s hs
    have hs' : s ∈ required .order ∧ plainName .order s = true ∧ s ≠ "_data_store_type" ∧ Key.str s ∉ ("times" :: calcNames).map Key.str := by
      revert hs; revert s; decide +kernel
    obtain ⟨v, hv, hf⟩ := column_has h hs'.1
    obtain ⟨w, w1, w2⟩ := r4.pending (.str s) v
      (by rw [PyDict.get?_del h.nodup, if_neg (fun hc => hs'.2.2.1 (Key.str.inj hc).symm)]; exact hv) hs'.2.2.2
    have := plain_q (lib := lib) ((fits_plain v hs'.2.1).1 hf) w1
    exact ⟨v, w, hv, w1, w2, this⟩
  obtain ⟨nv, nw, n1, n2, n3, n4⟩ := hplain "sample_size" (by decide)
  obtain ⟨fv, fw, f1, f2, f3, f4⟩ := hplain "_first_value" (by decide)
  obtain ⟨lv, lw, l1, l2, l3, l4⟩ := hplain "_last_value" (by decide)
  have hbase : Loaded lib .order a r := del_loaded h r2 r3 r4 (by decide +kernel) hv hrt
    ⟨.func t, fun s hs => by cases hs; exact (hfit _).2 ((hfit _).1 hf)⟩
  have hattr : attr r (.str "sample_size") = .ok nw ∧ attr r (.str "_first_value") = .ok fw ∧ attr r (.str "_last_value") = .ok lw := by
    simp [attr, n3, f3, l3]
  have hload : ∀ b, (t = "str" ↔ b = true) → loadOrder lib e = if truthy nw && !b then orderFloats lib fw lw r else .ok r := by
    intro b hb
    have hif : isStr (Val.str t : Val F T L) = b := by
      rcases ht with rfl | rfl
      · exact (hb.1 rfl).symm
      · cases b
        · simp [isStr]
        · exact absurd (hb.2 rfl) (by decide)
    have hif2 : (if b = true then "str" else "float64") = t := by
      rcases ht with rfl | rfl
      · rw [if_pos (hb.1 rfl)]
      · rw [if_neg (fun hc => absurd (hb.2 hc) (by decide))]
    simp only [loadOrder, hw]
    rw [hif, hif2, r1]
    simp only [hattr.1, hattr.2.1, hattr.2.2]
  rcases ht with rfl | rfl
  · refine ⟨e, r, e1, e2, by simp only [loadAttrs]; rw [hload true (by simp)]; simp, hbase, loaded_ok h hbase fun _ hm => ?_⟩
    have := PyDict.get?_of_mem r2 hm
    rw [hrt] at this
    simp at this
  · rcases h.order (PyDict.mem_of_get? hv) with hz | ⟨v, w, hv', hw', ⟨f, hvf⟩, ⟨g, hwg⟩⟩
    · have := PyDict.get?_of_mem h.nodup hz
      rw [n1] at this; cases this
      rw [dump] at n2; cases n2
      refine ⟨e, r, e1, e2, by simp only [loadAttrs]; rw [hload false (by simp)]; simp [truthy], hbase, loaded_ok h hbase fun _ hm => ?_⟩
      exact .inl (PyDict.mem_of_get? n3)
    · have h1 := PyDict.get?_of_mem h.nodup hv'
      rw [f1] at h1; cases h1
      have h2 := PyDict.get?_of_mem h.nodup hw'
      rw [l1] at h2; cases h2
      have hfw : fw = .float f := by rcases hvf with rfl | rfl <;> (rw [dump] at f2; cases f2; rfl)
      have hlw : lw = .float g := by rcases hwg with rfl | rfl <;> (rw [dump] at l2; cases l2; rfl)
      subst hfw; subst hlw
      have hpf : ∀ s, s ∈ ["_first_value", "_last_value"] → ∀ u : Val F T L, Fits lib .order s u ↔ Plain u := by
        intro s hs u
        refine fits_plain u ?_
        clear u
        revert hs; revert s; decide +kernel
      by_cases hn : truthy nw = true
      · let r' := PyDict.set (PyDict.set r (.str "_first_value") (.npFloat f)) (.str "_last_value") (.npFloat g)
        have hk' : r'.map Prod.fst = r.map Prod.fst := by
          have h1 := keys_set_of_get f3 (.npFloat f)
          have h2 : PyDict.get? (PyDict.set r (.str "_first_value") (.npFloat f)) (.str "_last_value") = some (.float g) := by
            rw [PyDict.get?_set, if_neg (by decide)]; exact l3
          exact (keys_set_of_get h2 (.npFloat g)).trans h1
        have hlast : PyDict.get? r' (.str "_last_value") = some (.npFloat g) := by simp only [r']; rw [PyDict.get?_set, if_pos rfl]
        have hfirst : PyDict.get? r' (.str "_first_value") = some (.npFloat f) := by
          simp only [r']; rw [PyDict.get?_set, if_neg (by decide), PyDict.get?_set, if_pos rfl]
        have hrest : ∀ k, k ≠ .str "_first_value" → k ≠ .str "_last_value" → PyDict.get? r' k = PyDict.get? r k := by
          intro k hk1 hk2
          simp only [r']; rw [PyDict.get?_set, if_neg (Ne.symm hk2), PyDict.get?_set, if_neg (Ne.symm hk1)]
        have hl' : Loaded lib .order a r' := by
          refine ⟨wf_of_keys hk' r2, by rw [hk']; exact hbase.keys, ?_⟩
          intro k v hkv
          by_cases hk1 : k = .str "_first_value"
          · subst hk1
            rw [f1] at hkv; cases hkv
            refine ⟨_, hfirst, .num (x := .inr f) ?_ rfl, fun s hs => ?_⟩
            · rcases hvf with rfl | rfl <;> rfl
            · cases hs; exact (hpf _ (by decide) _).2 (.num (x := .inr f) rfl)
          · by_cases hk2 : k = .str "_last_value"
            · subst hk2
              rw [l1] at hkv; cases hkv
              refine ⟨_, hlast, .num (x := .inr g) ?_ rfl, fun s hs => ?_⟩
              · rcases hwg with rfl | rfl <;> rfl
              · cases hs; exact (hpf _ (by decide) _).2 (.num (x := .inr g) rfl)
            · rw [hrest k hk1 hk2]; exact hbase.good k v hkv
        refine ⟨e, r', e1, e2, ?_, hl', loaded_ok h hl' fun _ _ =>
          .inr ⟨_, _, PyDict.mem_of_get? hfirst, PyDict.mem_of_get? hlast, ⟨f, .inr rfl⟩, ⟨g, .inr rfl⟩⟩⟩
        simp only [loadAttrs]; rw [hload false (by simp), hn]; rfl
      · refine ⟨e, r, e1, e2, ?_, hbase, loaded_ok h hbase fun _ _ =>
          .inr ⟨_, _, PyDict.mem_of_get? f3, PyDict.mem_of_get? l3, ⟨f, .inl rfl⟩, ⟨g, .inl rfl⟩⟩⟩
        simp only [loadAttrs]; rw [hload false (by simp)]; simp [hn]

/-- Every class. -/
theorem load_attrs (hl : LibOk lib) {c : Cls} {a : Dict F T L} (h : ColumnOk lib c a) :
    ∃ e r, dumpPairs lib a = .ok e ∧ fromPairs e = e ∧ loadAttrs lib c e = .ok r ∧ Loaded lib c a r ∧ ColumnOk lib c r := by
  cases c
  · obtain ⟨e, r, h1, h2, h3, h4⟩ := load_plain_numeric hl h (.inl rfl)
    exact ⟨e, r, h1, h2, h3, h4, loaded_ok h h4 (by simp)⟩
  · obtain ⟨e, r, h1, h2, h3, h4⟩ := load_float hl h
    exact ⟨e, r, h1, h2, h3, h4, loaded_ok h h4 (by simp)⟩
  · obtain ⟨e, r, h1, h2, h3, h4⟩ := load_plain_numeric hl h (.inr rfl)
    exact ⟨e, r, h1, h2, h3, h4, loaded_ok h h4 (by simp)⟩
  · obtain ⟨e, r, h1, h2, h3, h4⟩ := load_datetime hl h
    exact ⟨e, r, h1, h2, h3, h4, loaded_ok h h4 (by simp)⟩
  · exact load_order hl h
  · obtain ⟨e, r, h1, h2, h3, h4⟩ := load_category hl h
    exact ⟨e, r, h1, h2, h3, h4, loaded_ok h h4 (by simp)⟩
  · obtain ⟨e, r, h1, h2, h3, h4⟩ := load_labels hl h
    exact ⟨e, r, h1, h2, h3, h4, loaded_ok h h4 (by simp)⟩

theorem classOf_name (c : Cls) : classOf c.name = .ok c := by cases c <;> decide +kernel

/-- A column profile, written, read and loaded. -/
theorem column_trip (hl : LibOk lib) {c : Cls} {a : Dict F T L} (h : ColumnOk lib c a) :
    Trip lib (loadColumn lib) (.obj c.name a) fun u => ∃ r, u = .obj c.name r ∧ Same lib (.obj c.name a) u ∧ ColumnOk lib c r := by
  obtain ⟨e, r, h1, h2, h3, h4, h5⟩ := load_attrs hl h
  refine ⟨.dict [(.str "class", .str c.name), (.str "data", .dict e)], .obj c.name r, ?_, ?_, r, rfl, loaded_same h4 _, h5⟩
  · rw [dump, h1]; simp [Except.map, h2]
  · simp [loadColumn, opened, item, PyDict.get?_cons, classOf_name, h3, Except.map]

end Verif.ColumnJson
