import Verif.Model.JsonNest
import Verif.Spec.JsonNest
import Verif.Lemmas.PyDict
import Mathlib.Data.List.Basic
import Mathlib.Data.List.Perm.Basic
import Mathlib.Data.List.Infix
import Mathlib.Data.List.Nodup
import Mathlib.Tactic.SplitIfs

namespace Verif.JsonNest

open Verif Verif.Json Verif.Spec.JsonNest

variable {A : Type}

/-! ## Keys -/

theorem parts_cons (c : Char) (cs : Key) :
    parts (c :: cs) = if c = '.' then [] :: parts cs else (parts cs).modifyHead (c :: ·) := by
  unfold parts List.splitOn
  rw [List.splitOnP_cons_eq_if_modifyHead]
  by_cases h : c = '.' <;> simp [h]

theorem parts_ne_nil (k : Key) : parts k ≠ [] := List.splitOnP_ne_nil _ _

theorem cut_none (k : Key) (h : cut k = none) : parts k = [k] ∧ '.' ∉ k := by
  induction k with
  | nil => exact ⟨rfl, by simp⟩
  | cons c cs ih =>
    rw [cut] at h
    by_cases hc : c = '.'
    · rw [if_pos hc] at h; cases h
    · rw [if_neg hc, Option.map_eq_none_iff] at h
      obtain ⟨h1, h2⟩ := ih h
      rw [parts_cons, if_neg hc, h1]
      refine ⟨rfl, ?_⟩
      rw [List.mem_cons, not_or]
      exact ⟨fun h' => hc h'.symm, h2⟩

theorem cut_some (k a n : Key) (h : cut k = some (a, n)) :
    parts k = a :: parts n ∧ k = a ++ '.' :: n ∧ cut a = none ∧ n.count '.' < k.count '.' := by
  induction k generalizing a with
  | nil => cases h
  | cons c cs ih =>
    rw [cut] at h
    by_cases hc : c = '.'
    · rw [if_pos hc] at h
      cases h
      rw [parts_cons, if_pos hc]
      exact ⟨rfl, by rw [hc]; rfl, rfl, by rw [hc, List.count_cons_self]; omega⟩
    · rw [if_neg hc, Option.map_eq_some_iff] at h
      obtain ⟨⟨a', n'⟩, h1, h2⟩ := h
      cases h2
      obtain ⟨h3, h4, h5, h6⟩ := ih a' h1
      rw [parts_cons, if_neg hc, h3]
      refine ⟨rfl, by rw [h4]; rfl, ?_, ?_⟩
      · rw [cut, if_neg hc, h5]; rfl
      · rw [List.count_cons]; omega

theorem cut_iff (k : Key) : cut k = none ↔ '.' ∉ k := by
  constructor
  · exact fun h => (cut_none k h).2
  · intro h
    cases hc : cut k with
    | none => rfl
    | some p =>
      obtain ⟨a, n⟩ := p
      exact absurd (by rw [(cut_some k a n hc).2.1]; simp) h

theorem parts_inj {k k' : Key} (h : parts k = parts k') : k = k' := by
  have h1 := List.intercalate_splitOn (xs := k) '.'
  have h2 := List.intercalate_splitOn (xs := k') '.'
  unfold parts at h
  rw [← h1, ← h2, h]

/-! ## Dictionaries as collections -/

theorem perm_del {V : Type} {d : PyDict Key V} {k : Key} {v : V} (h : PyDict.get? d k = some v) :
    d.Perm ((k, v) :: PyDict.del d k) := by
  induction d with
  | nil => cases h
  | cons x d ih =>
    obtain ⟨k', v'⟩ := x
    rw [PyDict.get?] at h
    rw [PyDict.del]
    by_cases hk : k' = k
    · rw [if_pos hk] at h ⊢
      cases h
      rw [hk]
    · rw [if_neg hk] at h ⊢
      exact ((ih h).cons _).trans (List.Perm.swap _ _ _)

theorem del_of_none {V : Type} {d : PyDict Key V} {k : Key} (h : PyDict.get? d k = none) : PyDict.del d k = d := by
  induction d with
  | nil => rfl
  | cons x d ih =>
    obtain ⟨k', v'⟩ := x
    rw [PyDict.get?] at h
    rw [PyDict.del]
    by_cases hk : k' = k
    · rw [if_pos hk] at h; cases h
    · rw [if_neg hk] at h ⊢
      rw [ih h]

theorem perm_set {V : Type} (d : PyDict Key V) (k : Key) (v : V) : (PyDict.set d k v).Perm ((k, v) :: PyDict.del d k) := by
  induction d with
  | nil => exact List.Perm.refl _
  | cons x d ih =>
    obtain ⟨k', v'⟩ := x
    rw [PyDict.set, PyDict.del]
    by_cases hk : k' = k
    · rw [if_pos hk, if_pos hk]
    · rw [if_neg hk, if_neg hk]
      exact (ih.cons _).trans (List.Perm.swap _ _ _)

theorem mem_del {V : Type} {d : PyDict Key V} (hw : PyDict.WF d) {k : Key} {x : Key × V} :
    x ∈ PyDict.del d k ↔ x ∈ d ∧ x.1 ≠ k := by
  obtain ⟨k', v⟩ := x
  rw [PyDict.mem_iff_get? (PyDict.WF_del hw k), PyDict.get?_del hw, PyDict.mem_iff_get? hw]
  by_cases h : k = k'
  · subst h; simp
  · have : k' ≠ k := fun h' => h h'.symm
    simp [h, this]

/-! ## Leaves -/

theorem leavesF_append (a b : List (Key × J A)) : leavesF (a ++ b) = leavesF a ++ leavesF b := by
  induction a with
  | nil => simp [leavesF]
  | cons x a ih =>
    obtain ⟨k, j⟩ := x
    rw [List.cons_append, leavesF, leavesF, ih, List.append_assoc]

theorem leavesF_perm {a b : List (Key × J A)} (h : a.Perm b) : (leavesF a).Perm (leavesF b) := by
  induction h with
  | nil => exact List.Perm.refl _
  | cons x _ ih =>
    obtain ⟨k, j⟩ := x
    rw [leavesF, leavesF]
    exact ih.append_left _
  | swap x y l =>
    obtain ⟨k, j⟩ := x
    obtain ⟨k', j'⟩ := y
    simp only [leavesF]
    rw [← List.append_assoc, ← List.append_assoc]
    exact List.perm_append_comm.append_right _
  | trans _ _ ih1 ih2 => exact ih1.trans ih2

theorem mem_leavesF {d : List (Key × J A)} {e : List Key × J A} (h : e ∈ leavesF d) :
    ∃ k j x, (k, j) ∈ d ∧ x ∈ leaves j ∧ e = (k :: x.1, x.2) := by
  induction d with
  | nil => rw [leavesF] at h; cases h
  | cons y d ih =>
    obtain ⟨k, j⟩ := y
    rw [leavesF, List.mem_append] at h
    rcases h with h | h
    · obtain ⟨x, hx, rfl⟩ := List.mem_map.1 h
      exact ⟨k, j, x, List.mem_cons_self, hx, rfl⟩
    · obtain ⟨k', j', x, h1, h2, h3⟩ := ih h
      exact ⟨k', j', x, List.mem_cons_of_mem _ h1, h2, h3⟩

theorem leavesF_mem {d : List (Key × J A)} {k : Key} {j : J A} (h : (k, j) ∈ d) {x : List Key × J A} (hx : x ∈ leaves j) :
    (k :: x.1, x.2) ∈ leavesF d := by
  induction d with
  | nil => cases h
  | cons y d ih =>
    obtain ⟨k', j'⟩ := y
    rw [leavesF, List.mem_append]
    rcases List.mem_cons.1 h with h | h
    · cases h
      exact .inl (List.mem_map.2 ⟨x, hx, rfl⟩)
    · exact .inr (ih h)

theorem leaves_ne_nil {j : J A} (h : Document j) : leaves j ≠ [] := by
  induction h with
  | val a => simp [leaves]
  | list xs => simp [leaves]
  | obj fields ne wf keys sub ih =>
    rw [leaves]
    match fields, ne with
    | (k, j) :: rest, _ =>
      rw [leavesF]
      intro h
      rw [List.append_eq_nil_iff, List.map_eq_nil_iff] at h
      exact ih (k, j) List.mem_cons_self h.1

theorem leaves_leaf {j : J A} (h : j.isObj = false) : leaves j = [([], j)] := by
  cases j with
  | val a => rfl
  | list xs => rfl
  | obj f => cases h

/-! ## One key -/

/-- A leaf is added; what stands in its way is dropped. -/
def absorb (E : List (List Key × J A)) (r : List Key × J A) : List (List Key × J A) :=
  E.filter (fun e => !decide (e.1 <+: r.1)) ++ [r]

/-- Only blanks stand in the way, and it stands in no one's way. -/
def Ok (blank : A → Bool) (E : List (List Key × J A)) (r : List Key × J A) : Prop :=
  ∀ e ∈ E, ¬ r.1 <+: e.1 ∧ (e.1 <+: r.1 → blankJ blank e.2 = true)

theorem absorb_perm {E E' : List (List Key × J A)} (h : E.Perm E') (r : List Key × J A) : (absorb E r).Perm (absorb E' r) :=
  (h.filter _).append_right _

/-- The leaves under keys without dots. -/
def cl (d : PyDict Key (J A)) : List (List Key × J A) := leavesF (d.filter fun x => (cut x.1).isNone)

theorem cl_perm {d d' : PyDict Key (J A)} (h : d.Perm d') : (cl d).Perm (cl d') := leavesF_perm (h.filter _)

theorem cl_cons_dot {k : Key} {j : J A} {d : PyDict Key (J A)} (h : cut k ≠ none) : cl ((k, j) :: d) = cl d := by
  unfold cl
  rw [List.filter_cons_of_neg (by cases hc : cut k <;> simp_all)]

theorem cl_cons {k : Key} {j : J A} {d : PyDict Key (J A)} (h : cut k = none) :
    cl ((k, j) :: d) = (leaves j).map (fun x => (k :: x.1, x.2)) ++ cl d := by
  unfold cl
  rw [List.filter_cons_of_pos (by simp [h]), leavesF]

theorem mem_cl {d : PyDict Key (J A)} {e : List Key × J A} (h : e ∈ cl d) :
    ∃ k j x, (k, j) ∈ d ∧ cut k = none ∧ x ∈ leaves j ∧ e = (k :: x.1, x.2) := by
  obtain ⟨k, j, x, h1, h2, h3⟩ := mem_leavesF h
  obtain ⟨h4, h5⟩ := List.mem_filter.1 h1
  exact ⟨k, j, x, h4, by simpa using h5, h2, h3⟩

/-- What a recursive call must do. -/
def Rec (blank : A → Bool) (n : ℕ) (rec : PyDict Key (J A) → Except Err (PyDict Key (J A))) : Prop :=
  ∀ (p : PyDict Key (J A)) (m : Key) (v : J A), PyDict.WF p → (∀ x ∈ p, cut x.1 = none ∧ Document x.2) → m ∉ PyDict.keys p →
    v.isObj = false → m.count '.' < n → Ok blank (leavesF p) (parts m, v) →
    ∃ q, rec (p ++ [(m, v)]) = .ok q ∧ Document (.obj q) ∧ (leavesF q).Perm (absorb (leavesF p) (parts m, v))

theorem document_leaf {v : J A} (h : v.isObj = false) : Document v := by
  cases v with
  | val a => exact .val a
  | list xs => exact .list xs
  | obj f => cases h

theorem step_spec (blank : A → Bool) (n : ℕ) (rec : PyDict Key (J A) → Except Err (PyDict Key (J A))) (hrec : Rec blank n rec)
    (d : PyDict Key (J A)) (hw : PyDict.WF d) (hd : ∀ x ∈ d, Document x.2) (key a m : Key) (v : J A) (hc : cut key = some (a, m))
    (hv : PyDict.get? d key = some v) (hl : v.isObj = false) (hn : m.count '.' < n) (hok : Ok blank (cl d) (parts key, v)) :
    ∃ q, step blank rec d key = .ok (PyDict.set (PyDict.del d key) a (.obj q)) ∧ Document (.obj q) ∧
      (cl (PyDict.set (PyDict.del d key) a (.obj q))).Perm (absorb (cl d) (parts key, v)) := by
  obtain ⟨hparts, hkey, hca, _⟩ := cut_some key a m hc
  have hka : key ≠ a := by
    intro h
    rw [h] at hc
    rw [hca] at hc; cases hc
  have hcl : ∀ w, PyDict.get? d a = some w → (cl d).Perm ((leaves w).map (fun x => (a :: x.1, x.2)) ++ cl (PyDict.del d a)) := by
    intro w h
    rw [← cl_cons hca]
    exact cl_perm (perm_del h)
  -- the dictionary to which the key is added
  obtain ⟨p, hp, hpw, hpc, hpl⟩ : ∃ p, parent blank (PyDict.get? d a) = .ok p ∧ PyDict.WF p ∧ (∀ x ∈ p, cut x.1 = none ∧ Document x.2) ∧
      (((cl d).filter (fun e => !decide (e.1 <+: parts key))).Perm
        (((leavesF p).filter (fun e => !decide (e.1 <+: parts m))).map (fun x => (a :: x.1, x.2)) ++ cl (PyDict.del d a)) ∧
       ∀ e ∈ leavesF p, (a :: e.1, e.2) ∈ cl d) := by
    have hrest : ∀ e ∈ cl (PyDict.del d a), ¬ e.1 <+: parts key := by
      intro e he hpre
      obtain ⟨k, j, x, h1, _, _, rfl⟩ := mem_cl he
      have := ((mem_del hw).1 h1).2
      rw [hparts, List.cons_prefix_cons] at hpre
      exact this hpre.1
    have hfil : (cl (PyDict.del d a)).filter (fun e => !decide (e.1 <+: parts key)) = cl (PyDict.del d a) := by
      rw [List.filter_eq_self]
      intro e he
      simpa using hrest e he
    have hmap : ∀ L : List (List Key × J A), (L.map (fun x => (a :: x.1, x.2))).filter (fun e => !decide (e.1 <+: parts key)) =
        (L.filter (fun e => !decide (e.1 <+: parts m))).map (fun x => (a :: x.1, x.2)) := by
      intro L
      rw [List.filter_map]
      congr 1
      apply List.filter_congr
      intro x _
      simp [hparts, List.cons_prefix_cons]
    cases hg : PyDict.get? d a with
    | none =>
      refine ⟨[], rfl, PyDict.WF_nil, by simp, ?_, by simp [leavesF]⟩
      rw [del_of_none hg] at hfil ⊢
      rw [hfil]
      simp [leavesF]
    | some w =>
      have hcp := (hcl w hg).filter (fun e => !decide (e.1 <+: parts key))
      rw [List.filter_append, hmap, hfil] at hcp
      cases w with
      | obj f =>
        have hcf : Document (.obj f) := hd (a, .obj f) (PyDict.mem_of_get? hg)
        cases hcf with
        | obj _ ne wf keys sub =>
          refine ⟨f, rfl, wf, fun x hx => ⟨(cut_iff _).2 (keys x hx), sub x hx⟩, ?_, ?_⟩
          · rw [leaves] at hcp
            exact hcp
          · intro e he
            refine (hcl _ hg).mem_iff.2 (List.mem_append_left _ (List.mem_map.2 ⟨e, ?_, rfl⟩))
            rw [leaves]
            exact he
      | val b =>
        have hb : blank b = true := by
          have hm : ([a], J.val b) ∈ cl d :=
            (hcl _ hg).mem_iff.2 (List.mem_append_left _ (List.mem_map.2 ⟨([], .val b), by simp [leaves], rfl⟩))
          exact (hok _ hm).2 (by rw [hparts]; simp)
        refine ⟨[], by simp [parent, hb], PyDict.WF_nil, by simp, ?_, by simp [leavesF]⟩
        simpa [leaves, leavesF] using hcp
      | list xs =>
        exfalso
        have hm : ([a], J.list xs) ∈ cl d :=
          (hcl _ hg).mem_iff.2 (List.mem_append_left _ (List.mem_map.2 ⟨([], .list xs), by simp [leaves], rfl⟩))
        have := (hok _ hm).2 (by rw [hparts]; simp)
        cases this
  obtain ⟨hpl, hsub⟩ := hpl
  have hokp : Ok blank (leavesF p) (parts m, v) := by
    intro e he
    have := hok _ (hsub e he)
    rw [hparts, List.cons_prefix_cons, List.cons_prefix_cons] at this
    exact ⟨fun h => this.1 ⟨rfl, h⟩, fun h => this.2 ⟨rfl, h⟩⟩
  have hmp : m ∉ PyDict.keys p := by
    intro hm
    obtain ⟨w, hwv⟩ := (PyDict.mem_keys_iff p m).1 hm
    have hmem := PyDict.mem_of_get? hwv
    obtain ⟨h1, h2⟩ := hpc _ hmem
    cases hlv : leaves w with
    | nil => exact leaves_ne_nil h2 hlv
    | cons x xs =>
      have := leavesF_mem hmem (x := x) (by rw [hlv]; exact List.mem_cons_self)
      refine (hokp _ this).1 ?_
      show parts m <+: m :: x.1
      rw [(cut_none m h1).1]
      simp
  have hset : PyDict.set p m v = p ++ [(m, v)] := PyDict.set_of_not_mem hmp v
  obtain ⟨q, hq, hqc, hql⟩ := hrec p m v hpw hpc hmp hl hn hokp
  refine ⟨q, ?_, hqc, ?_⟩
  · unfold step
    rw [hc]
    dsimp only
    rw [hp, hv]
    show (do
      let q ← rec (PyDict.set p m v)
      Except.ok (PyDict.set (PyDict.del d key) a (J.obj q))) = _
    rw [hset, hq]
    rfl
  · -- the leaves afterwards
    have h1 : (cl (PyDict.set (PyDict.del d key) a (.obj q))).Perm
        ((leavesF q).map (fun x => (a :: x.1, x.2)) ++ cl (PyDict.del (PyDict.del d key) a)) := by
      have := cl_perm (perm_set (PyDict.del d key) a (J.obj q))
      rw [cl_cons hca, leaves] at this
      exact this
    have h2 : (cl (PyDict.del (PyDict.del d key) a)).Perm (cl (PyDict.del d a)) := by
      have hk : PyDict.get? (PyDict.del d a) key = some v := by
        rw [PyDict.get?_del hw, if_neg (fun h => hka h.symm)]
        exact hv
      have hp1 := cl_perm (perm_del hk)
      rw [cl_cons_dot (by rw [hc]; simp)] at hp1
      refine List.Perm.trans ?_ hp1.symm
      apply cl_perm
      apply (List.perm_ext_iff_of_nodup ?_ ?_).2
      · intro x
        rw [mem_del (PyDict.WF_del hw key), mem_del hw, mem_del (PyDict.WF_del hw a), mem_del hw]
        constructor
        · rintro ⟨⟨h1, h2⟩, h3⟩; exact ⟨⟨h1, h3⟩, h2⟩
        · rintro ⟨⟨h1, h2⟩, h3⟩; exact ⟨⟨h1, h3⟩, h2⟩
      · exact List.Nodup.of_map _ (PyDict.WF_del (PyDict.WF_del hw key) a)
      · exact List.Nodup.of_map _ (PyDict.WF_del (PyDict.WF_del hw a) key)
    refine h1.trans ((h2.append_left _).trans ?_)
    unfold absorb at hql ⊢
    refine ((hql.map (fun x : List Key × J A => (a :: x.1, x.2))).append_right _).trans ?_
    rw [List.map_append, List.map_singleton]
    dsimp only
    rw [← hparts, List.append_assoc]
    refine List.Perm.trans ?_ (hpl.symm.append_right _)
    rw [List.append_assoc]
    exact List.perm_append_comm.append_left _

/-- Keys without dots stay as they are. -/
theorem loop_clean (blank : A → Bool) (rec : PyDict Key (J A) → Except Err (PyDict Key (J A))) (ks ks' : List Key) (d : PyDict Key (J A))
    (h : ∀ k ∈ ks, cut k = none) : loop blank rec (ks ++ ks') d = loop blank rec ks' d := by
  induction ks with
  | nil => rfl
  | cons k ks ih =>
    rw [List.cons_append, loop, step, h k List.mem_cons_self]
    exact ih fun k' hk' => h k' (List.mem_cons_of_mem _ hk')

theorem filter_none (p : PyDict Key (J A)) (h : ∀ x ∈ p, cut x.1 = none) : p.filter (fun x => (cut x.1).isNone) = p := by
  rw [List.filter_eq_self]
  intro x hx
  simp [h x hx]

theorem convert_rec (blank : A → Bool) (n : ℕ) : Rec blank n (convert (A := A) blank n) := by
  induction n with
  | zero => intro p m v _ _ _ _ hn _; omega
  | succ n ih =>
    intro p m v hw hp hm hl hn hok
    have hkeys : PyDict.keys (p ++ [(m, v)]) = PyDict.keys p ++ [m] := by simp [PyDict.keys]
    have hwg : PyDict.WF (p ++ [(m, v)]) := by
      rw [← PyDict.set_of_not_mem hm v]
      exact PyDict.WF_set hw m v
    rw [convert, hkeys, loop_clean blank _ _ [m] _ (fun k hk => by
      obtain ⟨w, hw'⟩ := (PyDict.mem_keys_iff p k).1 hk
      exact (hp _ (PyDict.mem_of_get? hw')).1)]
    have hval : ∀ x ∈ p ++ [(m, v)], Document x.2 := by
      intro x hx
      rcases List.mem_append.1 hx with hx | hx
      · exact (hp x hx).2
      · rw [List.mem_singleton.1 hx]
        exact document_leaf hl
    cases hc : cut m with
    | none =>
      refine ⟨p ++ [(m, v)], by rw [loop, step, hc]; rfl, ?_, ?_⟩
      · refine .obj _ (by simp) hwg ?_ hval
        intro x hx
        rcases List.mem_append.1 hx with hx | hx
        · exact (cut_iff _).1 (hp x hx).1
        · rw [List.mem_singleton.1 hx]; exact (cut_iff _).1 hc
      · have hpm := (cut_none m hc).1
        rw [leavesF_append, absorb]
        have hf : (leavesF p).filter (fun e => !decide (e.1 <+: parts m)) = leavesF p := by
          rw [List.filter_eq_self]
          intro e he
          obtain ⟨k, j, x, h1, _, rfl⟩ := mem_leavesF he
          have hkm : k ≠ m := fun h => hm (h ▸ (PyDict.mem_keys_iff p k).2 ⟨j, PyDict.get?_of_mem hw h1⟩)
          simp [hpm, List.cons_prefix_cons, hkm]
        rw [hf, leavesF, leaves_leaf hl, hpm]
        simp [leavesF]
    | some am =>
      obtain ⟨a, m'⟩ := am
      obtain ⟨_, _, _, hlt⟩ := cut_some m a m' hc
      have hgm : PyDict.get? (p ++ [(m, v)]) m = some v := PyDict.get?_of_mem hwg (by simp)
      have hcl : cl (p ++ [(m, v)]) = leavesF p := by
        unfold cl
        rw [List.filter_append, filter_none p fun x hx => (hp x hx).1]
        simp [hc]
      obtain ⟨q, h1, h2, h3⟩ := step_spec blank n _ ih (p ++ [(m, v)]) hwg hval m a m' v hc hgm hl (by omega) (by rw [hcl]; exact hok)
      refine ⟨PyDict.set (PyDict.del (p ++ [(m, v)]) m) a (.obj q), by rw [loop, h1]; rfl, ?_, ?_⟩
      · have hca := (cut_some m a m' hc).2.2.1
        have hmem : ∀ x ∈ PyDict.set (PyDict.del (p ++ [(m, v)]) m) a (J.obj q), x = (a, J.obj q) ∨ x ∈ p := by
          intro x hx
          have := (perm_set _ a (J.obj q)).mem_iff.1 hx
          rcases List.mem_cons.1 this with h | h
          · exact .inl h
          · have := (mem_del (PyDict.WF_del hwg m)).1 h
            have := (mem_del hwg).1 this.1
            rcases List.mem_append.1 this.1 with h' | h'
            · exact .inr h'
            · rw [List.mem_singleton.1 h'] at this
              exact absurd rfl this.2
        refine .obj _ ?_ (PyDict.WF_set (PyDict.WF_del hwg m) a _) ?_ ?_
        · intro h
          have := (perm_set (PyDict.del (p ++ [(m, v)]) m) a (J.obj q)).length_eq
          rw [h] at this; simp at this
        · intro x hx
          rcases hmem x hx with rfl | h
          · exact (cut_iff _).1 hca
          · exact (cut_iff _).1 (hp x h).1
        · intro x hx
          rcases hmem x hx with rfl | h
          · exact h2
          · exact (hp x h).2
      · have hclq : cl (PyDict.set (PyDict.del (p ++ [(m, v)]) m) a (J.obj q)) = leavesF (PyDict.set (PyDict.del (p ++ [(m, v)]) m) a (J.obj q)) := by
          unfold cl
          rw [filter_none]
          intro x hx
          have := (perm_set _ a (J.obj q)).mem_iff.1 hx
          rcases List.mem_cons.1 this with h | h
          · rw [h]; exact (cut_some m a m' hc).2.2.1
          · have := (mem_del (PyDict.WF_del hwg m)).1 h
            have := (mem_del hwg).1 this.1
            rcases List.mem_append.1 this.1 with h' | h'
            · exact (hp x h').1
            · rw [List.mem_singleton.1 h'] at this
              exact absurd rfl this.2
        rw [hclq, hcl] at h3
        exact h3

/-! ## The whole row -/

theorem mem_absorb {E : List (List Key × J A)} {r e : List Key × J A} : e ∈ absorb E r ↔ (e ∈ E ∧ ¬ e.1 <+: r.1) ∨ e = r := by
  unfold absorb
  simp [List.mem_append, List.mem_filter]

theorem foldl_absorb_perm (L : List (List Key × J A)) {E E' : List (List Key × J A)} (h : E.Perm E') :
    (L.foldl absorb E).Perm (L.foldl absorb E') := by
  induction L generalizing E E' with
  | nil => exact h
  | cons y L ih => exact ih (absorb_perm h _)

theorem loop_spec (blank : A → Bool) (n : ℕ) (L : List (Key × J A)) (d : PyDict Key (J A)) (hw : PyDict.WF d)
    (hd : ∀ x ∈ d, Document x.2) (hdot : ∀ x ∈ L, cut x.1 ≠ none) (hnd : (L.map (·.1)).Nodup)
    (hget : ∀ x ∈ L, PyDict.get? d x.1 = some x.2) (hleaf : ∀ x ∈ L, x.2.isObj = false) (hn : ∀ x ∈ L, x.1.count '.' ≤ n)
    (hkeys : ∀ k ∈ PyDict.keys d, cut k = none ∨ k ∈ L.map (·.1)) (hok : ∀ x ∈ L, Ok blank (cl d) (parts x.1, x.2))
    (hpw : L.Pairwise fun x y => ¬ parts y.1 <+: parts x.1 ∧ (parts x.1 <+: parts y.1 → blankJ blank x.2 = true)) :
    ∃ d', loop blank (convert blank n) (L.map (·.1)) d = .ok d' ∧ PyDict.WF d' ∧ (∀ x ∈ d', cut x.1 = none ∧ Document x.2) ∧
      (leavesF d').Perm ((L.map fun x => (parts x.1, x.2)).foldl absorb (cl d)) := by
  induction L generalizing d with
  | nil =>
    have hall : ∀ x ∈ d, cut x.1 = none := by
      intro x hx
      rcases hkeys x.1 (List.mem_map.2 ⟨x, hx, rfl⟩) with h | h
      · exact h
      · cases h
    refine ⟨d, rfl, hw, fun x hx => ⟨hall x hx, hd x hx⟩, ?_⟩
    rw [List.map_nil, List.foldl_nil, cl, filter_none d hall]
  | cons x L ih =>
    obtain ⟨key, v⟩ := x
    cases hc : cut key with
    | none => exact absurd hc (hdot _ List.mem_cons_self)
    | some am =>
      obtain ⟨a, m⟩ := am
      obtain ⟨-, -, hca, hlt⟩ := cut_some key a m hc
      have hn0 := hn _ List.mem_cons_self
      dsimp only at hn0
      obtain ⟨q, h1, h2, h3⟩ := step_spec blank n _ (convert_rec blank n) d hw hd key a m v hc (hget _ List.mem_cons_self)
        (hleaf _ List.mem_cons_self) (by omega) (hok _ List.mem_cons_self)
      rw [List.map_cons, List.nodup_cons] at hnd
      rw [List.pairwise_cons] at hpw
      have hwd := PyDict.WF_del hw key
      have hws := PyDict.WF_set hwd a (J.obj q)
      have g1 : ∀ x ∈ PyDict.set (PyDict.del d key) a (J.obj q), Document x.2 := by
        intro x hx
        rcases List.mem_cons.1 ((perm_set _ a (J.obj q)).mem_iff.1 hx) with h | h
        · rw [h]; exact h2
        · exact hd x ((mem_del hw).1 ((mem_del hwd).1 h).1).1
      have g2 : ∀ x ∈ L, PyDict.get? (PyDict.set (PyDict.del d key) a (J.obj q)) x.1 = some x.2 := by
        intro x hx
        have hxk : x.1 ≠ key := fun h => hnd.1 (h ▸ List.mem_map.2 ⟨x, hx, rfl⟩)
        have hxa : x.1 ≠ a := fun h => hdot x (List.mem_cons_of_mem _ hx) (by rw [h]; exact hca)
        rw [PyDict.get?_set, if_neg (fun h => hxa h.symm), PyDict.get?_del hw, if_neg (fun h => hxk h.symm)]
        exact hget x (List.mem_cons_of_mem _ hx)
      have g3 : ∀ k ∈ PyDict.keys (PyDict.set (PyDict.del d key) a (J.obj q)), cut k = none ∨ k ∈ L.map (·.1) := by
        intro k hk
        obtain ⟨w, hkw⟩ := (PyDict.mem_keys_iff _ k).1 hk
        by_cases hka : a = k
        · left; rw [← hka]; exact hca
        · rw [PyDict.get?_set, if_neg hka, PyDict.get?_del hw] at hkw
          by_cases hkk : key = k
          · rw [if_pos hkk] at hkw; cases hkw
          · rw [if_neg hkk] at hkw
            rcases hkeys k ((PyDict.mem_keys_iff _ k).2 ⟨w, hkw⟩) with h | h
            · exact .inl h
            · rw [List.map_cons, List.mem_cons] at h
              rcases h with h | h
              · exact absurd h.symm hkk
              · exact .inr h
      have g4 : ∀ x ∈ L, Ok blank (cl (PyDict.set (PyDict.del d key) a (J.obj q))) (parts x.1, x.2) := by
        intro x hx e he
        rw [h3.mem_iff, mem_absorb] at he
        rcases he with he | he
        · exact hok x (List.mem_cons_of_mem _ hx) e he.1
        · rw [he]
          exact hpw.1 x hx
      obtain ⟨d', e1, e2, e3, e4⟩ := ih (PyDict.set (PyDict.del d key) a (.obj q)) hws g1 (fun x hx => hdot x (List.mem_cons_of_mem _ hx))
        hnd.2 g2 (fun x hx => hleaf x (List.mem_cons_of_mem _ hx)) (fun x hx => hn x (List.mem_cons_of_mem _ hx)) g3 g4 hpw.2
      refine ⟨d', by rw [List.map_cons, loop, h1]; exact e1, e2, e3, e4.trans ?_⟩
      exact foldl_absorb_perm _ h3

theorem loop_filter (blank : A → Bool) (rec : PyDict Key (J A) → Except Err (PyDict Key (J A))) (ks : List Key) (d : PyDict Key (J A)) :
    loop blank rec ks d = loop blank rec (ks.filter fun k => !(cut k).isNone) d := by
  induction ks generalizing d with
  | nil => rfl
  | cons k ks ih =>
    cases hc : cut k with
    | none =>
      rw [List.filter_cons_of_neg (by simp [hc]), loop, step, hc]
      exact ih d
    | some am =>
      rw [List.filter_cons_of_pos (by simp [hc]), loop, loop]
      congr 1
      funext d'
      exact ih d'

theorem mem_foldl_absorb (L E : List (List Key × J A)) (e : List Key × J A)
    (hL : L.Pairwise fun x y => ¬ y.1 <+: x.1) :
    e ∈ L.foldl absorb E ↔ (e ∈ E ∧ ∀ r ∈ L, ¬ e.1 <+: r.1) ∨ (e ∈ L ∧ ∀ r ∈ L, e.1 <+: r.1 → r = e) := by
  induction L generalizing E with
  | nil => simp
  | cons r L ih =>
    rw [List.pairwise_cons] at hL
    rw [List.foldl_cons, ih _ hL.2, mem_absorb]
    constructor
    · rintro (⟨⟨h1, h2⟩ | h1, h3⟩ | ⟨h1, h2⟩)
      · left
        refine ⟨h1, fun r' hr' => ?_⟩
        rcases List.mem_cons.1 hr' with rfl | h
        · exact h2
        · exact h3 r' h
      · right
        subst h1
        refine ⟨List.mem_cons_self, fun r' hr' hp => ?_⟩
        rcases List.mem_cons.1 hr' with rfl | h
        · rfl
        · exact absurd hp (h3 r' h)
      · right
        refine ⟨List.mem_cons_of_mem _ h1, fun r' hr' hp => ?_⟩
        rcases List.mem_cons.1 hr' with rfl | h
        · exact absurd hp (hL.1 e h1)
        · exact h2 r' h hp
    · rintro (⟨h1, h2⟩ | ⟨h1, h2⟩)
      · left
        exact ⟨.inl ⟨h1, h2 r List.mem_cons_self⟩, fun r' hr' => h2 r' (List.mem_cons_of_mem _ hr')⟩
      · rcases List.mem_cons.1 h1 with h | h
        · left
          refine ⟨.inr h, fun r' hr' hp => ?_⟩
          have := h2 r' (List.mem_cons_of_mem _ hr') hp
          subst this
          subst h
          exact hL.1 r' hr' (List.prefix_refl _)
        · right
          exact ⟨h, fun r' hr' hp => h2 r' (List.mem_cons_of_mem _ hr') hp⟩

theorem nodup_foldl_absorb (blank : A → Bool) (L E : List (List Key × J A)) (hE : E.Nodup) (hok : ∀ r ∈ L, Ok blank E r)
    (hL : L.Pairwise fun x y => ¬ y.1 <+: x.1 ∧ (x.1 <+: y.1 → blankJ blank x.2 = true)) : (L.foldl absorb E).Nodup := by
  induction L generalizing E with
  | nil => exact hE
  | cons r L ih =>
    rw [List.pairwise_cons] at hL
    rw [List.foldl_cons]
    apply ih _ _ _ hL.2
    · unfold absorb
      rw [List.nodup_append]
      refine ⟨hE.filter _, by simp, ?_⟩
      intro a ha b hb
      rw [List.mem_singleton.1 hb]
      intro h
      have := (hok r List.mem_cons_self a (List.mem_of_mem_filter ha)).1
      rw [h] at this
      exact this (List.prefix_refl _)
    · intro x hx e he
      rcases mem_absorb.1 he with h | h
      · exact hok x (List.mem_cons_of_mem _ hx) e h.1
      · rw [h]
        exact hL.1 x hx

theorem mem_cells {row : PyDict Key (J A)} {e : List Key × J A} : e ∈ cells row ↔ ∃ x ∈ row, e = (parts x.1, x.2) := by
  unfold cells
  rw [List.mem_map]
  exact ⟨fun ⟨x, h, h'⟩ => ⟨x, h, h'.symm⟩, fun ⟨x, h, h'⟩ => ⟨x, h, h'.symm⟩⟩

theorem cells_nodup {row : PyDict Key (J A)} (hw : PyDict.WF row) : ((cells row).map (·.1)).Nodup := by
  unfold cells
  rw [List.map_map]
  have : ((fun e : List Key × J A => e.1) ∘ fun x : Key × J A => (parts x.1, x.2)) = parts ∘ (·.1) := rfl
  rw [this, ← List.map_map]
  exact List.Nodup.map (fun _ _ h => parts_inj h) hw

theorem leavesF_flat (T : PyDict Key (J A)) (h : ∀ x ∈ T, cut x.1 = none ∧ x.2.isObj = false) : leavesF T = cells T := by
  induction T with
  | nil => rw [leavesF]; rfl
  | cons x T ih =>
    obtain ⟨k, v⟩ := x
    obtain ⟨h1, h2⟩ := h _ List.mem_cons_self
    rw [leavesF, leaves_leaf h2, ih fun x hx => h x (List.mem_cons_of_mem _ hx)]
    simp [cells, (cut_none k h1).1]

theorem count_le_dots {d : PyDict Key (J A)} {x : Key × J A} (h : x ∈ d) : x.1.count '.' ≤ dots d := by
  induction d with
  | nil => cases h
  | cons y d ih =>
    unfold dots at ih ⊢
    rw [List.map_cons, List.sum_cons]
    rcases List.mem_cons.1 h with rfl | h
    · omega
    · have := ih h
      omega

theorem pairwise_or {α : Type} {R : α → α → Prop} {l : List α} (h : l.Pairwise R) {x y : α} (hx : x ∈ l) (hy : y ∈ l) (hne : x ≠ y) :
    R x y ∨ R y x := by
  induction h with
  | nil => cases hx
  | cons h _ ih =>
    rcases List.mem_cons.1 hx with h1 | h1
    · rcases List.mem_cons.1 hy with h2 | h2
      · exact absurd (h1.trans h2.symm) hne
      · rw [h1]; exact .inl (h y h2)
    · rcases List.mem_cons.1 hy with h2 | h2
      · rw [h2]; exact .inr (h x h1)
      · exact ih h1 h2

/-- The first conversion of a row. -/
theorem convert_row (blank : A → Bool) (row : PyDict Key (J A)) (hw : PyDict.WF row) (hleaf : ∀ x ∈ row, x.2.isObj = false)
    (hnest : Nestable blank row) :
    ∃ d', convert blank (dots row + 1) row = .ok d' ∧ PyDict.WF d' ∧ (∀ x ∈ d', cut x.1 = none ∧ Document x.2) ∧
      (leavesF d').Perm (outermost row) := by
  let isDot : Key × J A → Bool := fun x => !(cut x.1).isNone
  let L := row.filter isDot
  have hLr : ∀ x ∈ L, x ∈ row ∧ cut x.1 ≠ none := by
    intro x hx
    obtain ⟨h1, h2⟩ := List.mem_filter.1 hx
    refine ⟨h1, ?_⟩
    intro h
    simp [isDot, h] at h2
  have hLmem : ∀ x ∈ row, cut x.1 ≠ none → x ∈ L := by
    intro x hx hc
    refine List.mem_filter.2 ⟨hx, ?_⟩
    cases h : cut x.1 with
    | none => exact absurd h hc
    | some _ => simp [isDot, h]
  have hT : cl row = cells (row.filter fun x => (cut x.1).isNone) := by
    apply leavesF_flat
    intro x hx
    obtain ⟨h1, h2⟩ := List.mem_filter.1 hx
    exact ⟨by simpa using h2, hleaf x h1⟩
  have hclm : ∀ e ∈ cl row, ∃ x ∈ row, cut x.1 = none ∧ e = (parts x.1, x.2) := by
    intro e he
    rw [hT] at he
    obtain ⟨x, hx, rfl⟩ := mem_cells.1 he
    obtain ⟨h1, h2⟩ := List.mem_filter.1 hx
    exact ⟨x, h1, by simpa using h2, rfl⟩
  have hpref : ∀ x y : Key × J A, cut x.1 = none → cut y.1 ≠ none → ¬ parts y.1 <+: parts x.1 := by
    intro x y hx hy hp
    rw [(cut_none x.1 hx).1] at hp
    cases hc : cut y.1 with
    | none => exact hy hc
    | some am =>
      obtain ⟨a, m⟩ := am
      have := hp.length_le
      rw [(cut_some _ a m hc).1] at this
      have h0 := List.length_pos_of_ne_nil (parts_ne_nil m)
      simp at this
      exact parts_ne_nil m this
  have hrel : ∀ x ∈ row, ∀ y ∈ row, x ≠ y → parts x.1 <+: parts y.1 → blankJ blank x.2 = true := by
    intro x hx y hy hne hp
    unfold Nestable at hnest
    rcases pairwise_or hnest hx hy hne with h | h
    · exact h.1 hp
    · exact (h.2 hp).1
  have hpwL : L.Pairwise fun x y => ¬ parts y.1 <+: parts x.1 ∧ (parts x.1 <+: parts y.1 → blankJ blank x.2 = true) := by
    have := hnest.sublist (List.filter_sublist (p := isDot) (l := row))
    refine this.imp_of_mem ?_
    intro x y _ hy h
    refine ⟨fun hp => ?_, h.1⟩
    exact (hLr y hy).2 ((cut_iff _).2 (h.2 hp).2)
  have hokL : ∀ x ∈ L, Ok blank (cl row) (parts x.1, x.2) := by
    intro x hx e he
    obtain ⟨y, hy, hcy, rfl⟩ := hclm e he
    obtain ⟨hxr, hcx⟩ := hLr x hx
    refine ⟨hpref y x hcy hcx, fun hp => hrel y hy x hxr ?_ hp⟩
    intro h
    rw [h] at hcy
    exact hcx hcy
  have hkL : (PyDict.keys row).filter (fun k => !(cut k).isNone) = L.map (·.1) := by
    show (row.map (·.1)).filter _ = _
    rw [List.filter_map]
    rfl
  obtain ⟨d', h1, h2, h3, h4⟩ := loop_spec blank (dots row) L row hw (fun x hx => document_leaf (hleaf x hx)) (fun x hx => (hLr x hx).2)
    (List.Nodup.sublist (List.filter_sublist.map _) hw) (fun x hx => PyDict.get?_of_mem hw (hLr x hx).1) (fun x hx => hleaf x (hLr x hx).1)
    (fun x hx => count_le_dots (hLr x hx).1) (fun k hk => by
      obtain ⟨w, hkw⟩ := (PyDict.mem_keys_iff _ k).1 hk
      by_cases hc : cut k = none
      · exact .inl hc
      · exact .inr (List.mem_map.2 ⟨(k, w), hLmem _ (PyDict.mem_of_get? hkw) hc, rfl⟩)) hokL hpwL
  refine ⟨d', ?_, h2, h3, h4.trans ?_⟩
  · rw [convert, loop_filter, hkL]
    exact h1
  · have hrowinj : ∀ x ∈ row, ∀ y ∈ row, x.1 = y.1 → x = y := by
      rintro ⟨k, v⟩ hx ⟨k', v'⟩ hy h
      cases h
      have a := PyDict.get?_of_mem hw hx
      have b := PyDict.get?_of_mem hw hy
      rw [a] at b
      cases b
      rfl
    have hpwL' : (L.map fun x => (parts x.1, x.2)).Pairwise
        fun x y : List Key × J A => ¬ y.1 <+: x.1 ∧ (x.1 <+: y.1 → blankJ blank x.2 = true) := by
      rw [List.pairwise_map]
      exact hpwL
    apply (List.perm_ext_iff_of_nodup ?_ ?_).2
    · intro e
      rw [mem_foldl_absorb _ _ _ (hpwL'.imp And.left), outermost, List.mem_filter]
      simp only [List.all_eq_true, decide_eq_true_eq]
      constructor
      · rintro (⟨ha, hb⟩ | ⟨ha, hb⟩)
        · obtain ⟨x, hx, hcx, rfl⟩ := hclm e ha
          refine ⟨mem_cells.2 ⟨x, hx, rfl⟩, ?_⟩
          intro e' he' hp
          obtain ⟨y, hy, rfl⟩ := mem_cells.1 he'
          by_cases hcy : cut y.1 = none
          · dsimp only at hp ⊢
            rw [(cut_none _ hcx).1, (cut_none _ hcy).1] at hp ⊢
            rw [List.cons_prefix_cons] at hp
            rw [hp.1]
          · exact absurd hp (hb _ (List.mem_map.2 ⟨y, hLmem y hy hcy, rfl⟩))
        · obtain ⟨x, hx, rfl⟩ := List.mem_map.1 ha
          obtain ⟨hxr, hcx⟩ := hLr x hx
          refine ⟨mem_cells.2 ⟨x, hxr, rfl⟩, ?_⟩
          intro e' he' hp
          obtain ⟨y, hy, rfl⟩ := mem_cells.1 he'
          by_cases hcy : cut y.1 = none
          · exact absurd hp (hpref y x hcy hcx)
          · rw [hb _ (List.mem_map.2 ⟨y, hLmem y hy hcy, rfl⟩) hp]
      · rintro ⟨ha, hb⟩
        obtain ⟨x, hx, rfl⟩ := mem_cells.1 ha
        by_cases hcx : cut x.1 = none
        · left
          refine ⟨?_, ?_⟩
          · rw [hT]
            exact mem_cells.2 ⟨x, List.mem_filter.2 ⟨hx, by simp [hcx]⟩, rfl⟩
          · intro r hr hp
            obtain ⟨y, hy, rfl⟩ := List.mem_map.1 hr
            obtain ⟨hyr, hcy⟩ := hLr y hy
            have := parts_inj (hb _ (mem_cells.2 ⟨y, hyr, rfl⟩) hp)
            rw [this] at hcy
            exact hcy hcx
        · right
          refine ⟨List.mem_map.2 ⟨x, hLmem x hx hcx, rfl⟩, ?_⟩
          intro r hr hp
          obtain ⟨y, hy, rfl⟩ := List.mem_map.1 hr
          obtain ⟨hyr, hcy⟩ := hLr y hy
          have := parts_inj (hb _ (mem_cells.2 ⟨y, hyr, rfl⟩) hp)
          rw [hrowinj y hyr x hx this]
    · refine nodup_foldl_absorb blank _ _ ?_ ?_ hpwL'
      · rw [hT]
        exact List.Nodup.of_map _ (cells_nodup (List.Nodup.sublist (List.filter_sublist.map _) hw))
      · intro r hr
        obtain ⟨x, hx, rfl⟩ := List.mem_map.1 hr
        exact hokL x hx
    · exact (List.Nodup.of_map _ (cells_nodup hw)).filter _

theorem convert_clean (blank : A → Bool) (n : ℕ) (d : PyDict Key (J A)) (h : ∀ x ∈ d, cut x.1 = none) :
    convert blank (n + 1) d = .ok d := by
  rw [convert]
  have := loop_clean blank (convert blank n) (PyDict.keys d) [] d (fun k hk => by
    obtain ⟨x, hx, rfl⟩ := List.mem_map.1 hk
    exact h x hx)
  rw [List.append_nil] at this
  rw [this]
  rfl

/-! ## Documents -/

theorem document_leaves {j : J A} (h : Document j) :
    (leaves j).Pairwise (fun x y => ¬ x.1 <+: y.1 ∧ ¬ y.1 <+: x.1) ∧ ∀ e ∈ leaves j, e.2.isObj = false ∧ ∀ k ∈ e.1, '.' ∉ k := by
  induction h with
  | val a => simp [leaves, J.isObj]
  | list xs => simp [leaves, J.isObj]
  | obj fields ne once keys sub ih =>
    rw [leaves]
    clear ne sub
    induction fields with
    | nil => simp [leavesF]
    | cons x fields ihf =>
      obtain ⟨k, j⟩ := x
      rw [List.map_cons, List.nodup_cons] at once
      obtain ⟨h1, h2⟩ := ihf once.2 (fun x hx => keys x (List.mem_cons_of_mem _ hx)) (fun x hx => ih x (List.mem_cons_of_mem _ hx))
      obtain ⟨h3, h4⟩ := ih (k, j) List.mem_cons_self
      rw [leavesF]
      constructor
      · rw [List.pairwise_append, List.pairwise_map]
        refine ⟨h3.imp fun h => ?_, h1, ?_⟩
        · simpa [List.cons_prefix_cons] using h
        · intro a ha b hb
          obtain ⟨x, hx, rfl⟩ := List.mem_map.1 ha
          obtain ⟨k', j', y, hy, -, rfl⟩ := mem_leavesF hb
          have : k ≠ k' := fun h => once.1 (h ▸ List.mem_map.2 ⟨_, hy, rfl⟩)
          have : k' ≠ k := fun h => this h.symm
          simp [List.cons_prefix_cons, *]
      · intro e he
        rcases List.mem_append.1 he with he | he
        · obtain ⟨x, hx, rfl⟩ := List.mem_map.1 he
          refine ⟨(h4 x hx).1, ?_⟩
          intro k' hk'
          rcases List.mem_cons.1 hk' with h | h
          · rw [h]; exact keys _ List.mem_cons_self
          · exact (h4 x hx).2 k' h
        · exact h2 e he

theorem document_flat {doc : List (Key × J A)} (h : Document (.obj doc)) :
    cells (flat doc) = leavesF doc ∧ PyDict.WF (flat doc) ∧ (∀ x ∈ flat doc, x.2.isObj = false) ∧
    Apart ((flat doc).map fun x => parts x.1) := by
  obtain ⟨h1, h2⟩ := document_leaves h
  rw [leaves] at h1 h2
  have hp : ∀ e ∈ leavesF doc, parts (List.intercalate ['.'] e.1) = e.1 := by
    intro e he
    unfold parts
    apply List.splitOn_intercalate
    · exact (h2 e he).2
    · obtain ⟨k, j, x, -, -, rfl⟩ := mem_leavesF he
      simp
  have hc : cells (flat doc) = leavesF doc := by
    unfold cells flat
    rw [List.map_map]
    conv_rhs => rw [← List.map_id (leavesF doc)]
    apply List.map_congr_left
    intro e he
    simp [hp e he]
  have hap : Apart ((flat doc).map fun x => parts x.1) := by
    have : ((flat doc).map fun x => parts x.1) = (leavesF doc).map (·.1) := by
      rw [← hc]
      unfold cells
      rw [List.map_map]
      rfl
    rw [this]
    unfold Apart
    rw [List.pairwise_map]
    exact h1
  refine ⟨hc, ?_, ?_, hap⟩
  · unfold Apart at hap
    rw [List.pairwise_map] at hap
    show ((flat doc).map (·.1)).Nodup
    unfold List.Nodup
    rw [List.pairwise_map]
    refine hap.imp ?_
    intro a b hab heq
    rw [heq] at hab
    exact hab.1 (List.prefix_refl _)
  · intro x hx
    obtain ⟨e, he, rfl⟩ := List.mem_map.1 hx
    exact (h2 e he).1

theorem apart_nestable (blank : A → Bool) {row : PyDict Key (J A)} (h : Apart (row.map fun x => parts x.1)) :
    Nestable blank row ∧ outermost row = cells row := by
  unfold Apart at h
  rw [List.pairwise_map] at h
  refine ⟨h.imp fun hab => ⟨fun h' => absurd h' hab.1, fun h' => absurd h' hab.2⟩, ?_⟩
  unfold outermost
  rw [List.filter_eq_self]
  intro e he
  rw [List.all_eq_true]
  intro e' he'
  rw [decide_eq_true_eq]
  intro hp
  obtain ⟨x, hx, rfl⟩ := mem_cells.1 he
  obtain ⟨y, hy, rfl⟩ := mem_cells.1 he'
  by_cases hxy : parts y.1 = parts x.1
  · exact hxy
  · rcases pairwise_or h hx hy (fun h => hxy (by rw [h])) with h' | h'
    · exact absurd hp h'.1
    · exact absurd hp h'.2

/-! ## Any row -/

/-- Dictionaries without dots in their keys. -/
def Fine (p : PyDict Key (J A)) : Prop := PyDict.WF p ∧ ∀ x ∈ p, cut x.1 = none ∧ Document x.2

theorem fine_set {p : PyDict Key (J A)} (h : Fine p) {k : Key} (hk : cut k = none) {v : J A} (hv : Document v) : Fine (PyDict.set p k v) := by
  refine ⟨PyDict.WF_set h.1 k v, fun x hx => ?_⟩
  rcases List.mem_cons.1 ((perm_set p k v).mem_iff.1 hx) with h' | h'
  · rw [h']; exact ⟨hk, hv⟩
  · exact h.2 x ((mem_del h.1).1 h').1

theorem fine_document {p : PyDict Key (J A)} (h : Fine p) (hne : p ≠ []) : Document (.obj p) :=
  .obj p hne h.1 (fun x hx => (cut_iff _).1 (h.2 x hx).1) fun x hx => (h.2 x hx).2

theorem set_ne_nil {V : Type} (d : PyDict Key V) (k : Key) (v : V) : PyDict.set d k v ≠ [] := by
  intro h
  have := (perm_set d k v).length_eq
  rw [h] at this; simp at this

/-- What any recursive call does. -/
def Rec' (n : ℕ) (rec : PyDict Key (J A) → Except Err (PyDict Key (J A))) : Prop :=
  ∀ (p : PyDict Key (J A)) (m : Key) (v : J A), Fine p → Document v → m.count '.' < n →
    rec (PyDict.set p m v) = .error .typeError ∨ ∃ q, rec (PyDict.set p m v) = .ok q ∧ Document (.obj q)

theorem step_any (blank : A → Bool) (n : ℕ) (rec : PyDict Key (J A) → Except Err (PyDict Key (J A))) (hrec : Rec' n rec)
    (d : PyDict Key (J A)) (hd : ∀ x ∈ d, Document x.2) (key a m : Key) (v : J A) (hc : cut key = some (a, m))
    (hv : PyDict.get? d key = some v) (hn : m.count '.' < n) :
    step blank rec d key = .error .typeError ∨
    ∃ q, step blank rec d key = .ok (PyDict.set (PyDict.del d key) a (.obj q)) ∧ Document (.obj q) := by
  have hp : parent blank (PyDict.get? d a) = .error .typeError ∨ ∃ p, parent blank (PyDict.get? d a) = .ok p ∧ Fine p := by
    cases hg : PyDict.get? d a with
    | none => exact .inr ⟨[], rfl, PyDict.WF_nil, by simp⟩
    | some w =>
      cases w with
      | obj f =>
        have hcf : Document (.obj f) := hd (a, .obj f) (PyDict.mem_of_get? hg)
        cases hcf with
        | obj _ ne wf keys sub => exact .inr ⟨f, rfl, wf, fun x hx => ⟨(cut_iff _).2 (keys x hx), sub x hx⟩⟩
      | val b =>
        by_cases hb : blank b = true
        · exact .inr ⟨[], by simp [parent, hb], PyDict.WF_nil, by simp⟩
        · exact .inl (by simp [parent, hb])
      | list xs => exact .inl rfl
  unfold step
  rw [hc]
  dsimp only
  rcases hp with hp | ⟨p, hp, hf⟩
  · rw [hp]; exact .inl rfl
  · rw [hp, hv]
    show (do
      let q ← rec (PyDict.set p m v)
      Except.ok (PyDict.set (PyDict.del d key) a (J.obj q))) = _ ∨ ∃ q, (do
      let q ← rec (PyDict.set p m v)
      Except.ok (PyDict.set (PyDict.del d key) a (J.obj q))) = _ ∧ _
    rcases hrec p m v hf (hd (key, v) (PyDict.mem_of_get? hv)) hn with h | ⟨q, h, h'⟩
    · rw [h]; exact .inl rfl
    · rw [h]; exact .inr ⟨q, rfl, h'⟩

theorem convert_any (blank : A → Bool) (n : ℕ) : Rec' n (convert (A := A) blank n) := by
  induction n with
  | zero => intro p m v _ _ hn; omega
  | succ n ih =>
    intro p m v hp hv hn
    by_cases hm : cut m = none
    · right
      have hf := fine_set hp hm hv
      exact ⟨_, convert_clean blank n _ fun x hx => (hf.2 x hx).1, fine_document hf (set_ne_nil _ _ _)⟩
    · have hmp : m ∉ PyDict.keys p := by
        intro h
        obtain ⟨w, hw⟩ := (PyDict.mem_keys_iff p m).1 h
        exact hm (hp.2 _ (PyDict.mem_of_get? hw)).1
      have hwg := PyDict.WF_set hp.1 m v
      have hkeys : PyDict.keys (PyDict.set p m v) = PyDict.keys p ++ [m] := by
        rw [PyDict.set_of_not_mem hmp]; simp [PyDict.keys]
      rw [convert, hkeys, loop_clean blank _ _ [m] _ (fun k hk => by
        obtain ⟨w, hw'⟩ := (PyDict.mem_keys_iff p k).1 hk
        exact (hp.2 _ (PyDict.mem_of_get? hw')).1)]
      cases hc : cut m with
      | none => exact absurd hc hm
      | some am =>
        obtain ⟨a, m'⟩ := am
        obtain ⟨-, -, hca, hlt⟩ := cut_some m a m' hc
        have hval : ∀ x ∈ PyDict.set p m v, Document x.2 := by
          intro x hx
          rcases List.mem_cons.1 ((perm_set p m v).mem_iff.1 hx) with h' | h'
          · rw [h']; exact hv
          · exact (hp.2 x ((mem_del hp.1).1 h').1).2
        have hgm : PyDict.get? (PyDict.set p m v) m = some v := by rw [PyDict.get?_set, if_pos rfl]
        have hdel : Fine (PyDict.del (PyDict.set p m v) m) := by
          refine ⟨PyDict.WF_del hwg m, fun x hx => ?_⟩
          have h1 := (mem_del hwg).1 hx
          rcases List.mem_cons.1 ((perm_set p m v).mem_iff.1 h1.1) with h' | h'
          · exact absurd (by rw [h']) h1.2
          · exact hp.2 x ((mem_del hp.1).1 h').1
        rcases step_any blank n _ ih _ hval m a m' v hc hgm (by omega) with h | ⟨q, h, h'⟩
        · rw [loop, h]; exact .inl rfl
        · rw [loop, h]
          exact .inr ⟨_, rfl, fine_document (fine_set hdel hca h') (set_ne_nil _ _ _)⟩

theorem loop_any (blank : A → Bool) (n : ℕ) (L : List (Key × J A)) (d : PyDict Key (J A)) (hw : PyDict.WF d)
    (hd : ∀ x ∈ d, Document x.2) (hdot : ∀ x ∈ L, cut x.1 ≠ none) (hnd : (L.map (·.1)).Nodup)
    (hget : ∀ x ∈ L, PyDict.get? d x.1 = some x.2) (hn : ∀ x ∈ L, x.1.count '.' ≤ n)
    (hkeys : ∀ k ∈ PyDict.keys d, cut k = none ∨ k ∈ L.map (·.1)) :
    (loop blank (convert blank n) (L.map (·.1)) d = .error .typeError ∨ ∃ d', loop blank (convert blank n) (L.map (·.1)) d = .ok d' ∧ Fine d') ∧
    ((∃ a v, PyDict.get? d a = some v ∧ cut a = none ∧ v.isObj = false ∧ blankJ blank v = false ∧ ∃ y ∈ L, ∃ m, cut y.1 = some (a, m)) →
      loop blank (convert blank n) (L.map (·.1)) d = .error .typeError) := by
  induction L generalizing d with
  | nil =>
    refine ⟨.inr ⟨d, rfl, hw, fun x hx => ⟨?_, hd x hx⟩⟩, ?_⟩
    · rcases hkeys x.1 (List.mem_map.2 ⟨x, hx, rfl⟩) with h | h
      · exact h
      · cases h
    · rintro ⟨a, v, -, -, -, -, y, hy, -⟩
      cases hy
  | cons x L ih =>
    obtain ⟨key, v⟩ := x
    cases hc : cut key with
    | none => exact absurd hc (hdot _ List.mem_cons_self)
    | some am =>
      obtain ⟨a, m⟩ := am
      obtain ⟨-, -, hca, hlt⟩ := cut_some key a m hc
      have hn0 := hn _ List.mem_cons_self
      dsimp only at hn0
      rw [List.map_cons, List.nodup_cons] at hnd
      rcases step_any blank n _ (convert_any blank n) d hd key a m v hc (hget _ List.mem_cons_self) (by omega) with h1 | ⟨q, h1, h2⟩
      · rw [List.map_cons, loop, h1]
        exact ⟨.inl rfl, fun _ => rfl⟩
      have hwd := PyDict.WF_del hw key
      have hws := PyDict.WF_set hwd a (J.obj q)
      have g1 : ∀ x ∈ PyDict.set (PyDict.del d key) a (J.obj q), Document x.2 := by
        intro x hx
        rcases List.mem_cons.1 ((perm_set _ a (J.obj q)).mem_iff.1 hx) with h | h
        · rw [h]; exact h2
        · exact hd x ((mem_del hw).1 ((mem_del hwd).1 h).1).1
      have g2 : ∀ x ∈ L, PyDict.get? (PyDict.set (PyDict.del d key) a (J.obj q)) x.1 = some x.2 := by
        intro x hx
        have hxk : x.1 ≠ key := fun h => hnd.1 (h ▸ List.mem_map.2 ⟨x, hx, rfl⟩)
        have hxa : x.1 ≠ a := fun h => hdot x (List.mem_cons_of_mem _ hx) (by rw [h]; exact hca)
        rw [PyDict.get?_set, if_neg (fun h => hxa h.symm), PyDict.get?_del hw, if_neg (fun h => hxk h.symm)]
        exact hget x (List.mem_cons_of_mem _ hx)
      have g3 : ∀ k ∈ PyDict.keys (PyDict.set (PyDict.del d key) a (J.obj q)), cut k = none ∨ k ∈ L.map (·.1) := by
        intro k hk
        obtain ⟨w, hkw⟩ := (PyDict.mem_keys_iff _ k).1 hk
        by_cases hka : a = k
        · left; rw [← hka]; exact hca
        · rw [PyDict.get?_set, if_neg hka, PyDict.get?_del hw] at hkw
          by_cases hkk : key = k
          · rw [if_pos hkk] at hkw; cases hkw
          · rw [if_neg hkk] at hkw
            rcases hkeys k ((PyDict.mem_keys_iff _ k).2 ⟨w, hkw⟩) with h | h
            · exact .inl h
            · rw [List.map_cons, List.mem_cons] at h
              rcases h with h | h
              · exact absurd h.symm hkk
              · exact .inr h
      obtain ⟨e1, e2⟩ := ih (PyDict.set (PyDict.del d key) a (.obj q)) hws g1 (fun x hx => hdot x (List.mem_cons_of_mem _ hx))
        hnd.2 g2 (fun x hx => hn x (List.mem_cons_of_mem _ hx)) g3
      have hl : loop blank (convert blank n) (List.map (·.1) ((key, v) :: L)) d =
          loop blank (convert blank n) (L.map (·.1)) (PyDict.set (PyDict.del d key) a (.obj q)) := by
        rw [List.map_cons, loop, h1]; rfl
      rw [hl]
      refine ⟨e1, ?_⟩
      rintro ⟨b, w, hb, hcb, hwo, hwb, y, hy, m', hym⟩
      by_cases hab : a = b
      · exfalso
        subst hab
        unfold step at h1
        rw [hc] at h1
        dsimp only at h1
        have : parent blank (PyDict.get? d a) = .error .typeError := by
          rw [hb]
          cases w with
          | obj f => cases hwo
          | list xs => rfl
          | val c =>
            have hcb : blank c = false := hwb
            simp [parent, hcb]
        rw [this] at h1
        cases h1
      · apply e2
        refine ⟨b, w, ?_, hcb, hwo, hwb, ?_⟩
        · have hkb : key ≠ b := by
            intro h
            rw [h, hcb] at hc
            cases hc
          rw [PyDict.get?_set, if_neg hab, PyDict.get?_del hw, if_neg hkb]
          exact hb
        · rcases List.mem_cons.1 hy with h | h
          · rw [h] at hym
            dsimp only at hym
            rw [hc] at hym
            cases hym
            exact absurd rfl hab
          · exact ⟨y, h, m', hym⟩

theorem convert_row_any (blank : A → Bool) (row : PyDict Key (J A)) (hw : PyDict.WF row) (hdoc : ∀ x ∈ row, Document x.2) :
    (convert blank (dots row + 1) row = .error .typeError ∨ ∃ d', convert blank (dots row + 1) row = .ok d' ∧ Fine d') ∧
    (∀ x ∈ row, ∀ y ∈ row, '.' ∉ x.1 → x.2.isObj = false → blankJ blank x.2 = false → parts x.1 <+: parts y.1 → x ≠ y →
      convert blank (dots row + 1) row = .error .typeError) := by
  let isDot : Key × J A → Bool := fun x => !(cut x.1).isNone
  let L := row.filter isDot
  have hLr : ∀ x ∈ L, x ∈ row ∧ cut x.1 ≠ none := by
    intro x hx
    obtain ⟨h1, h2⟩ := List.mem_filter.1 hx
    refine ⟨h1, ?_⟩
    intro h
    simp [isDot, h] at h2
  have hLmem : ∀ x ∈ row, cut x.1 ≠ none → x ∈ L := by
    intro x hx hc
    refine List.mem_filter.2 ⟨hx, ?_⟩
    cases h : cut x.1 with
    | none => exact absurd h hc
    | some _ => simp [isDot, h]
  have hkL : (PyDict.keys row).filter (fun k => !(cut k).isNone) = L.map (·.1) := by
    show (row.map (·.1)).filter _ = _
    rw [List.filter_map]
    rfl
  obtain ⟨h1, h2⟩ := loop_any blank (dots row) L row hw hdoc (fun x hx => (hLr x hx).2)
    (List.Nodup.sublist (List.filter_sublist.map _) hw) (fun x hx => PyDict.get?_of_mem hw (hLr x hx).1)
    (fun x hx => count_le_dots (hLr x hx).1) (fun k hk => by
      obtain ⟨w, hkw⟩ := (PyDict.mem_keys_iff _ k).1 hk
      by_cases hc : cut k = none
      · exact .inl hc
      · exact .inr (List.mem_map.2 ⟨(k, w), hLmem _ (PyDict.mem_of_get? hkw) hc, rfl⟩))
  rw [convert, loop_filter, hkL]
  refine ⟨h1, ?_⟩
  intro x hx y hy hxd hxo hxb hp hne
  apply h2
  have hcx := (cut_iff _).2 hxd
  refine ⟨x.1, x.2, PyDict.get?_of_mem hw hx, hcx, hxo, hxb, ?_⟩
  rw [(cut_none _ hcx).1] at hp
  cases hcy : cut y.1 with
  | none =>
    exfalso
    rw [(cut_none _ hcy).1, List.cons_prefix_cons] at hp
    apply hne
    obtain ⟨k, v⟩ := x
    obtain ⟨k', v'⟩ := y
    obtain ⟨h, -⟩ := hp
    dsimp only at h
    subst h
    have a := PyDict.get?_of_mem hw hx
    have b := PyDict.get?_of_mem hw hy
    rw [a] at b
    cases b
    rfl
  | some am =>
    obtain ⟨a, m⟩ := am
    rw [(cut_some _ a m hcy).1, List.cons_prefix_cons] at hp
    exact ⟨y, hLmem y hy (by rw [hcy]; simp), m, by rw [hcy, hp.1]⟩

end Verif.JsonNest
