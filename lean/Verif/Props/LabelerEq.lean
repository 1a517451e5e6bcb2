import Verif.Model.LabelerEq
import Verif.Lemmas.LabelerEq
import Verif.Props.LabelerDisk

/-!
# C84: data labelers that compare equal
-/

namespace Verif.Props.LabelerEq

open Verif LabelerDisk LabelerDisk.Spec
open Verif.Props.LabelerDisk (env netModel netModel_made netLabeler regexLabeler pre structPost pre_made structPost_made netParams
  regexModel regexModel_made regexPost regexPost_made)

variable {W : Type}

/-- A labeler a user can have, without arrays in its parameters. -/
structure Tidied (E : Env W) (l : Labeler W) : Prop where
  model : MadeModel E l.model
  pre : MadeProc E l.pre
  post : MadeProc E l.post
  tidyModel : Tidy l.model.params
  tidyPre : Tidy l.pre.params
  tidyPost : Tidy l.post.params

theorem key_some {a : Params} {k : String} (h : k ∈ PyDict.keys a) : ∃ v, PyDict.get? a k = some v :=
  Option.ne_none_iff_exists'.1 fun hn => (PyDict.get?_eq_none_iff a k).1 hn h

theorem eqProc_iff {E : Env W} {p q : Proc} (hp : MadeProc E p) (hq : MadeProc E q) (tp : Tidy p.params)
    (tq : Tidy q.params) : procEq p q = true ↔ EqProc p q := by
  have ip := inv_made hp
  have iq := inv_made hq
  unfold procEq EqProc
  rw [Bool.and_eq_true, decide_eq_true_eq]
  refine and_congr_right fun hc => ?_
  by_cases hs : p.cls = .structCharPost
  · rw [if_pos hs]
    simp only [hs, ne_eq, not_true_eq_false, false_imp_iff, true_and, true_imp_iff]
    have kp : PyDict.keys p.params = ["default_label", "pad_label", "flatten_separator", "is_pred_labels", "random_state"] := by
      rw [ip.keys, hs]; rfl
    have kq : PyDict.keys q.params = ["default_label", "pad_label", "flatten_separator", "is_pred_labels", "random_state"] := by
      rw [iq.keys, ← hc, hs]; rfl
    have entry : ∀ k ∈ ["default_label", "pad_label", "flatten_separator", "is_pred_labels"],
        (entryEq p.params q.params k = true ↔
          ∀ v w, PyDict.get? p.params k = some v → PyDict.get? q.params k = some w → PyEq v w) := by
      intro k hk
      have hk' : k ∈ ["default_label", "pad_label", "flatten_separator", "is_pred_labels", "random_state"] := by
        simp only [List.mem_cons, List.not_mem_nil, or_false] at hk ⊢
        tauto
      obtain ⟨v, hv⟩ := key_some (kp ▸ hk' : k ∈ PyDict.keys p.params)
      obtain ⟨w, hw⟩ := key_some (kq ▸ hk' : k ∈ PyDict.keys q.params)
      unfold entryEq
      rw [hv, hw, Option.getD_some, Option.getD_some, eqv_iff v w (tp k v hv) (tq k w hw)]
      constructor
      · intro h v' w' hv' hw'
        injection hv' with hv'
        injection hw' with hw'
        exact hv' ▸ hw' ▸ h
      · exact fun h => h v w rfl rfl
    rw [List.all_eq_true]
    constructor
    · intro h k v w hk hv hw
      have hm : k ∈ PyDict.keys p.params := (PyDict.mem_keys_iff _ _).2 ⟨v, hv⟩
      rw [kp] at hm
      have hm' : k ∈ ["default_label", "pad_label", "flatten_separator", "is_pred_labels"] := by
        simp only [List.mem_cons, List.not_mem_nil, or_false] at hm ⊢
        tauto
      exact (entry k hm').1 (h k hm') v w hv hw
    · intro h k hk
      refine (entry k hk).2 fun v w hv hw => h k v w ?_ hv hw
      rintro rfl
      exact absurd hk (by decide)
  · rw [if_neg hs, paramsEq_iff ip.wf iq.wf tp tq]
    simp [hs]

theorem eqModel_iff {E : Env W} {m n : Model W} (hm : MadeModel E m) (hn : MadeModel E n) (tm : Tidy m.params)
    (tn : Tidy n.params) : modelEq m n = true ↔ EqModel m n := by
  have im := minv_made hm
  have jn := minv_made hn
  unfold modelEq EqModel
  rw [Bool.and_eq_true, Bool.and_eq_true, Bool.or_eq_true, decide_eq_true_eq, decide_eq_true_eq,
    paramsEq_iff im.wf jn.wf tm tn, mappingEq_iff im.mwf jn.mwf, and_assoc]
  refine and_congr_left fun ⟨⟨hk, _⟩, _⟩ => ⟨fun h => ?_, Or.inr⟩
  rcases h with h | h
  · have no : ∀ k, k ∈ PyDict.keys n.cls.defaults → (∀ v, cnnOk k v = false) → False := by
      intro k h1 h2
      obtain ⟨w, hw⟩ := key_some (jn.keys k h1)
      cases hv : PyDict.get? m.params k with
      | none => rw [(hk k).1 hv] at hw; cases hw
      | some v =>
        have := im.good k v hv
        rw [h] at this
        have h3 : cnnOk k v = true := this
        rw [h2 v] at h3
        cases h3
    cases hc : n.cls with
    | cnn => exact h
    | regex =>
      rw [hc] at no
      exact (no "regex_patterns" (by decide) fun v => by simp [cnnOk]).elim
    | columnName =>
      rw [hc] at no
      exact (no "include_label" (by decide) fun v => by simp [cnnOk]).elim
  · exact h

/-- Two labelers compare equal exactly if their processors and models are of the same classes, with equal parameters and the
same labels. -/
theorem C84_equal_partial (E : Env W) (a b : Labeler W) (ha : Tidied E a) (hb : Tidied E b) :
    labelerEq a b = true ↔ EqProc a.pre b.pre ∧ EqModel a.model b.model ∧ EqProc a.post b.post := by
  unfold labelerEq
  rw [Bool.and_eq_true, Bool.and_eq_true, eqProc_iff ha.pre hb.pre ha.tidyPre hb.tidyPre,
    eqModel_iff ha.model hb.model ha.tidyModel hb.tidyModel, eqProc_iff ha.post hb.post ha.tidyPost hb.tidyPost, and_assoc]

theorem pyEq_symm {v w : Val} (h : PyEq v w) : PyEq w v := by
  induction h with
  | none => exact .none
  | num hv hw => exact .num hw hv
  | str s => exact .str s
  | list hl _ ih => exact .list hl.symm fun i v w hv hw => ih i w v hw hv
  | tuple hl _ ih => exact .tuple hl.symm fun i v w hv hw => ih i w v hw hv
  | dict hk _ ih => exact .dict (fun k => (hk k).symm) fun k v w hv hw => ih k w v hw hv
  | pattern s => exact .pattern s
  | rng h => exact .rng h.symm

theorem pyEq_trans {u v w : Val} (h : PyEq u v) (g : PyEq v w) : PyEq u w := by
  induction h generalizing w with
  | none => exact g
  | num hv hw =>
    cases g with
    | num hv' hw' =>
      rw [hw] at hv'
      injection hv' with hv'
      exact .num hv (hv' ▸ hw')
    | _ => exact .num hv hw
  | str s => exact g
  | @list a b hl _ ih =>
    cases g with
    | num hv' hw' => simp [Val.num?] at hv'
    | list hl' h' =>
      refine .list (hl.trans hl') fun i x z hx hz => ?_
      have hi : i < b.length := by
        rw [← hl]; exact (List.getElem?_eq_some_iff.1 hx).1
      exact ih i x _ hx (List.getElem?_eq_getElem hi) (h' i _ z (List.getElem?_eq_getElem hi) hz)
  | @tuple a b hl _ ih =>
    cases g with
    | num hv' hw' => simp [Val.num?] at hv'
    | tuple hl' h' =>
      refine .tuple (hl.trans hl') fun i x z hx hz => ?_
      have hi : i < b.length := by
        rw [← hl]; exact (List.getElem?_eq_some_iff.1 hx).1
      exact ih i x _ hx (List.getElem?_eq_getElem hi) (h' i _ z (List.getElem?_eq_getElem hi) hz)
  | @dict a b hk _ ih =>
    cases g with
    | num hv' hw' => simp [Val.num?] at hv'
    | dict hk' h' =>
      refine .dict (fun k => (hk k).trans (hk' k)) fun k x z hx hz => ?_
      cases hy : PyDict.get? b k with
      | none => rw [(hk k).2 hy] at hx; cases hx
      | some y => exact ih k x y hx hy (h' k y z hy hz)
  | pattern s => exact g
  | rng h =>
    cases g with
    | num hv' hw' => simp [Val.num?] at hv'
    | rng h' => exact .rng (h.trans h')

theorem eqParams_symm {a b : Params} (h : EqParams a b) : EqParams b a :=
  ⟨fun k => (h.1 k).symm, fun k v w hv hw => pyEq_symm (h.2 k w v hw hv)⟩

theorem eqParams_trans {a b c : Params} (h : EqParams a b) (g : EqParams b c) : EqParams a c := by
  refine ⟨fun k => (h.1 k).trans (g.1 k), fun k x z hx hz => ?_⟩
  cases hy : PyDict.get? b k with
  | none => rw [(h.1 k).2 hy] at hx; cases hx
  | some y => exact pyEq_trans (h.2 k x y hx hy) (g.2 k y z hy hz)

theorem eqProc_symm {p q : Proc} (h : EqProc p q) : EqProc q p := by
  obtain ⟨h1, h2, h3⟩ := h
  refine ⟨h1.symm, fun hc => eqParams_symm (h2 (h1 ▸ hc)), fun hc k v w hk hv hw => pyEq_symm (h3 (h1 ▸ hc) k w v hk hw hv)⟩

theorem eqModel_symm {m n : Model W} (h : EqModel m n) : EqModel n m :=
  ⟨h.1.symm, eqParams_symm h.2.1, fun l => (h.2.2 l).symm⟩

/-- Comparing in the other direction gives the same. -/
theorem C84_symm (E : Env W) (a b : Labeler W) (ha : Tidied E a) (hb : Tidied E b) : labelerEq a b = labelerEq b a := by
  have : labelerEq a b = true ↔ labelerEq b a = true := by
    rw [C84_equal_partial E a b ha hb, C84_equal_partial E b a hb ha]
    exact ⟨fun ⟨h1, h2, h3⟩ => ⟨eqProc_symm h1, eqModel_symm h2, eqProc_symm h3⟩,
      fun ⟨h1, h2, h3⟩ => ⟨eqProc_symm h1, eqModel_symm h2, eqProc_symm h3⟩⟩
  exact Bool.eq_iff_iff.2 this

theorem pyEq_refl : ∀ v : Val, tidy v = true → PyEq v v := fun v hv => by
  have key : ∀ n : ℕ, ∀ v : Val, sizeOf v < n → tidy v = true → PyEq v v := by
    intro n
    induction n with
    | zero => intro v h; omega
    | succ n ih =>
      have mem : ∀ {l : List Val}, tidyList l = true → ∀ x ∈ l, tidy x = true := by
        intro l
        induction l with
        | nil => simp
        | cons x t iht =>
          intro h
          rw [tidyList, Bool.and_eq_true] at h
          exact List.forall_mem_cons.2 ⟨h.1, iht h.2⟩
      intro v hn hv
      cases v with
      | none => exact .none
      | bool b => exact .num (q := (b.toInt : ℚ)) rfl rfl
      | int z => exact .num (q := (z : ℚ)) rfl rfl
      | float q => exact .num (q := q) rfl rfl
      | str s => exact .str s
      | list l =>
        rw [tidy] at hv
        refine .list rfl fun i x y hx hy => ?_
        rw [hx] at hy
        injection hy with hy
        subst hy
        have hm := List.mem_of_getElem? hx
        refine ih x ?_ (mem hv x hm)
        have := List.sizeOf_lt_of_mem hm
        simp at hn
        omega
      | tuple l =>
        rw [tidy] at hv
        refine .tuple rfl fun i x y hx hy => ?_
        rw [hx] at hy
        injection hy with hy
        subst hy
        have hm := List.mem_of_getElem? hx
        refine ih x ?_ (mem hv x hm)
        have := List.sizeOf_lt_of_mem hm
        simp at hn
        omega
      | dict d =>
        rw [tidy, Bool.and_eq_true] at hv
        refine .dict (fun k => Iff.rfl) fun k x y hx hy => ?_
        rw [hx] at hy
        injection hy with hy
        subst hy
        refine ih x ?_ (tidyDict_get hv.2 hx)
        have := List.sizeOf_lt_of_mem (PyDict.mem_of_get? hx)
        simp at hn this
        omega
      | array l => rw [tidy] at hv; cases hv
      | pattern s => exact .pattern s
      | rng r => exact .rng rfl
  exact key _ v (Nat.lt_succ_self _) hv

theorem eqParams_refl {a : Params} (h : Tidy a) : EqParams a a := by
  refine ⟨fun _ => Iff.rfl, fun k v w hv hw => ?_⟩
  rw [hv] at hw
  injection hw with hw
  exact hw ▸ pyEq_refl v (h k v hv)

theorem eqProc_refl {p : Proc} (h : Tidy p.params) : EqProc p p :=
  ⟨rfl, fun _ => eqParams_refl h, fun _ k v w _ hv hw => (eqParams_refl h).2 k v w hv hw⟩

/-- A labeler equals itself, and labelers equal to a third are equal. -/
theorem C84_equivalence (E : Env W) (a b c : Labeler W) (ha : Tidied E a) (hb : Tidied E b) (hc : Tidied E c) :
    labelerEq a a = true ∧ (labelerEq a b = true → labelerEq b c = true → labelerEq a c = true) := by
  refine ⟨?_, fun h g => ?_⟩
  · rw [C84_equal_partial E a a ha ha]
    exact ⟨eqProc_refl ha.tidyPre, ⟨rfl, eqParams_refl ha.tidyModel, fun _ => rfl⟩, eqProc_refl ha.tidyPost⟩
  · rw [C84_equal_partial E a b ha hb] at h
    rw [C84_equal_partial E b c hb hc] at g
    rw [C84_equal_partial E a c ha hc]
    have tr : ∀ {x y z : Proc}, MadeProc E x → MadeProc E y → EqProc x y → EqProc y z → EqProc x z := by
      intro x y z mx my h g
      refine ⟨h.1.trans g.1, fun hn => eqParams_trans (h.2.1 hn) (g.2.1 (h.1 ▸ hn)), fun hs k v w hk hv hw => ?_⟩
      have hy : k ∈ PyDict.keys y.params := by
        have : k ∈ PyDict.keys x.params := (PyDict.mem_keys_iff _ _).2 ⟨v, hv⟩
        rw [(inv_made mx).keys, h.1, ← (inv_made my).keys] at this
        exact this
      obtain ⟨u, hu⟩ := key_some hy
      exact pyEq_trans (h.2.2 hs k v u hk hv hu) (g.2.2 (h.1 ▸ hs) k u w hk hu hw)
    exact ⟨tr ha.pre hb.pre h.1 g.1, ⟨h.2.1.1.trans g.2.1.1, eqParams_trans h.2.1.2.1 g.2.1.2.1,
      fun l => (h.2.1.2.2 l).trans (g.2.1.2.2 l)⟩, tr ha.post hb.post h.2.2 g.2.2⟩

/-- Profiles of labels may be merged exactly if their settings and possible labels are the same and their labelers compare
equal. -/
theorem C84_merge_iff (a b : LabelProfile W) :
    (assertEqual a b = .ok () ↔ a.topVotes = b.topVotes ∧ a.minVote = b.minVote ∧ a.minDifference = b.minDifference ∧
      a.topLabels = b.topLabels ∧ a.minTop = b.minTop ∧ a.possible = b.possible ∧ labelerEq a.labeler b.labeler = true) ∧
    ∀ e, assertEqual a b = .error e → e = .valueError := by
  unfold assertEqual
  constructor
  · constructor
    · intro h
      split_ifs at h with h1 h2 h3 h4 h5 h6 h7
      simp only [ne_eq, not_not] at h1 h2 h3 h4 h5 h6
      exact ⟨h1, h2, h3, h4, h5, h6, by simpa using h7⟩
    · rintro ⟨h1, h2, h3, h4, h5, h6, h7⟩
      simp [h1, h2, h3, h4, h5, h6, h7]
  · intro e h
    split_ifs at h <;> injection h with h <;> exact h.symm

/-! ## Cases -/

theorem tidy_of {a : Params} (h : tidyDict a = true) : Tidy a := fun _ _ hv => tidyDict_get h hv

/-- The labeler of the cases, trained to some weights. -/
def trained (w : ℕ) : Labeler ℕ := ⟨true, { netModel with net := some ⟨w, 3, 1⟩ }, pre, structPost⟩

theorem trained_tidied (w : ℕ) : Tidied env (trained w) where
  model := .train netModel_made rfl _
  pre := pre_made
  post := structPost_made
  tidyModel := tidy_of (by simp [trained, netModel, netParams, tidyDict, tidy, tidyList])
  tidyPre := tidy_of (by simp [trained, pre, tidyDict, tidy])
  tidyPost := tidy_of (by simp [trained, structPost, tidyDict, tidy])

theorem regex_tidied : Tidied env regexLabeler where
  model := regexModel_made
  pre := pre_made
  post := regexPost_made
  tidyModel := tidy_of (by
    simp [regexLabeler, regexModel, Props.LabelerDisk.regexParams, tidyDict, tidy, tidyList])
  tidyPre := tidy_of (by simp [regexLabeler, pre, tidyDict, tidy])
  tidyPost := tidy_of (by simp [regexLabeler, regexPost, tidyDict, tidy])

/-- Labelers that predict differently compare equal: the weights of their networks are not looked at. -/
theorem C84_weights_fails : ∀ v w : ℕ, v ≠ w → ∃ a b : Labeler ℕ, Tidied env a ∧ Tidied env b ∧
    labelerEq a b = true ∧ a.model.net.map Net.weights = some v ∧ b.model.net.map Net.weights = some w := by
  intro v w _
  exact ⟨trained v, trained w, trained_tidied v, trained_tidied w, rfl, rfl, rfl⟩

/-- Profiles of labels found by differently trained networks are merged as if found by one. -/
theorem C84_merge_fails : ∃ a b : LabelProfile ℕ, assertEqual a b = .ok () ∧
    a.labeler.model.net.map Net.weights ≠ b.labeler.model.net.map Net.weights :=
  ⟨⟨trained 1, 1, 0, 0, 3, 0, ["UNKNOWN"]⟩, ⟨trained 2, 1, 0, 0, 3, 0, ["UNKNOWN"]⟩, rfl, by decide⟩

/-- Labelers that are made in the same way compare unequal if they have a generator each. -/
theorem C84_generator_fails : ∃ p q : Proc, MadeProc env p ∧ MadeProc env q ∧
    initProc env 0 .regexPost [("random_state", .int 7)] = .ok p ∧
    initProc env 1 .regexPost [("random_state", .int 7)] = .ok q ∧ procEq p q = false :=
  ⟨_, _, .init (id := 0) (c := .regexPost) (kw := [("random_state", .int 7)]) rfl,
    .init (id := 1) (c := .regexPost) (kw := [("random_state", .int 7)]) rfl, rfl, rfl, rfl⟩

/-- Labelers that differ in a label, or in a parameter, compare unequal. -/
example : labelerEq netLabeler ⟨true, { netModel with mapping := [("UNKNOWN", 1), ("OTHER", 2), ("PAD", 0)] }, pre, structPost⟩
    = false ∧ labelerEq netLabeler ⟨true, netModel, { pre with params := PyDict.set pre.params "max_length" (.int 6) },
      structPost⟩ = false := ⟨rfl, rfl⟩

example : labelerEq netLabeler regexLabeler = false := rfl

end Verif.Props.LabelerEq
