import Verif.Lemmas.Network

/-!
# The networks of the character models: invariants
-/

namespace Verif.Network

open Verif Verif.Spec.Network

variable {W R : Type}

/-- The layers of the network of a model. -/
def Shape (Good : Params → Prop) (m : Model W) (net : Net W) : Prop :=
  match m.kind with
  | .cnn => ∃ p k d, Good p ∧ m.dfltInd = some d ∧
      net.map sig = bodyOf p ++ [(.dense, k, m.labels), (.thresh d, ("thresh_arg_max_layer", 0), 0)]
  | .loaded b _ => ∃ k d, m.dfltInd = some d ∧ net.map sig = b.map sig ++ [(.dense, k, m.labels)]

/-- What holds of every model. -/
def Inv (Good : Params → Prop) (m : Model W) : Prop :=
  Good m.params ∧ Adaptable m.kind ∧ ∀ net, m.net = some net → Shape Good m net

theorem shape_sig {Good : Params → Prop} {m : Model W} {net net' : Net W} (h : Shape Good m net) (hs : net'.map sig = net.map sig) :
    Shape Good m net' := by
  unfold Shape at h ⊢
  rw [hs]
  exact h

theorem map_sig_fill (E : Env W R) (p : Params) (draw : ℕ) (l : List (Cls × (String × ℕ) × ℕ)) : (fill E p draw l).map sig = l := by
  unfold fill
  apply List.ext_getElem?
  intro i
  rw [List.getElem?_map, List.getElem?_mapIdx]
  cases l[i]? with
  | none => rfl
  | some x => rfl

theorem names_eq (net : Net W) : net.map (·.name) = (net.map sig).map fun x => x.2.1 := by
  rw [List.map_map]
  rfl

theorem checked_ok {net : Net W} (h : ((net.map sig).map fun x => x.2.1).Nodup) : checked net = .ok net := by
  unfold checked
  rw [names_eq, if_pos h]

theorem skeleton_nodup (p : Params) (n d k : ℕ) (hk : p.dense.length ≤ k) :
    ((bodyOf p ++ [(Cls.dense, ("dense", k), n), (.thresh d, ("thresh_arg_max_layer", 0), 0)]).map fun x => x.2.1).Nodup := by
  rw [List.map_append, List.nodup_append]
  refine ⟨bodyOf_nodup p, by simp, ?_⟩
  intro a ha b hb he
  subst he
  simp only [List.map_cons, List.map_nil, List.mem_cons, List.not_mem_nil, or_false] at hb
  rcases hb with rfl | rfl
  · exact dense_not_mem hk ha
  · exact thresh_not_mem ha

/-- The network that is made. -/
def made (E : Env W R) (m : Model W) (d : ℕ) : Net W :=
  match m.kind with
  | .cnn => fill E m.params m.draws (skeleton m.params (LabelMap.numLabels m.mapping) d)
  | .loaded b h => b ++ [if h.units ≠ LabelMap.numLabels m.mapping then head E m ("softmax_output", 0) (LabelMap.numLabels m.mapping) else h]

theorem construct_ok (E : Env W R) {Good : Params → Prop} {m : Model W} (h : Inv Good m) {d : ℕ} (hd : m.dfltNow = some d) :
    construct E m = (m.withNet (made E m d) (LabelMap.numLabels m.mapping) d, .ok ()) ∧
      Shape Good (m.withNet (made E m d) (LabelMap.numLabels m.mapping) d) (made E m d) := by
  obtain ⟨hg, ha, _⟩ := h
  unfold construct made Shape Model.withNet
  rw [hd]
  rcases hk : m.kind with _ | ⟨b, hh⟩
  · simp only
    have hs := map_sig_fill E m.params m.draws (skeleton m.params (LabelMap.numLabels m.mapping) d)
    rw [checked_ok (by rw [hs, skeleton_eq]; exact skeleton_nodup _ _ _ _ (le_refl _))]
    exact ⟨rfl, m.params, _, d, hg, rfl, by rw [hs, skeleton_eq]⟩
  · rw [hk] at ha
    obtain ⟨h1, h2, h3⟩ := ha
    simp only
    set l := (if hh.units ≠ LabelMap.numLabels m.mapping then head E m ("softmax_output", 0) (LabelMap.numLabels m.mapping) else hh) with hl
    have hl1 : l.cls = .dense ∧ l.units = LabelMap.numLabels m.mapping ∧ (l.name = ("softmax_output", 0) ∨ l.name = hh.name) := by
      rw [hl]
      split_ifs with hu
      · exact ⟨rfl, rfl, .inl rfl⟩
      · exact ⟨h3, not_not.1 hu, .inr rfl⟩
    have hn : checked (b ++ [l]) = .ok (b ++ [l]) := by
      unfold checked
      rw [if_pos]
      rw [List.map_append, List.nodup_append]
      refine ⟨h1, by simp, ?_⟩
      intro x hx y hy he
      subst he
      simp only [List.map_cons, List.map_nil, List.mem_singleton] at hy
      obtain ⟨z, hz, rfl⟩ := List.mem_map.1 hx
      rcases hl1.2.2 with h | h
      · exact (h2 z hz).1 (hy.trans h)
      · exact (h2 z hz).2 (hy.trans h)
    rw [hn]
    refine ⟨rfl, l.name, d, rfl, ?_⟩
    rw [List.map_append, List.map_cons, List.map_nil]
    unfold sig
    rw [hl1.1, hl1.2.1]

theorem construct_none (E : Env W R) {m : Model W} (hd : m.dfltNow = none) : construct E m = (m, .error .keyError) := by
  unfold construct
  rw [hd]

/-- The network made for other labels. -/
def remade (E : Env W R) (m : Model W) (net : Net W) (d : ℕ) : Net W :=
  match m.kind with
  | .cnn => net.dropLast.dropLast ++ [head E m ("dense", 2) (LabelMap.numLabels m.mapping),
      ⟨.thresh d, ("thresh_arg_max_layer", 0), 0, E.init m.draws 1⟩]
  | .loaded _ _ => net.dropLast ++ [head E m ("softmax_output", 0) (LabelMap.numLabels m.mapping)]

theorem map_dropLast_sig (net : Net W) : net.dropLast.map sig = (net.map sig).dropLast := List.map_dropLast

theorem reconstruct_eq (E : Env W R) {m : Model W} (net : Net W) {d : ℕ} (hd : m.dfltNow = some d) :
    reconstruct E m net = match checked (remade E m net d) with
      | .error e => (m, .error e)
      | .ok net => (m.withNet net (LabelMap.numLabels m.mapping) d, .ok ()) := by
  unfold reconstruct
  rw [hd]
  rfl

theorem reconstruct_none (E : Env W R) {m : Model W} (net : Net W) (hd : m.dfltNow = none) : reconstruct E m net = (m, .error .keyError) := by
  unfold reconstruct
  rw [hd]

/-- A network made by the class can be made for other labels if it has at most two dense layers before the labels. -/
theorem reconstruct_cnn (E : Env W R) {m : Model W} {net : Net W} {d : ℕ} (hd : m.dfltNow = some d) (hk : m.kind = .cnn) {p : Params}
    {t : List (Cls × (String × ℕ) × ℕ)} (ht : t.length = 2) (hs : net.map sig = bodyOf p ++ t) :
    (p.dense.length ≤ 2 → reconstruct E m net = (m.withNet (remade E m net d) (LabelMap.numLabels m.mapping) d, .ok ())) ∧
      (2 < p.dense.length → reconstruct E m net = (m, .error .valueError)) ∧
      (remade E m net d).map sig = bodyOf p ++ [(.dense, ("dense", 2), LabelMap.numLabels m.mapping),
        (.thresh d, ("thresh_arg_max_layer", 0), 0)] := by
  have hb : net.dropLast.dropLast.map sig = bodyOf p := by
    rw [map_dropLast_sig, map_dropLast_sig, hs]
    match t, ht with
    | [a, b], _ =>
      rw [show bodyOf p ++ [a, b] = (bodyOf p ++ [a]) ++ [b] by simp, List.dropLast_concat, List.dropLast_concat]
  have hm : (remade E m net d).map sig = bodyOf p ++ [(.dense, ("dense", 2), LabelMap.numLabels m.mapping),
        (.thresh d, ("thresh_arg_max_layer", 0), 0)] := by
    unfold remade
    rw [hk]
    simp only [List.map_append, hb]
    rfl
  rw [reconstruct_eq E net hd]
  refine ⟨fun h2 => ?_, fun h2 => ?_, hm⟩
  · rw [checked_ok (by rw [hm]; exact skeleton_nodup _ _ _ _ h2)]
  · have : checked (remade E m net d) = .error .valueError := by
      unfold checked
      rw [names_eq, hm, if_neg]
      rw [List.map_append, List.nodup_append]
      rintro ⟨_, _, h3⟩
      exact h3 _ (dense_mem h2) ("dense", 2) (by simp) rfl
    rw [this]

theorem reconstruct_loaded (E : Env W R) {m : Model W} {net : Net W} {d : ℕ} (hd : m.dfltNow = some d) {b : Net W} {h : Layer W}
    (hk : m.kind = .loaded b h) (ha : Adaptable m.kind) {t : Cls × (String × ℕ) × ℕ} (hs : net.map sig = b.map sig ++ [t]) :
    reconstruct E m net = (m.withNet (remade E m net d) (LabelMap.numLabels m.mapping) d, .ok ()) ∧
      (remade E m net d).map sig = b.map sig ++ [(.dense, ("softmax_output", 0), LabelMap.numLabels m.mapping)] := by
  have hb : net.dropLast.map sig = b.map sig := by
    rw [map_dropLast_sig, hs, List.dropLast_concat]
  have hm : (remade E m net d).map sig = b.map sig ++ [(.dense, ("softmax_output", 0), LabelMap.numLabels m.mapping)] := by
    unfold remade
    rw [hk]
    simp only [List.map_append, hb]
    rfl
  rw [hk] at ha
  obtain ⟨h1, h2, _⟩ := ha
  rw [reconstruct_eq E net hd, checked_ok]
  · exact ⟨rfl, hm⟩
  · rw [hm, List.map_append, List.nodup_append]
    refine ⟨by rw [← names_eq]; exact h1, by simp, ?_⟩
    intro x hx y hy he
    subst he
    rw [← names_eq] at hx
    obtain ⟨z, hz, rfl⟩ := List.mem_map.1 hx
    simp only [List.map_cons, List.map_nil, List.mem_singleton] at hy
    exact (h2 z hz).1 hy

/-! ### Invariants of the operations -/

theorem inv_of {Good : Params → Prop} {m m' : Model W} (h : Inv Good m) (hk : m'.kind = m.kind) (hp : Good m'.params) (hn : m'.net = m.net)
    (hl : m'.labels = m.labels) (hd : m'.dfltInd = m.dfltInd) : Inv Good m' := by
  refine ⟨hp, by rw [hk]; exact h.2.1, fun net hnet => ?_⟩
  have := h.2.2 net (by rw [← hn]; exact hnet)
  unfold Shape at this ⊢
  rw [hk, hl, hd]
  exact this

theorem inv_withNet {Good : Params → Prop} {m : Model W} (h : Inv Good m) {net : Net W} {n d : ℕ}
    (hs : Shape Good (m.withNet net n d) net) : Inv Good (m.withNet net n d) := by
  refine ⟨h.1, h.2.1, fun net' hn => ?_⟩
  have : net = net' := Option.some.inj hn
  subst this
  exact hs

theorem construct_inv (E : Env W R) {Good : Params → Prop} {m : Model W} (h : Inv Good m) : Inv Good (construct E m).1 := by
  cases hd : m.dfltNow with
  | none => rw [construct_none E hd]; exact h
  | some d =>
    have := construct_ok E h hd
    rw [this.1]
    exact inv_withNet h this.2

theorem reconstruct_inv (E : Env W R) {Good : Params → Prop} {m : Model W} (h : Inv Good m) {net : Net W} (hn : m.net = some net) :
    Inv Good (reconstruct E m net).1 := by
  cases hd : m.dfltNow with
  | none => rw [reconstruct_none E net hd]; exact h
  | some d =>
    have hs := h.2.2 net hn
    unfold Shape at hs
    rcases hk : m.kind with _ | ⟨b, hh⟩
    · simp only [hk] at hs
      obtain ⟨p, k, d', hg, _, hs⟩ := hs
      obtain ⟨h1, h2, h3⟩ := reconstruct_cnn E hd hk (p := p) rfl hs
      by_cases hp : p.dense.length ≤ 2
      · rw [h1 hp]
        refine inv_withNet h ?_
        unfold Shape Model.withNet
        simp only [hk]
        exact ⟨p, ("dense", 2), d, hg, rfl, h3⟩
      · rw [h2 (by omega)]; exact h
    · simp only [hk] at hs
      obtain ⟨k, d', _, hs⟩ := hs
      obtain ⟨h1, h2⟩ := reconstruct_loaded E hd hk h.2.1 hs
      rw [h1]
      refine inv_withNet h ?_
      unfold Shape Model.withNet
      simp only [hk]
      exact ⟨("softmax_output", 0), d, rfl, h2⟩

theorem ready_inv (E : Env W R) {Good : Params → Prop} {m : Model W} (h : Inv Good m) : Inv Good (ready E m).1 := by
  unfold ready
  cases hn : m.net with
  | none => exact construct_inv E h
  | some net =>
    simp only
    rcases need m with e | (_ | _)
    · exact h
    · exact h
    · exact reconstruct_inv E h hn

theorem retrained_sig (net : Net W) (f : ℕ → W) : (retrained net f).map sig = net.map sig := by
  unfold retrained
  apply List.ext_getElem?
  intro i
  rw [List.getElem?_map, List.getElem?_mapIdx, List.getElem?_map]
  cases net[i]? with
  | none => rfl
  | some x => rfl

theorem trainAll_sig (E : Env W R) (bs : List (List Sample)) (net : Net W) (s : Option Scores) :
    (trainAll E net s bs).1.map sig = net.map sig := by
  induction bs generalizing net s with
  | nil => rfl
  | cons b bs ih => rw [trainAll, ih, retrained_sig]

theorem trainAll_trained (E : Env W R) (bs : List (List Sample)) (net : Net W) (s : Option Scores) :
    Trained E net bs (trainAll E net s bs).1 := by
  induction bs generalizing net s with
  | nil => exact .done net
  | cons b bs ih =>
    refine .batch (net' := retrained net (E.train net b).1) (retrained_sig _ _) ?_ (ih _ _)
    intro i hi
    simp only [retrained, List.getElem_mapIdx]

theorem trainAll_scores (E : Env W R) (bs : List (List Sample)) (net : Net W) (s : Option Scores) (h : bs ≠ []) :
    ∃ x, (trainAll E net s bs).2 = some x := by
  have key : ∀ (bs : List (List Sample)) (net : Net W) (s : Scores), ∃ x, (trainAll E net (some s) bs).2 = some x := by
    intro bs
    induction bs with
    | nil => exact fun net s => ⟨s, rfl⟩
    | cons b bs ih => exact fun net s => ih _ _
  cases bs with
  | nil => exact absurd rfl h
  | cons b bs => exact key bs _ _

theorem setLabels_fields (m : Model W) (g : LabelMap.Given String) : (setLabels m g).1.kind = m.kind ∧ (setLabels m g).1.params = m.params ∧
    (setLabels m g).1.net = m.net ∧ (setLabels m g).1.labels = m.labels ∧ (setLabels m g).1.dfltInd = m.dfltInd := by
  unfold setLabels
  cases mappingOf m.kind m.params.dflt g <;> exact ⟨rfl, rfl, rfl, rfl, rfl⟩

theorem setLabelsIf_fields (m : Model W) (g : Option (LabelMap.Given String)) : (setLabelsIf m g).1.kind = m.kind ∧
    (setLabelsIf m g).1.params = m.params ∧ (setLabelsIf m g).1.net = m.net ∧ (setLabelsIf m g).1.labels = m.labels ∧
    (setLabelsIf m g).1.dfltInd = m.dfltInd := by
  cases g with
  | none => exact ⟨rfl, rfl, rfl, rfl, rfl⟩
  | some g => exact setLabels_fields m g

theorem fitLoops_inv (E : Env W R) {Good : Params → Prop} {m : Model W} (h : Inv Good m) (train : List (List Sample))
    (val : Option (List (List Sample))) : Inv Good (fitLoops E m train val).1 := by
  unfold fitLoops
  cases hn : m.net with
  | none => exact h
  | some net =>
    have hs : ∀ k, Inv Good { m with net := some (trainAll E net none train).1, epoch := k } := by
      intro k
      refine ⟨h.1, h.2.1, fun net' hn' => ?_⟩
      have : (trainAll E net none train).1 = net' := Option.some.inj hn'
      subst this
      exact shape_sig (h.2.2 net hn) (trainAll_sig E train net none)
    simp only
    cases (trainAll E net none train).2 with
    | none => exact hs m.epoch
    | some s =>
      cases val with
      | none => exact hs _
      | some v =>
        simp only
        cases validate E (trainAll E net none train).1 (LabelMap.numLabels m.mapping) v with
        | error e => exact hs m.epoch
        | ok r => exact hs _

theorem resetIf_inv (E : Env W R) {Good : Params → Prop} {m : Model W} (h : Inv Good m) (a b : Bool) : Inv Good (resetIf E a b m).1 := by
  unfold resetIf
  split_ifs
  · exact construct_inv E h
  · exact h

theorem fit_inv (E : Env W R) {Good : Params → Prop} {m : Model W} (h : Inv Good m) (l : Option (LabelMap.Given String)) (r : Bool)
    (train : List (List Sample)) (val : Option (List (List Sample))) : Inv Good (fit E m l r train val).1 := by
  have h1 : Inv Good (setLabelsIf m l).1 := by
    obtain ⟨a, b, c, d, e⟩ := setLabelsIf_fields m l
    exact inv_of h a (by rw [b]; exact h.1) c d e
  unfold fit
  rcases hs : setLabelsIf m l with ⟨m1, e1⟩
  rw [hs] at h1
  cases e1 with
  | error e => exact h1
  | ok _ =>
    have h2 := ready_inv E h1
    simp only
    rcases hr : ready E m1 with ⟨m2, e2⟩
    rw [hr] at h2
    cases e2 with
    | error e => exact h2
    | ok _ =>
      have h3 := resetIf_inv E h2 m1.net.isSome r
      simp only
      rcases hq : resetIf E m1.net.isSome r m2 with ⟨m3, e3⟩
      rw [hq] at h3
      cases e3 with
      | error e => exact h3
      | ok _ => exact fitLoops_inv E h3 train val

theorem able_inv (E : Env W R) {Good : Params → Prop} {m : Model W} (h : Inv Good m) : Inv Good (able E m).1 := by
  unfold able
  cases hn : m.net with
  | none => exact construct_inv E h
  | some net =>
    simp only
    rcases need m with e | (_ | _) <;> exact h

theorem predict_state (E : Env W R) (m : Model W) (size : ℕ) (bs : List (List (List ℕ))) : (predict E m size bs).1 = match m.kind with
    | .cnn => m
    | .loaded _ _ => (able E m).1 := by
  unfold predict
  cases m.kind with
  | cnn => rfl
  | loaded b hh =>
    simp only [predictLoaded]
    rcases able E m with ⟨m1, _ | _⟩
    · rfl
    · simp only
      cases m1.net <;> rfl

theorem predict_inv (E : Env W R) {Good : Params → Prop} {m : Model W} (h : Inv Good m) (size : ℕ) (bs : List (List (List ℕ))) :
    Inv Good (predict E m size bs).1 := by
  rw [predict_state]
  cases m.kind with
  | cnn => exact h
  | loaded b hh => exact able_inv E h

theorem step_inv (E : Env W R) {Good : Params → Prop} {m : Model W} (h : Inv Good m) (op : Op) (hp : ∀ p, op = .params p → Good p) :
    Inv Good (step E m op) := by
  cases op with
  | labels g =>
    obtain ⟨a, b, c, d, e⟩ := setLabels_fields m g
    exact inv_of (m' := (setLabels m g).1) h a (by rw [b]; exact h.1) c d e
  | add l s => exact inv_of h rfl h.1 rfl rfl rfl
  | params p => exact inv_of h rfl (hp p rfl) rfl rfl rfl
  | fit l r t v => exact fit_inv E h l r t v
  | reset => exact construct_inv E h
  | save => exact ready_inv E h
  | predict n b => exact predict_inv E h n b

theorem after_inv (E : Env W R) {Good : Params → Prop} {m : Model W} (h : Inv Good m) (ops : List Op) (hp : ∀ p ∈ given ops, Good p) :
    Inv Good (after E m ops) := by
  induction ops generalizing m with
  | nil => exact h
  | cons op ops ih =>
    refine ih (step_inv E h op ?_) ?_
    · rintro p rfl
      exact hp p (by simp [given])
    · intro p hpm
      cases op <;> first | exact hp p hpm | exact hp p (List.mem_cons_of_mem _ hpm)

theorem new_inv {Good : Params → Prop} {k : Kind W} {p : Params} {g : LabelMap.Given String} {m : Model W} (h : new k p g = .ok m)
    (hk : Adaptable k) (hp : Good p) : Inv Good m := by
  unfold new at h
  cases hm : mappingOf k p.dflt g with
  | error e => rw [hm] at h; exact nomatch h
  | ok l =>
    rw [hm] at h
    obtain rfl := (Except.ok.inj h).symm
    exact ⟨hp, hk, fun net hn => nomatch hn⟩

/-! ### The class does not change -/

theorem construct_kind (E : Env W R) (m : Model W) : (construct E m).1.kind = m.kind := by
  unfold construct
  cases m.dfltNow with
  | none => rfl
  | some d =>
    simp only
    rcases hk : m.kind with _ | ⟨b, h⟩
    · simp only
      cases checked (fill E m.params m.draws (skeleton m.params (LabelMap.numLabels m.mapping) d)) <;> exact hk
    · simp only
      cases checked (b ++ [if h.units ≠ LabelMap.numLabels m.mapping then
        head E m ("softmax_output", 0) (LabelMap.numLabels m.mapping) else h]) <;> first | rfl | exact hk

theorem reconstruct_kind (E : Env W R) (m : Model W) (net : Net W) : (reconstruct E m net).1.kind = m.kind := by
  cases hd : m.dfltNow with
  | none => rw [reconstruct_none E net hd]
  | some d =>
    rw [reconstruct_eq E net hd]
    cases checked (remade E m net d) <;> rfl

theorem ready_kind (E : Env W R) (m : Model W) : (ready E m).1.kind = m.kind := by
  unfold ready
  cases m.net with
  | none => exact construct_kind E m
  | some net =>
    simp only
    rcases need m with e | (_ | _)
    · rfl
    · rfl
    · exact reconstruct_kind E m net

theorem fitLoops_kind (E : Env W R) (m : Model W) (train : List (List Sample)) (val : Option (List (List Sample))) :
    (fitLoops E m train val).1.kind = m.kind := by
  unfold fitLoops
  cases m.net with
  | none => rfl
  | some net =>
    simp only
    cases (trainAll E net none train).2 with
    | none => rfl
    | some s =>
      cases val with
      | none => rfl
      | some v =>
        simp only
        cases validate E (trainAll E net none train).1 (LabelMap.numLabels m.mapping) v <;> rfl

theorem fit_kind (E : Env W R) (m : Model W) (l : Option (LabelMap.Given String)) (r : Bool) (train : List (List Sample))
    (val : Option (List (List Sample))) : (fit E m l r train val).1.kind = m.kind := by
  have h1 := (setLabelsIf_fields m l).1
  unfold fit
  rcases hs : setLabelsIf m l with ⟨m1, _ | _⟩ <;> rw [hs] at h1
  · exact h1
  · have h2 := ready_kind E m1
    simp only
    rcases hr : ready E m1 with ⟨m2, _ | _⟩ <;> rw [hr] at h2
    · exact h2.trans h1
    · have h3 : (resetIf E m1.net.isSome r m2).1.kind = m2.kind := by
        unfold resetIf
        split_ifs
        · exact construct_kind E m2
        · rfl
      simp only
      rcases hq : resetIf E m1.net.isSome r m2 with ⟨m3, _ | _⟩ <;> rw [hq] at h3
      · exact h3.trans (h2.trans h1)
      · exact (fitLoops_kind E m3 train val).trans (h3.trans (h2.trans h1))

theorem step_kind (E : Env W R) (m : Model W) (op : Op) : (step E m op).kind = m.kind := by
  cases op with
  | labels g => exact (setLabels_fields m g).1
  | add l s => rfl
  | params p => rfl
  | fit l r t v => exact fit_kind E m l r t v
  | reset => exact construct_kind E m
  | save => exact ready_kind E m
  | predict n b =>
    show (predict E m n b).1.kind = m.kind
    rw [predict_state]
    cases hk : m.kind with
    | cnn => exact hk
    | loaded b h =>
      show (able E m).1.kind = _
      rw [← hk]
      unfold able
      cases m.net with
      | none => exact construct_kind E m
      | some net => simp only; rcases need m with e | (_ | _) <;> rfl

theorem new_kind {k : Kind W} {p : Params} {g : LabelMap.Given String} {m : Model W} (h : new k p g = .ok m) : m.kind = k := by
  unfold new at h
  cases hm : mappingOf k p.dflt g with
  | error e => rw [hm] at h; exact nomatch h
  | ok l =>
    rw [hm] at h
    obtain rfl := (Except.ok.inj h).symm
    rfl

theorem after_kind (E : Env W R) (m : Model W) (ops : List Op) : (after E m ops).kind = m.kind := by
  induction ops generalizing m with
  | nil => rfl
  | cons op ops ih => exact (ih (step E m op)).trans (step_kind E m op)

/-! ### What the layers say -/

theorem getLast_filter_dense (a : List (Layer W)) (h t : Layer W) (hh : h.cls = .dense) (ht : t.cls ≠ .dense) :
    ((a ++ [h, t]).filter fun l => l.cls = .dense).getLast? = some h := by
  simp [List.filter_append, hh, ht]

theorem outputs_shape {Good : Params → Prop} {m : Model W} {net : Net W} (h : Shape Good m net) : outputs net = m.labels := by
  unfold Shape at h
  rcases hk : m.kind with _ | ⟨b, hh⟩
  · simp only [hk] at h
    obtain ⟨p, k, d, _, _, hs⟩ := h
    obtain ⟨a, r, rfl, _, hr⟩ := List.map_eq_append_iff.1 hs
    have hlen : r.length = 2 := by simpa using congrArg List.length hr
    match r, hlen, hr with
    | [x, y], _, hr =>
      simp only [List.map_cons, List.map_nil, List.cons.injEq, and_true] at hr
      unfold outputs
      rw [getLast_filter_dense a x y (congrArg (·.1) hr.1) (by rw [show y.cls = .thresh d from congrArg (·.1) hr.2]; simp)]
      exact congrArg (·.2.2) hr.1
  · simp only [hk] at h
    obtain ⟨k, d, _, hs⟩ := h
    obtain ⟨a, r, rfl, _, hr⟩ := List.map_eq_append_iff.1 hs
    have hlen : r.length = 1 := by simpa using congrArg List.length hr
    match r, hlen, hr with
    | [x], _, hr =>
      simp only [List.map_cons, List.map_nil, List.cons.injEq, and_true] at hr
      have hx : x.cls = .dense := congrArg (·.1) hr
      unfold outputs
      simp only [List.filter_append, List.filter_cons, hx, decide_true, if_true, List.filter_nil, List.getLast?_append, List.getLast?_singleton,
        Option.some_or]
      exact congrArg (·.2.2) hr

theorem seen_cnn {net : Net W} {p : Params} {t : List (Cls × (String × ℕ) × ℕ)} (h : net.map sig = bodyOf p ++ t) (text : List ℕ) :
    seen net text = encode p.maxCode p.maxLen text := by
  unfold seen
  have : net.findSome? (fun l => encodingOf l.cls) = some (p.maxCode, p.maxLen) := by
    have e : net.findSome? (fun l => encodingOf l.cls) = (net.map sig).findSome? fun x => encodingOf x.1 := by
      rw [List.findSome?_map]
      rfl
    rw [e, h]
    rfl
  rw [this]

end Verif.Network
