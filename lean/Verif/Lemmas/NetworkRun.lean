import Verif.Lemmas.NetworkInv
import Verif.Lemmas.LabelMap

/-!
# The networks of the character models: predicting and training
-/

namespace Verif.Network

open Verif Verif.Spec.Network Verif.Spec.CharProcess

variable {W R : Type}

theorem need_none {m : Model W} {net : Net W} (hn : m.net = some net) (hd : m.dfltNow = none) : need m = .error .keyError := by
  unfold need
  rw [hn, hd]

theorem need_false {m : Model W} (h : Current m) : need m = .ok false := by
  obtain ⟨h1, h2, h3, h4⟩ := h
  obtain ⟨net, hn⟩ := Option.isSome_iff_exists.1 h1
  obtain ⟨d, hd⟩ := Option.isSome_iff_exists.1 h4
  unfold need
  rw [hn]
  have : m.dfltNow = some d := hd
  rw [hd] at h3
  simp only [this, h2, h3, ne_eq, not_true_eq_false, or_self, decide_false]

theorem need_true {m : Model W} {net : Net W} {d : ℕ} (hn : m.net = some net) (hd : m.dfltNow = some d) (h : ¬ Current m) :
    need m = .ok true := by
  unfold need
  rw [hn]
  simp only [hd]
  congr 1
  rw [decide_eq_true_iff]
  by_contra hc
  push Not at hc
  exact h ⟨by rw [hn]; rfl, hc.1.symm, by rw [← hc.2]; exact hd.symm, by rw [show PyDict.get? m.mapping m.params.dflt = some d from hd]; rfl⟩

theorem current_withNet {m : Model W} {net : Net W} {d : ℕ} (hd : m.dfltNow = some d) :
    Current (m.withNet net (LabelMap.numLabels m.mapping) d) := by
  refine ⟨rfl, rfl, ?_, ?_⟩
  · exact hd.symm
  · show (PyDict.get? m.mapping m.params.dflt).isSome
    rw [show PyDict.get? m.mapping m.params.dflt = some d from hd]
    rfl

theorem best_argmax {row : List ℚ} (h : row ≠ []) : Best row (argmax row) := by
  obtain ⟨hi, h1, h2⟩ := argmax_spec h
  refine ⟨hi, ?_, ?_⟩
  · rw [h1]; exact (largest_spec h).2
  · intro j hj; rw [h1]; exact h2 j hj

theorem numLabels_pos (l : PyDict String ℕ) : 0 < LabelMap.numLabels l := Nat.succ_pos _

theorem answers_labelled {E : Env W R} (hE : Sound E) {net : Net W} (ho : 0 < outputs net) (t : List ℕ) :
    Answers (E.forward net (seen net t)) (labelled E net t) := by
  unfold Answers labelled confidences
  rw [List.forall₂_map_right_iff]
  rw [List.forall₂_same]
  intro row hr
  refine best_argmax ?_
  rintro rfl
  have := (hE net (seen net t)).2 [] hr
  simp at this
  omega

theorem labelled_length {E : Env W R} (hE : Sound E) (net : Net W) (t : List ℕ) : (labelled E net t).length = (seen net t).length := by
  unfold labelled confidences
  rw [List.length_map, (hE net _).1]

theorem spread_same {w : ℕ} {row : List ℕ} (h : row.length = w) : spread w row = row := by
  unfold spread
  split
  · subst h; rfl
  · rfl

theorem spread_length {w : ℕ} {row : List ℕ} (h1 : row.length ≠ 1) : spread w row = row := by
  unfold spread
  split
  · exact absurd rfl h1
  · rfl

/-- The predictions of a network made by the class. -/
theorem predictCnn_ok (E : Env W R) (hE : Sound E) {m : Model W} (hc : Current m) {net : Net W} (hn : m.net = some net)
    (hl : ∀ t, (seen net t).length = m.params.maxLen) {size : ℕ} (hs : 0 < size) {batches : List (List (List ℕ))}
    (hf : Full size batches) :
    predictCnn E m size batches = .ok (batches.flatten.map fun t => (labelled E net t).take t.length) := by
  unfold predictCnn
  rw [hn]
  simp only [need_false hc]
  have hsp : ∀ t, spread m.params.maxLen (labelled E net t) = labelled E net t := fun t =>
    spread_same (by rw [labelled_length hE, hl t])
  rw [if_neg]
  · rw [CharProcess.predict_ok hs _ batches hf (fun b _ => by simp)]
    simp only [hsp]
    congr 1
    have e : (batches.flatMap fun b => b.map fun t => labelled E net t) = batches.flatten.map fun t => labelled E net t := by
      rw [List.flatMap_def, List.map_flatten]
    rw [e, List.zipWith_map]
    generalize batches.flatten = l
    induction l with
    | nil => rfl
    | cons a t _ => simp
  · simp only [hsp, Bool.not_eq_true, List.any_eq_false]
    intro b _ t _
    simp [labelled_length hE, hl t]

/-- Rows of another length are refused. -/
theorem predictCnn_width (E : Env W R) (hE : Sound E) {m : Model W} (hc : Current m) {net : Net W} (hn : m.net = some net) {n : ℕ}
    (hl : ∀ t, (seen net t).length = n) (h1 : n ≠ 1) (h2 : n ≠ m.params.maxLen) (size : ℕ) {batches : List (List (List ℕ))}
    (hb : batches.flatten ≠ []) : predictCnn E m size batches = .error .valueError := by
  unfold predictCnn
  rw [hn]
  simp only [need_false hc]
  rw [if_pos]
  obtain ⟨t, ht⟩ := List.exists_mem_of_ne_nil _ hb
  obtain ⟨b, hb, htb⟩ := List.mem_flatten.1 ht
  refine List.any_eq_true.2 ⟨b, hb, List.any_eq_true.2 ⟨t, htb, ?_⟩⟩
  rw [spread_length (by rw [labelled_length hE, hl t]; exact h1)]
  simp [labelled_length hE, hl t, h2]

theorem predictCnn_current {E : Env W R} {m : Model W} {size : ℕ} {batches : List (List (List ℕ))} {r : List (List ℕ)}
    (h : predictCnn E m size batches = .ok r) : Current m := by
  unfold predictCnn at h
  cases hn : m.net with
  | none => rw [hn] at h; exact nomatch h
  | some net =>
    rw [hn] at h
    cases hd : m.dfltNow with
    | none => simp only [need_none hn hd] at h; exact nomatch h
    | some d =>
      by_contra hc
      simp only [need_true hn hd hc] at h
      exact nomatch h

/-- Slices written one after the other. -/
theorem gather_ok (outs : List (List (List ℕ))) (preds : List (List ℕ)) (i : ℕ) (hi : i ≤ preds.length) :
    (gather preds i outs).1.take (gather preds i outs).2 = preds.take i ++ outs.flatten := by
  induction outs generalizing preds i with
  | nil => simp [gather]
  | cons out outs ih =>
    rw [gather]
    set q := (if preds.length ≤ i then preds ++ preds else preds) with hq
    have hqi : i ≤ q.length ∧ q.take i = preds.take i := by
      rw [hq]
      split_ifs with h
      · refine ⟨by simp; omega, ?_⟩
        rw [List.take_append_of_le_length hi]
      · exact ⟨hi, rfl⟩
    rw [ih _ _ (by simp; omega)]
    rw [List.take_append_of_le_length (by simp; omega)]
    rw [List.take_of_length_le (by simp), hqi.2]
    simp

theorem predictLoaded_ok (E : Env W R) {m m' : Model W} (ha : able E m = (m', .ok ())) {net : Net W} (hn : m'.net = some net)
    (batches : List (List (List ℕ))) :
    predictLoaded E m batches = (m', .ok (batches.flatten.map fun t => labelled E net t)) := by
  unfold predictLoaded
  rw [ha]
  simp only [hn]
  have := gather_ok (batches.map fun b => b.map fun t => labelled E net t) [] 0 (le_refl 0)
  rw [this]
  simp [List.map_flatten]

/-- A loaded network is made for its labels when it predicts. -/
theorem able_ok (E : Env W R) {Good : Params → Prop} {m m' : Model W} (h : Inv Good m) (ha : able E m = (m', .ok ())) : Current m' := by
  unfold able at ha
  cases hn : m.net with
  | none =>
    rw [hn] at ha
    cases hd : m.dfltNow with
    | none =>
      simp only [construct_none E hd] at ha
      exact nomatch (Prod.ext_iff.1 ha).2
    | some d =>
      simp only [(construct_ok E h hd).1, Prod.mk.injEq, and_true] at ha
      subst ha
      exact current_withNet hd
  | some net =>
    rw [hn] at ha
    cases hd : m.dfltNow with
    | none => simp only [need_none hn hd] at ha; exact nomatch (Prod.ext_iff.1 ha).2
    | some d =>
      by_cases hc : Current m
      · simp only [need_false hc, Prod.mk.injEq, and_true] at ha
        subst ha
        exact hc
      · simp only [need_true hn hd hc] at ha
        exact nomatch (Prod.ext_iff.1 ha).2

/-- The model after predictions is made for its labels. -/
theorem predict_current (E : Env W R) {Good : Params → Prop} {m : Model W} (h : Inv Good m) {size : ℕ} {batches : List (List (List ℕ))}
    {r : List (List ℕ)} (hp : (predict E m size batches).2 = .ok r) : Current (predict E m size batches).1 := by
  rw [predict_state]
  unfold predict at hp
  cases hk : m.kind with
  | cnn =>
    simp only [hk] at hp
    exact predictCnn_current hp
  | loaded b hh =>
    simp only [hk] at hp
    rcases ha : able E m with ⟨m', e⟩
    cases e with
    | error e =>
      unfold predictLoaded at hp
      rw [ha] at hp
      exact nomatch hp
    | ok u => exact able_ok E h (by rw [ha])

/-! ### Getting ready -/

theorem ready_current (E : Env W R) {Good : Params → Prop} {m m' : Model W} (h : Inv Good m) (hr : ready E m = (m', .ok ())) :
    Current m' := by
  unfold ready at hr
  cases hn : m.net with
  | none =>
    rw [hn] at hr
    cases hd : m.dfltNow with
    | none => simp only [construct_none E hd] at hr; exact nomatch (Prod.ext_iff.1 hr).2
    | some d =>
      simp only [(construct_ok E h hd).1, Prod.mk.injEq, and_true] at hr
      subst hr
      exact current_withNet hd
  | some net =>
    rw [hn] at hr
    cases hd : m.dfltNow with
    | none => simp only [need_none hn hd] at hr; exact nomatch (Prod.ext_iff.1 hr).2
    | some d =>
      by_cases hc : Current m
      · simp only [need_false hc, Prod.mk.injEq, and_true] at hr
        subst hr
        exact hc
      · simp only [need_true hn hd hc, reconstruct_eq E net hd] at hr
        cases hx : checked (remade E m net d) with
        | error e => rw [hx] at hr; exact nomatch (Prod.ext_iff.1 hr).2
        | ok net' =>
          rw [hx] at hr
          simp only [Prod.mk.injEq, and_true] at hr
          subst hr
          exact current_withNet hd

/-- Training keeps what the network was made for. -/
theorem fitLoops_current (E : Env W R) {m : Model W} (h : Current m) (train : List (List Sample)) (val : Option (List (List Sample))) :
    Current (fitLoops E m train val).1 := by
  obtain ⟨h1, h2, h3, h4⟩ := h
  obtain ⟨net, hn⟩ := Option.isSome_iff_exists.1 h1
  unfold fitLoops
  rw [hn]
  simp only
  cases (trainAll E net none train).2 with
  | none => exact ⟨rfl, h2, h3, h4⟩
  | some s =>
    cases val with
    | none => exact ⟨rfl, h2, h3, h4⟩
    | some v =>
      simp only
      cases validate E (trainAll E net none train).1 (LabelMap.numLabels m.mapping) v <;> exact ⟨rfl, h2, h3, h4⟩

/-- Training as a relation. -/
theorem fitLoops_trained (E : Env W R) {m : Model W} {net : Net W} (hn : m.net = some net) (train : List (List Sample))
    (val : Option (List (List Sample))) : ∃ net', (fitLoops E m train val).1.net = some net' ∧ Trained E net train net' := by
  refine ⟨_, ?_, trainAll_trained E train net none⟩
  unfold fitLoops
  rw [hn]
  simp only
  cases (trainAll E net none train).2 with
  | none => rfl
  | some s =>
    cases val with
    | none => rfl
    | some v =>
      simp only
      cases validate E (trainAll E net none train).1 (LabelMap.numLabels m.mapping) v <;> rfl

/-- Training returns if there is a batch and the evaluation does. -/
theorem fitLoops_ok (E : Env W R) {m : Model W} {net : Net W} (hn : m.net = some net) {train : List (List Sample)} (ht : train ≠ [])
    {val : Option (List (List Sample))} (hv : ∀ v, val = some v → v ≠ [] ∧ ∀ a b n, ∃ r, E.evaluate a b n = .ok r) :
    ∃ r, (fitLoops E m train val).2 = .ok r := by
  unfold fitLoops
  rw [hn]
  obtain ⟨s, hs⟩ := trainAll_scores E train net none ht
  simp only [hs]
  cases val with
  | none => exact ⟨_, rfl⟩
  | some v =>
    obtain ⟨h1, h2⟩ := hv v rfl
    have : ∃ r, validate E (trainAll E net none train).1 (LabelMap.numLabels m.mapping) v = .ok r := by
      cases v with
      | nil => exact absurd rfl h1
      | cons b bs => exact h2 _ _ _
    obtain ⟨r, hr⟩ := this
    simp only [hr]
    exact ⟨_, rfl⟩

theorem fresh_made (E : Env W R) (m : Model W) (d : ℕ) : Fresh E m.kind m.params (made E m d) := by
  unfold Fresh made
  rcases m.kind with _ | ⟨b, h⟩
  · refine ⟨m.draws, fun i l hl => ?_⟩
    simp only [fill, List.getElem?_mapIdx] at hl
    cases hx : (skeleton m.params (LabelMap.numLabels m.mapping) d)[i]? with
    | none => rw [hx] at hl; exact nomatch hl
    | some x =>
      rw [hx] at hl
      obtain rfl := (Option.some.inj hl).symm
      rfl
  · simp only
    split_ifs
    · exact ⟨_, rfl, .inr ⟨m.draws, rfl⟩⟩
    · exact ⟨_, rfl, .inl rfl⟩

theorem adapted_remade (E : Env W R) {Good : Params → Prop} {m : Model W} {net : Net W} (hs : Shape Good m net) (d : ℕ) :
    Adapted E net (remade E m net d) := by
  unfold Shape at hs
  unfold remade
  rcases hk : m.kind with _ | ⟨b, h⟩
  · simp only [hk] at hs ⊢
    obtain ⟨p, k, d', _, _, hs⟩ := hs
    obtain ⟨a, r, rfl, _, hr⟩ := List.map_eq_append_iff.1 hs
    have hlen : r.length = 2 := by simpa using congrArg List.length hr
    match r, hlen, hr with
    | [x, y], _, hr =>
      simp only [List.map_cons, List.map_nil, List.cons.injEq, and_true] at hr
      refine ⟨a, [x, y], [head E m ("dense", 2) (LabelMap.numLabels m.mapping),
          ⟨.thresh d, ("thresh_arg_max_layer", 0), 0, E.init m.draws 1⟩], rfl, ?_, rfl, by simp, ?_, m.draws, ?_⟩
      · rw [show a ++ [x, y] = (a ++ [x]) ++ [y] by simp, List.dropLast_concat, List.dropLast_concat]
      · intro l hl
        simp only [List.mem_cons, List.not_mem_nil, or_false] at hl
        rcases hl with rfl | rfl
        · exact .inl (congrArg (·.1) hr.1)
        · exact .inr ⟨d', congrArg (·.1) hr.2⟩
      · intro i l hl
        match i, hl with
        | 0, hl => exact (Option.some.inj hl) ▸ rfl
        | 1, hl => exact (Option.some.inj hl) ▸ rfl
        | _ + 2, hl => exact nomatch hl
  · simp only [hk] at hs ⊢
    obtain ⟨k, d', _, hs⟩ := hs
    obtain ⟨a, r, rfl, _, hr⟩ := List.map_eq_append_iff.1 hs
    have hlen : r.length = 1 := by simpa using congrArg List.length hr
    match r, hlen, hr with
    | [x], _, hr =>
      simp only [List.map_cons, List.map_nil, List.cons.injEq, and_true] at hr
      refine ⟨a, [x], [head E m ("softmax_output", 0) (LabelMap.numLabels m.mapping)], rfl, ?_, rfl, by simp, ?_, m.draws, ?_⟩
      · rw [List.dropLast_concat]
      · intro l hl
        rw [List.mem_singleton] at hl
        subst hl
        exact .inl (congrArg (·.1) hr)
      · intro i l hl
        match i, hl with
        | 0, hl => exact (Option.some.inj hl) ▸ rfl
        | _ + 1, hl => exact nomatch hl

/-- What the model is after getting ready. -/
theorem ready_cases (E : Env W R) {Good : Params → Prop} {m m' : Model W} (h : Inv Good m) (hr : ready E m = (m', .ok ())) :
    m'.mapping = m.mapping ∧ m'.params = m.params ∧ m'.kind = m.kind ∧ ∃ net', m'.net = some net' ∧
      (m.net = none → Fresh E m.kind m.params net') ∧
      (∀ net, m.net = some net → Current m → net' = net) ∧ (∀ net, m.net = some net → ¬ Current m → Adapted E net net') := by
  unfold ready at hr
  cases hn : m.net with
  | none =>
    rw [hn] at hr
    cases hd : m.dfltNow with
    | none => simp only [construct_none E hd] at hr; exact nomatch (Prod.ext_iff.1 hr).2
    | some d =>
      simp only [(construct_ok E h hd).1, Prod.mk.injEq, and_true] at hr
      subst hr
      refine ⟨rfl, rfl, rfl, _, rfl, fun _ => fresh_made E m d, ?_, ?_⟩
      · intro net hx; exact nomatch hx
      · intro net hx; exact nomatch hx
  | some net =>
    rw [hn] at hr
    cases hd : m.dfltNow with
    | none => simp only [need_none hn hd] at hr; exact nomatch (Prod.ext_iff.1 hr).2
    | some d =>
      by_cases hc : Current m
      · simp only [need_false hc, Prod.mk.injEq, and_true] at hr
        subst hr
        exact ⟨rfl, rfl, rfl, net, hn, (nomatch ·), fun net' hx _ => Option.some.inj hx, fun _ _ hx => absurd hc hx⟩
      · simp only [need_true hn hd hc, reconstruct_eq E net hd] at hr
        cases hx : checked (remade E m net d) with
        | error e => rw [hx] at hr; exact nomatch (Prod.ext_iff.1 hr).2
        | ok net' =>
          rw [hx] at hr
          simp only [Prod.mk.injEq, and_true] at hr
          subst hr
          have : net' = remade E m net d := by
            unfold checked at hx
            split_ifs at hx
            exact (Except.ok.inj hx).symm
          subst this
          refine ⟨rfl, rfl, rfl, _, rfl, (nomatch ·), fun _ _ hx => absurd hx hc, fun net' hx _ => ?_⟩
          obtain rfl := Option.some.inj hx
          exact adapted_remade E (h.2.2 _ hn) d

/-- The steps of `fit`. -/
theorem fit_steps (E : Env W R) {m : Model W} {l : Option (LabelMap.Given String)} {r : Bool} {train : List (List Sample)}
    {val : Option (List (List Sample))} {x : Fitted R} (h : (fit E m l r train val).2 = .ok x) :
    ∃ m1 m2 m3, setLabelsIf m l = (m1, .ok ()) ∧ ready E m1 = (m2, .ok ()) ∧ resetIf E m1.net.isSome r m2 = (m3, .ok ()) ∧
      fit E m l r train val = fitLoops E m3 train val := by
  unfold fit at h ⊢
  rcases h1 : setLabelsIf m l with ⟨m1, _ | _⟩ <;> rw [h1] at h
  · exact nomatch h
  · simp only at h ⊢
    rcases h2 : ready E m1 with ⟨m2, _ | _⟩ <;> rw [h2] at h
    · exact nomatch h
    · simp only at h ⊢
      rcases h3 : resetIf E m1.net.isSome r m2 with ⟨m3, _ | _⟩ <;> rw [h3] at h
      · exact nomatch h
      · exact ⟨m1, m2, m3, rfl, h2, h3, rfl⟩

theorem fitLoops_fields (E : Env W R) (m : Model W) (train : List (List Sample)) (val : Option (List (List Sample))) :
    (fitLoops E m train val).1.mapping = m.mapping ∧ (fitLoops E m train val).1.params = m.params ∧
      (fitLoops E m train val).1.kind = m.kind := by
  unfold fitLoops
  cases m.net with
  | none => exact ⟨rfl, rfl, rfl⟩
  | some net =>
    simp only
    cases (trainAll E net none train).2 with
    | none => exact ⟨rfl, rfl, rfl⟩
    | some s =>
      cases val with
      | none => exact ⟨rfl, rfl, rfl⟩
      | some v =>
        simp only
        cases validate E (trainAll E net none train).1 (LabelMap.numLabels m.mapping) v <;> exact ⟨rfl, rfl, rfl⟩

end Verif.Network
