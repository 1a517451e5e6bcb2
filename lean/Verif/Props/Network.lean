import Mathlib.Tactic.Ring
import Verif.Lemmas.NetworkRun

/-!
# The networks of the character models (C87)
-/

namespace Verif.Props.Network

open Verif Verif.Network Verif.Spec.Network Verif.Spec.CharProcess

variable {W R : Type}

/-! ### What the network is given -/

/-- The encoding layer gives the codes of the first characters, and no other list is. -/
theorem C87_encode (c n : ℕ) (text codes : List ℕ) : encode c n text = codes ↔ Codes c n text codes := by
  constructor
  · rintro rfl
    exact ⟨encode_length c n text, fun i hi => encode_get c n text i hi⟩
  · rintro ⟨h1, h2⟩
    apply List.ext_getElem?
    intro i
    by_cases hi : i < n
    · rw [encode_get c n text i hi, h2 i hi]
    · rw [List.getElem?_eq_none (by rw [encode_length]; omega), List.getElem?_eq_none (by omega)]

/-- Every code has a row of the embedding; two texts are the same to the network exactly if their first characters are, all characters
from the largest code on being one. -/
theorem C87_same (c n : ℕ) (s t : List ℕ) : (∀ x ∈ encode c n s, x < c + 2) ∧
    (encode c n s = encode c n t ↔ (s.take n).map (min · c) = (t.take n).map (min · c)) :=
  ⟨encode_lt c n s, encode_eq_iff c n s t⟩

/-- Texts of known characters that are not too long are told apart, even if one is a part of the other. -/
theorem C87_distinct {c n : ℕ} {s t : List ℕ} (hs : s.length ≤ n ∧ ∀ x ∈ s, x ≤ c) (ht : t.length ≤ n ∧ ∀ x ∈ t, x ≤ c)
    (h : encode c n s = encode c n t) : s = t := by
  have := (encode_eq_iff c n s t).1 h
  rw [List.take_of_length_le hs.1, List.take_of_length_le ht.1] at this
  have e : ∀ u : List ℕ, (∀ x ∈ u, x ≤ c) → u.map (min · c) = u := fun u hu => by
    conv_rhs => rw [← List.map_id u]
    exact List.map_congr_left fun x hx => min_eq_left (hu x hx)
  rw [e s hs.2, e t ht.2] at this
  exact this

example : encode 127 6 [97, 98, 233] = [98, 99, 128, 0, 0, 0] ∧ encode 127 2 [97, 98, 99] = [98, 99] := by decide

/-- Rows of the embedding: a character below the largest code has its vector if there is one; the padding, and the characters from the
largest code on, have none. -/
theorem C87_embedding {V : Type} (glove : ℕ → Option V) (zero : V) (c : ℕ) :
    (∀ x < c, embedRow glove zero c (x + 1) = (glove x).getD zero) ∧ embedRow glove zero c 0 = zero ∧
      embedRow glove zero c (c + 1) = zero := by
  have key : ∀ (x c : ℕ), (List.range c).filter (fun y => decide (y + 1 = x + 1)) = if x < c then [x] else [] := by
    intro x c
    induction c with
    | zero => rfl
    | succ c ih =>
      rw [List.range_succ, List.filter_append, ih]
      by_cases h1 : x < c
      · simp [h1, show ¬ c = x by omega, show x < c + 1 by omega]
      · by_cases h2 : x = c
        · subst h2; simp
        · simp [h1, show ¬ c = x by omega, show ¬ x < c + 1 by omega]
  refine ⟨fun x hx => ?_, ?_, ?_⟩
  · unfold embedRow
    rw [key, if_pos hx]
    cases h : glove x <;> simp [h]
  · unfold embedRow
    rw [show (List.range c).filter (fun y => decide (y + 1 = 0)) = [] by simp]
    rfl
  · unfold embedRow
    rw [key, if_neg (lt_irrefl c)]
    rfl

/-- The layer of thresholds returns the label of the largest confidence if that reaches the threshold of the label, and the default
otherwise; without thresholds and with confidences that are not negative, the label of the largest confidence. -/
theorem C87_threshold (thresholds : List ℚ) (d : ℕ) {row : List ℚ} {k : ℕ} (hb : Best row k) :
    threshArgMax thresholds d row = (if thresholds.getD k 0 ≤ row.getD k 0 then (k : ℤ) else d) ∧
      ((∀ x ∈ row, 0 ≤ x) → threshArgMax (List.replicate row.length 0) d row = k) := by
  obtain ⟨hk, h1, h2⟩ := hb
  have hne : row ≠ [] := by rintro rfl; simp at hk
  obtain ⟨hi, e1, e2⟩ := argmax_spec hne
  have hl : row[k] = largest row := le_antisymm ((largest_spec hne).2 _ (List.getElem_mem hk)) (h1 _ (largest_spec hne).1)
  have hak : argmax row = k := by
    rcases lt_trichotomy (argmax row) k with h | h | h
    · have := h2 _ h
      rw [e1, hl] at this
      exact absurd this (lt_irrefl _)
    · exact h
    · have := e2 _ h
      rw [hl] at this
      exact absurd this (lt_irrefl _)
  have hg : row.getD k 0 = largest row := by rw [List.getD_eq_getElem?_getD, List.getElem?_eq_getElem hk, Option.getD_some, hl]
  constructor
  · unfold threshArgMax
    rw [hak, hg]
    simp only [ge_iff_le]
    split_ifs <;> simp
  · intro h0
    unfold threshArgMax
    rw [hak]
    have : 0 ≤ largest row := h0 _ (largest_spec hne).1
    have h3 : (List.replicate row.length (0 : ℚ)).getD k 0 = 0 := by
      rw [List.getD_eq_getElem?_getD]
      simp [hk]
    simp only [h3, ge_iff_le, this, if_true]
    ring

example : Best [0, 3, 3] 1 ∧ threshArgMax [1, 5, 1] 0 [0, 3, 3] = 0 ∧ threshArgMax [1, 2, 1] 0 [0, 3, 3] = 1 := by
  refine ⟨⟨by decide, ?_, ?_⟩, by decide +kernel, by decide +kernel⟩
  · intro x hx
    simp only [List.mem_cons, List.not_mem_nil, or_false] at hx
    rcases hx with rfl | rfl | rfl <;> decide +kernel
  · intro j hj
    obtain rfl : j = 0 := by omega
    show (0 : ℚ) < 3
    decide +kernel

/-! ### Predictions -/

/-- After any history, predictions are made only by a network made for the labels as they are: it has as many outputs as there are
labels. -/
theorem C87_current (E : Env W R) {k : Kind W} (hk : Adaptable k) {p : Params} {g : LabelMap.Given String} {m : Model W}
    (hm : new k p g = .ok m) (ops : List Op) {size : ℕ} {batches : List (List (List ℕ))} {r : List (List ℕ)}
    (hp : (predict E (after E m ops) size batches).2 = .ok r) :
    ∃ net, (predict E (after E m ops) size batches).1.net = some net ∧ outputs net = LabelMap.numLabels (after E m ops).mapping := by
  have hi := after_inv E (new_inv hm hk (Good := fun _ => True) trivial) ops fun _ _ => trivial
  have hc := predict_current E hi hp
  obtain ⟨net, hn⟩ := Option.isSome_iff_exists.1 hc.1
  refine ⟨net, hn, ?_⟩
  rw [outputs_shape ((predict_inv E hi size batches).2.2 net hn), hc.2.1, predict_state]
  cases (after E m ops).kind with
  | cnn => rfl
  | loaded b h =>
    simp only
    unfold able
    cases hn : (after E m ops).net with
    | none =>
      cases hd : (after E m ops).dfltNow with
      | none => simp only [construct_none E hd]
      | some d => simp only [(construct_ok E hi hd).1]; rfl
    | some net => simp only; rcases need (after E m ops) with e | (_ | _) <;> rfl

/-- The network made by the class: after any history that does not change the length and the largest code, a model made for its labels
predicts, and each character gets the label of its largest confidence; characters beyond the length get none. -/
theorem C87_predict_partial (E : Env W R) (hE : Sound E) {p : Params} {g : LabelMap.Given String} {m : Model W} (hm : new .cnn p g = .ok m)
    (ops : List Op) (hops : ∀ q ∈ given ops, q.maxLen = p.maxLen ∧ q.maxCode = p.maxCode) (hc : Current (after E m ops)) {size : ℕ}
    (hs : 0 < size) {batches : List (List (List ℕ))} (hf : Full size batches) :
    ∃ net r, (after E m ops).net = some net ∧ predict E (after E m ops) size batches = (after E m ops, .ok r) ∧
      List.Forall₂ (fun text row => ∃ codes, Codes p.maxCode p.maxLen text codes ∧
        Answers ((E.forward net codes).take text.length) row ∧ row.length = min text.length p.maxLen) batches.flatten r := by
  have hi := after_inv E (new_inv hm (k := .cnn) trivial (Good := fun q => q.maxLen = p.maxLen ∧ q.maxCode = p.maxCode) ⟨rfl, rfl⟩) ops hops
  have hk : (after E m ops).kind = .cnn := (after_kind E m ops).trans (new_kind hm)
  obtain ⟨net, hn⟩ := Option.isSome_iff_exists.1 hc.1
  have hsh := hi.2.2 net hn
  have ho : 0 < outputs net := by
    rw [outputs_shape hsh, hc.2.1]
    exact numLabels_pos _
  unfold Shape at hsh
  rw [hk] at hsh
  obtain ⟨q, k, d, ⟨hq1, hq2⟩, _, hsig⟩ := hsh
  have hseen : ∀ t, seen net t = encode p.maxCode p.maxLen t := fun t => by rw [seen_cnn hsig, hq1, hq2]
  have hlen : ∀ t, (seen net t).length = (after E m ops).params.maxLen := fun t => by
    rw [hseen, encode_length, hi.1.1]
  refine ⟨net, batches.flatten.map fun t => (labelled E net t).take t.length, hn, ?_, ?_⟩
  · unfold predict
    rw [hk]
    simp only
    rw [predictCnn_ok E hE hc hn hlen hs hf]
  · rw [List.forall₂_map_right_iff, List.forall₂_same]
    intro t _
    refine ⟨encode p.maxCode p.maxLen t, (C87_encode _ _ _ _).1 rfl, ?_, ?_⟩
    · have := answers_labelled hE ho t
      rw [hseen] at this
      exact List.forall₂_take t.length this
    · rw [List.length_take, labelled_length hE, hseen, encode_length]

/-- A network that knows nothing but how many labels there are. -/
def env0 : Env Unit Unit :=
  ⟨fun _ _ => (), fun _ _ => (), fun net codes => codes.map fun _ => List.replicate (outputs net) 0, fun _ _ => (fun _ => (), ⟨0, 0, 0, 0⟩),
    fun _ _ _ => .ok ()⟩

example : Sound env0 := fun net codes => ⟨by simp [env0], by simp [env0]⟩

/-- Default parameters, with a smaller network. -/
def params0 : Params := ⟨3400, 127, 64, [48, 48], [96, 96], true, "UNKNOWN"⟩

/-- A model that was made for its labels. -/
def model0 : Except Err (Model Unit) := new .cnn params0 (.list ["UNKNOWN", "NAME"])

instance (m : Model W) : Decidable (Current m) := by unfold Current; infer_instance

/-- It predicts after being trained. -/
example : ∃ m, model0 = .ok m ∧ Current (after env0 m [.fit none false [[⟨[97], [[0, 0, 1]]⟩]] none]) ∧
    Full 2 [[[97, 98], [99]], [[100]]] :=
  ⟨_, rfl, by decide +kernel, by simp [Full]⟩

/-- A loaded network: predictions are the labels of the largest confidences of all characters, for batches of any sizes; it is made when
it is first asked. -/
theorem C87_loaded (E : Env W R) (hE : Sound E) {b : Net W} {h : Layer W} (hk : Adaptable (.loaded b h)) {p : Params}
    {g : LabelMap.Given String} {m : Model W} (hm : new (.loaded b h) p g = .ok m) (ops : List Op) (size : ℕ)
    (batches : List (List (List ℕ))) :
    ((∃ r, (predict E (after E m ops) size batches).2 = .ok r) ↔
      Current (after E m ops) ∨ (after E m ops).net = none ∧
        (PyDict.get? (after E m ops).mapping (after E m ops).params.dflt).isSome) ∧
    ∀ r, (predict E (after E m ops) size batches).2 = .ok r → ∃ net, (predict E (after E m ops) size batches).1.net = some net ∧
      List.Forall₂ (fun text row => Answers (E.forward net (seen net text)) row) batches.flatten r := by
  have hi := after_inv E (new_inv hm hk (Good := fun _ => True) trivial) ops fun _ _ => trivial
  have hkind : (after E m ops).kind = .loaded b h := (after_kind E m ops).trans (new_kind hm)
  generalize after E m ops = n at hi hkind ⊢
  have hp : predict E n size batches = predictLoaded E n batches := by
    unfold predict
    rw [hkind]
  rw [hp]
  have main : ∀ n', able E n = (n', .ok ()) → ∃ net, n'.net = some net ∧ 0 < outputs net ∧
      predictLoaded E n batches = (n', .ok (batches.flatten.map fun t => labelled E net t)) := by
    intro n' ha
    have hc := able_ok E hi ha
    have hi' := able_inv E hi
    rw [ha] at hi'
    obtain ⟨net, hn⟩ := Option.isSome_iff_exists.1 hc.1
    refine ⟨net, hn, ?_, predictLoaded_ok E ha hn batches⟩
    rw [outputs_shape (hi'.2.2 net hn), hc.2.1]
    exact numLabels_pos _
  constructor
  · constructor
    · rintro ⟨r, hr⟩
      rcases ha : able E n with ⟨n', _ | u⟩
      · unfold predictLoaded at hr
        rw [ha] at hr
        exact nomatch hr
      · have hc := able_ok E hi ha
        unfold able at ha
        cases hn : n.net with
        | none =>
          right
          refine ⟨rfl, ?_⟩
          cases hd : n.dfltNow with
          | none =>
            rw [hn] at ha
            simp only [construct_none E hd] at ha
            exact nomatch (Prod.ext_iff.1 ha).2
          | some d => rw [show PyDict.get? n.mapping n.params.dflt = some d from hd]; rfl
        | some net =>
          left
          rw [hn] at ha
          rcases hx : need n with e | (_ | _) <;> rw [hx] at ha
          · exact nomatch (Prod.ext_iff.1 ha).2
          · obtain rfl := (Prod.ext_iff.1 ha).1
            exact hc
          · exact nomatch (Prod.ext_iff.1 ha).2
    · intro hor
      have : ∃ n', able E n = (n', .ok ()) := by
        unfold able
        rcases hor with hc | ⟨hn, hd⟩
        · obtain ⟨net, hn⟩ := Option.isSome_iff_exists.1 hc.1
          rw [hn]
          simp only [need_false hc]
          exact ⟨_, rfl⟩
        · obtain ⟨d, hd⟩ := Option.isSome_iff_exists.1 hd
          rw [hn]
          exact ⟨_, (construct_ok E hi hd).1⟩
      obtain ⟨n', ha⟩ := this
      obtain ⟨net, _, _, he⟩ := main n' ha
      exact ⟨_, by rw [he]⟩
  · intro r hr
    rcases ha : able E n with ⟨n', _ | u⟩
    · unfold predictLoaded at hr
      rw [ha] at hr
      exact nomatch hr
    · obtain ⟨net, hn, ho, he⟩ := main n' ha
      rw [he] at hr ⊢
      obtain rfl := (Except.ok.inj hr).symm
      refine ⟨net, hn, ?_⟩
      rw [List.forall₂_map_right_iff, List.forall₂_same]
      exact fun t _ => answers_labelled hE ho t

/-- A network of a file with one layer before that of the labels. -/
def loaded0 : Kind Unit := .loaded [⟨.conv, ("conv1d", 0), 8, ()⟩] ⟨.dense, ("softmax_output", 0), 3, ()⟩

example : Adaptable loaded0 ∧ ∃ m, new loaded0 params0 (.list ["UNKNOWN", "NAME", "DATE"]) = .ok m ∧
    Current (after env0 m [.fit (some (.list ["NAME", "UNKNOWN"])) false [[⟨[97], [[0, 1]]⟩]] none]) ∧
    ∃ x, (fit env0 m (some (.list ["NAME", "UNKNOWN"])) false [[⟨[97], [[0, 1]]⟩]] none).2 = .ok x :=
  ⟨by unfold loaded0 Adaptable; decide, _, rfl, by decide +kernel, _, rfl⟩

/-- Every number predicted is that of a label, or below one. -/
theorem C87_numbers (E : Env W R) (hE : Sound E) {net : Net W} {mapping : PyDict String ℕ} (hl : mapping ≠ [])
    (ho : outputs net = LabelMap.numLabels mapping) {codes row : List ℕ} (ha : Answers (E.forward net codes) row) :
    ∀ k ∈ row, (∃ x ∈ mapping, k ≤ x.2) ∧ ((∀ j, (∃ x ∈ mapping, j ≤ x.2) → ∃ x ∈ mapping, x.2 = j) → ∃ x ∈ mapping, x.2 = k) := by
  intro k hk
  have : ∃ conf ∈ E.forward net codes, Best conf k := by
    unfold Answers at ha
    generalize E.forward net codes = cs at ha
    induction ha with
    | nil => exact nomatch hk
    | cons h _ ih =>
      rcases List.mem_cons.1 hk with rfl | hk
      · exact ⟨_, List.mem_cons_self, h⟩
      · obtain ⟨c, hc, hb⟩ := ih hk
        exact ⟨c, List.mem_cons_of_mem _ hc, hb⟩
  obtain ⟨conf, hc, hlt, _⟩ := this
  rw [(hE net codes).2 conf hc, ho] at hlt
  obtain ⟨l, hl⟩ := LabelMap.num_mem hl
  have h1 : ∃ x ∈ mapping, k ≤ x.2 := ⟨_, hl, by show k ≤ LabelMap.numLabels mapping - 1; omega⟩
  exact ⟨h1, fun h => h k h1⟩

/-- Nothing is predicted with a network for another number of labels. -/
theorem C87_relabel (E : Env W R) {k : Kind W} (hk : Adaptable k) {p : Params} {g : LabelMap.Given String} {m : Model W}
    (hm : new k p g = .ok m) (ops : List Op) {net : Net W} (hn : (after E m ops).net = some net)
    (ho : outputs net ≠ LabelMap.numLabels (after E m ops).mapping) (size : ℕ) (batches : List (List (List ℕ))) :
    ∃ e, predict E (after E m ops) size batches = (after E m ops, .error e) := by
  have hi := after_inv E (new_inv hm hk (Good := fun _ => True) trivial) ops fun _ _ => trivial
  generalize after E m ops = n at hi hn ho ⊢
  have hc : ¬ Current n := fun hc => ho (by rw [outputs_shape (hi.2.2 net hn), hc.2.1])
  have hneed : (∃ e, need n = .error e) ∨ need n = .ok true := by
    cases hd : n.dfltNow with
    | none => exact .inl ⟨_, need_none hn hd⟩
    | some d => exact .inr (need_true hn hd hc)
  unfold predict
  cases n.kind with
  | cnn =>
    simp only [predictCnn, hn]
    rcases hneed with ⟨e, h⟩ | h <;> simp only [h] <;> exact ⟨_, rfl⟩
  | loaded b h =>
    simp only [predictLoaded, able, hn]
    rcases hneed with ⟨e, h⟩ | h <;> simp only [h] <;> exact ⟨_, rfl⟩

/-! ### Training -/

/-- Training starts from the network there is, if it was made for the labels; otherwise only the layers for labels are new; with
`reset_weights`, or without a network, everything is.  Afterwards the network is made for the labels. -/
theorem C87_fit (E : Env W R) {k : Kind W} (hk : Adaptable k) {p : Params} {g : LabelMap.Given String} {m : Model W}
    (hm : new k p g = .ok m) (ops : List Op) {l : Option (LabelMap.Given String)} {r : Bool} {train : List (List Sample)}
    {val : Option (List (List Sample))} {x : Fitted R} (h : (fit E (after E m ops) l r train val).2 = .ok x) :
    Current (fit E (after E m ops) l r train val).1 ∧ ∃ net0 net', (fit E (after E m ops) l r train val).1.net = some net' ∧
      Trained E net0 train net' ∧ outputs net' = LabelMap.numLabels (fit E (after E m ops) l r train val).1.mapping ∧
      ((after E m ops).net = none ∨ r = true → Fresh E k (after E m ops).params net0) ∧
      ∀ net, (after E m ops).net = some net → r = false →
        (Current (setLabelsIf (after E m ops) l).1 → net0 = net) ∧ (¬ Current (setLabelsIf (after E m ops) l).1 → Adapted E net net0) := by
  have hi := after_inv E (new_inv hm hk (Good := fun _ => True) trivial) ops fun _ _ => trivial
  have hkind : (after E m ops).kind = k := (after_kind E m ops).trans (new_kind hm)
  have hif := fit_inv E hi l r train val
  generalize after E m ops = n at hi hkind h hif ⊢
  obtain ⟨m1, m2, m3, h1, h2, h3, h4⟩ := fit_steps E h
  have f1 := setLabelsIf_fields n l
  rw [h1] at f1
  obtain ⟨fk, fp, fn, fl, fd⟩ := f1
  have i1 : Network.Inv (fun _ => True) m1 := inv_of hi fk trivial fn fl fd
  have i2 := ready_inv E i1
  rw [h2] at i2
  have c2 := ready_current E i1 h2
  obtain ⟨e1, e2, e3, net2, hn2, r1, r2, r3⟩ := ready_cases E i1 h2
  -- what training starts from
  have start : ∃ net0, m3.net = some net0 ∧ Current m3 ∧ (n.net = none ∨ r = true → Fresh E k n.params net0) ∧
      ∀ net, n.net = some net → r = false → (Current m1 → net0 = net) ∧ (¬ Current m1 → Adapted E net net0) := by
    unfold resetIf at h3
    rw [show m1.net = n.net from fn] at h3
    by_cases hb : (n.net.isSome && r) = true
    · rw [if_pos hb] at h3
      simp only [Bool.and_eq_true] at hb
      obtain ⟨d, hd⟩ := Option.isSome_iff_exists.1 c2.2.2.2
      rw [(construct_ok E i2 hd).1] at h3
      simp only [Prod.mk.injEq, and_true] at h3
      subst h3
      refine ⟨_, rfl, current_withNet hd, fun _ => ?_, fun net _ hr => ?_⟩
      · have := fresh_made E m2 d
        rw [e3, e2, fk, fp, hkind] at this
        exact this
      · rw [hb.2] at hr; exact nomatch hr
    · rw [if_neg hb] at h3
      simp only [Prod.mk.injEq, and_true] at h3
      subst h3
      refine ⟨net2, hn2, c2, fun hor => ?_, fun net hn _ => ⟨fun hc => r2 net (by rw [fn]; exact hn) hc, fun hc => r3 net (by rw [fn]; exact hn) hc⟩⟩
      have hnone : n.net = none := by
        rcases hor with h | h
        · exact h
        · rw [h, Bool.and_true, Bool.not_eq_true, Option.isSome_eq_false_iff, Option.isNone_iff_eq_none] at hb
          exact hb
      have := r1 (by rw [fn]; exact hnone)
      rw [fk, fp, hkind] at this
      exact this
  obtain ⟨net0, s1, s2, s3, s4⟩ := start
  rw [h4] at hif ⊢
  obtain ⟨net', t1, t2⟩ := fitLoops_trained E s1 train val
  have hc := fitLoops_current E s2 train val
  refine ⟨hc, net0, net', t1, t2, ?_, s3, ?_⟩
  · rw [outputs_shape (hif.2.2 net' t1), hc.2.1]
  · rw [h1]
    exact s4

/-- A network with at most two dense layers before the labels can be trained for any labels that have the default label: `fit` returns
if there is a batch and the evaluation does. -/
theorem C87_trains_partial (E : Env W R) {k : Kind W} (hk : Adaptable k) {p : Params} {g : LabelMap.Given String} {m : Model W}
    (hm : new k p g = .ok m) (hp : p.dense.length ≤ 2) (ops : List Op) (hops : ∀ q ∈ given ops, q.dense.length ≤ 2) (r : Bool)
    (hd : (PyDict.get? (after E m ops).mapping (after E m ops).params.dflt).isSome) {train : List (List Sample)} (ht : train ≠ [])
    {val : Option (List (List Sample))} (hv : ∀ v, val = some v → v ≠ [] ∧ ∀ a b n, ∃ r, E.evaluate a b n = .ok r) :
    ∃ x, (fit E (after E m ops) none r train val).2 = .ok x := by
  have hi := after_inv E (new_inv hm hk (Good := fun q => q.dense.length ≤ 2) hp) ops hops
  generalize after E m ops = n at hi hd ⊢
  obtain ⟨d, hd⟩ := Option.isSome_iff_exists.1 hd
  have hr : ∃ n', ready E n = (n', .ok ()) := by
    unfold ready
    cases hn : n.net with
    | none => exact ⟨_, (construct_ok E hi hd).1⟩
    | some net =>
      simp only
      by_cases hc : Current n
      · rw [need_false hc]; exact ⟨_, rfl⟩
      · rw [need_true hn hd hc]
        simp only
        have hs := hi.2.2 net hn
        unfold Shape at hs
        rcases hkk : n.kind with _ | ⟨b, h⟩
        · simp only [hkk] at hs
          obtain ⟨q, k', d', hq, _, hs⟩ := hs
          exact ⟨_, (reconstruct_cnn E hd hkk (p := q) rfl hs).1 hq⟩
        · simp only [hkk] at hs
          obtain ⟨k', d', _, hs⟩ := hs
          exact ⟨_, (reconstruct_loaded E hd hkk hi.2.1 hs).1⟩
  obtain ⟨n', hr⟩ := hr
  have i2 := ready_inv E hi
  rw [hr] at i2
  have c2 := ready_current E hi hr
  have : ∃ n3 net, resetIf E n.net.isSome r n' = (n3, .ok ()) ∧ n3.net = some net := by
    unfold resetIf
    split_ifs
    · obtain ⟨d', hd'⟩ := Option.isSome_iff_exists.1 c2.2.2.2
      exact ⟨_, _, (construct_ok E i2 hd').1, rfl⟩
    · obtain ⟨net, hn⟩ := Option.isSome_iff_exists.1 c2.1
      exact ⟨_, net, rfl, hn⟩
  obtain ⟨n3, net, h3, hn3⟩ := this
  obtain ⟨x, hx⟩ := fitLoops_ok E hn3 ht hv
  refine ⟨x, ?_⟩
  unfold fit setLabelsIf
  simp only [hr, h3]
  exact hx

/-- Refused labels leave the model as it was, also when they are given to `fit`. -/
theorem C87_refused (E : Env W R) {m : Model W} {g : LabelMap.Given String} {e : Err} (h : (setLabels m g).2 = .error e) (r : Bool)
    (train : List (List Sample)) (val : Option (List (List Sample))) :
    (setLabels m g).1 = m ∧ (fit E m (some g) r train val).1 = m ∧ ∃ e', (fit E m (some g) r train val).2 = .error e' := by
  have h1 : setLabels m g = (m, .error e) := by
    unfold setLabels at h ⊢
    cases hm : mappingOf m.kind m.params.dflt g with
    | error e' => rw [hm] at h; injection h with h; subst h; rfl
    | ok l => rw [hm] at h; exact nomatch h
  refine ⟨by rw [h1], ?_⟩
  unfold fit setLabelsIf
  simp only [h1]
  exact ⟨trivial, e, rfl⟩

/-- Epochs are counted from the last time the network, or a part of it, was made. -/
theorem C87_epochs (E : Env W R) {m : Model W} {l : Option (LabelMap.Given String)} {r : Bool} {train : List (List Sample)}
    {val : Option (List (List Sample))} {x : Fitted R} (h : (fit E m l r train val).2 = .ok x) :
    (Current (setLabelsIf m l).1 ∧ r = false → (fit E m l r train val).1.epoch = m.epoch + 1) ∧
    (¬ (Current (setLabelsIf m l).1 ∧ r = false) → (fit E m l r train val).1.epoch = 1) := by
  obtain ⟨m1, m2, m3, h1, h2, h3, h4⟩ := fit_steps E h
  rw [h4] at h ⊢
  rw [h1]
  have he : m1.epoch = m.epoch := by
    have : (setLabelsIf m l).1.epoch = m.epoch := by
      cases l with
      | none => rfl
      | some g => unfold setLabelsIf setLabels; dsimp only; split <;> rfl
    rwa [h1] at this
  have hcon : ∀ {a b : Model W}, construct E a = (b, .ok ()) → b.epoch = 0 := by
    intro a b hc
    unfold construct at hc
    split at hc
    · exact nomatch (Prod.mk.inj hc).2
    · dsimp only at hc
      split at hc <;> split at hc
      all_goals first
        | (rw [← (Prod.mk.inj hc).1]; rfl)
        | (have := (Prod.mk.inj hc).2; cases this; done)
  have hlast : (fitLoops E m3 train val).1.epoch = m3.epoch + 1 := by
    unfold fitLoops at h ⊢
    cases hn : m3.net with
    | none => rw [hn] at h; exact nomatch h
    | some net =>
      rw [hn] at h
      simp only at h ⊢
      cases hs : (trainAll E net none train).2 with
      | none => rw [hs] at h; exact nomatch h
      | some s =>
        rw [hs] at h
        simp only at h ⊢
        cases val with
        | none => rfl
        | some v =>
          simp only at h ⊢
          cases hv : validate E (trainAll E net none train).1 (LabelMap.numLabels m3.mapping) v with
          | error e => rw [hv] at h; exact nomatch h
          | ok y => rfl
  rw [hlast]
  have hready : (Current m1 → m2 = m1) ∧ (¬ Current m1 → m2.epoch = 0) := by
    unfold ready at h2
    cases hn : m1.net with
    | none =>
      rw [hn] at h2
      exact ⟨fun hc => (nomatch hn ▸ hc.1), fun _ => hcon h2⟩
    | some net =>
      rw [hn] at h2
      simp only at h2
      refine ⟨fun hc => ?_, fun hc => ?_⟩
      · rw [need_false hc] at h2
        simp only [Prod.mk.injEq, and_true] at h2
        exact h2.symm
      · cases hd : m1.dfltNow with
        | none => unfold need at h2; rw [hn, hd] at h2; exact nomatch h2
        | some d =>
          rw [need_true hn hd hc] at h2
          simp only at h2
          rw [reconstruct_eq E net hd] at h2
          cases hk : checked (remade E m1 net d) with
          | error e => rw [hk] at h2; exact nomatch (Prod.mk.inj h2).2
          | ok y => rw [hk] at h2; rw [← (Prod.mk.inj h2).1]; rfl
  have hm3 : (r = false → m3 = m2) ∧ (r = true → m1.net.isSome → m3.epoch = 0) ∧ (m1.net = none → m3 = m2) := by
    unfold resetIf at h3
    refine ⟨fun hr => ?_, fun hr hn => ?_, fun hn => ?_⟩
    · rw [hr, Bool.and_false, if_neg (by decide)] at h3
      exact (Prod.mk.inj h3).1.symm
    · rw [hr, hn] at h3
      exact hcon h3
    · rw [hn] at h3
      exact (Prod.mk.inj h3).1.symm
  refine ⟨fun hc => ?_, fun hc => ?_⟩
  · rw [hm3.1 hc.2, hready.1 hc.1, he]
  · by_cases hcur : Current m1
    · have hr : r = true := by
        cases r with
        | true => rfl
        | false => exact absurd ⟨hcur, rfl⟩ hc
      rw [hm3.2.1 hr hcur.1]
    · cases hn : m1.net with
      | none => rw [hm3.2.2 hn, hready.2 hcur]
      | some net =>
        cases r with
        | false => rw [hm3.1 rfl, hready.2 hcur]
        | true => rw [hm3.2.1 rfl (by rw [hn]; rfl)]

/-- Labels that are no labels are refused; two epochs, and one after a reset. -/
example : ∃ m, model0 = .ok m ∧ (setLabels m .other).2 = .error .typeError ∧
    (after env0 m [.fit none false [[⟨[97], [[0, 0, 1]]⟩]] none, .fit none false [[⟨[97], [[0, 0, 1]]⟩]] none]).epoch = 2 ∧
    (after env0 m [.fit none false [[⟨[97], [[0, 0, 1]]⟩]] none, .fit none true [[⟨[97], [[0, 0, 1]]⟩]] none]).epoch = 1 :=
  ⟨_, rfl, rfl, by decide +kernel, by decide +kernel⟩

/-- The evaluation is that of all samples, whatever the batches. -/
theorem C87_validation (E : Env W R) (net : Net W) (n : ℕ) {bs bs' : List (List Sample)} (h : bs.flatten = bs'.flatten) (h1 : bs ≠ [])
    (h2 : bs' ≠ []) : validate E net n bs = validate E net n bs' := by
  have e : ∀ (x : List (List Sample)), x ≠ [] → validate E net n x = E.evaluate (x.flatten.map fun s => labelled E net s.text)
      (x.flatten.map fun s => s.labels.map argmax) n := by
    intro x hx
    cases x with
    | nil => exact absurd rfl hx
    | cons a t => simp only [validate, List.map_flatten]
  rw [e bs h1, e bs' h2, h]

/-! ### What does not hold -/

/-- A network with three or more dense layers cannot be trained for other labels: two layers would have the name `dense_2`.  It stays as
it is, and predicts nothing. -/
theorem C87_deep_fails (E : Env W R) {p : Params} {g : LabelMap.Given String} {m : Model W} (hm : new .cnn p g = .ok m)
    (hp : 2 < p.dense.length) (ops : List Op) (hops : ∀ q ∈ given ops, 2 < q.dense.length) {net : Net W}
    (hn : (after E m ops).net = some net) {d : ℕ} (hd : PyDict.get? (after E m ops).mapping (after E m ops).params.dflt = some d)
    (hc : ¬ Current (after E m ops)) (r : Bool) (train : List (List Sample)) (val : Option (List (List Sample))) (size : ℕ)
    (batches : List (List (List ℕ))) :
    fit E (after E m ops) none r train val = (after E m ops, .error .valueError) ∧
      predict E (after E m ops) size batches = (after E m ops, .error .exception) := by
  have hi := after_inv E (new_inv hm (k := .cnn) trivial (Good := fun q => 2 < q.dense.length) hp) ops hops
  have hk : (after E m ops).kind = .cnn := (after_kind E m ops).trans (new_kind hm)
  generalize after E m ops = n at hi hk hn hd hc ⊢
  have hneed := need_true hn hd hc
  constructor
  · have hs := hi.2.2 net hn
    unfold Shape at hs
    simp only [hk] at hs
    obtain ⟨q, k', d', hq, _, hs⟩ := hs
    have hr : ready E n = (n, .error .valueError) := by
      unfold ready
      rw [hn]
      simp only [hneed]
      exact (reconstruct_cnn E hd hk (p := q) rfl hs).2.1 hq
    unfold fit setLabelsIf
    simp only [hr]
  · unfold predict
    rw [hk]
    simp only [predictCnn, hn, hneed]

/-- Such a model. -/
example : ∃ m : Model Unit, new .cnn { params0 with dense := [8, 8, 8] } (.list ["UNKNOWN", "NAME"]) = .ok m ∧
    (after env0 m [.reset, .add (some "DATE") none]).net.isSome ∧ ¬ Current (after env0 m [.reset, .add (some "DATE") none]) :=
  ⟨_, rfl, by decide +kernel, by decide +kernel⟩

/-- The length is not followed: a network made for one length does not predict after the parameter is changed. -/
theorem C87_length_fails (E : Env W R) (hE : Sound E) {p : Params} {g : LabelMap.Given String} {m : Model W} (hm : new .cnn p g = .ok m)
    (ops : List Op) (hops : ∀ q ∈ given ops, q.maxLen = p.maxLen) (hc : Current (after E m ops)) (h1 : p.maxLen ≠ 1) {n : ℕ}
    (hne : n ≠ p.maxLen) (size : ℕ) {batches : List (List (List ℕ))} (hb : batches.flatten ≠ []) :
    (predict E (step E (after E m ops) (.params { (after E m ops).params with maxLen := n })) size batches).2 = .error .valueError := by
  have hi := after_inv E (new_inv hm (k := .cnn) trivial (Good := fun q => q.maxLen = p.maxLen) rfl) ops hops
  have hk : (after E m ops).kind = .cnn := (after_kind E m ops).trans (new_kind hm)
  generalize after E m ops = x at hi hk hc ⊢
  obtain ⟨net, hn⟩ := Option.isSome_iff_exists.1 hc.1
  have hs := hi.2.2 net hn
  unfold Shape at hs
  simp only [hk] at hs
  obtain ⟨q, k', d', hq, _, hs⟩ := hs
  unfold predict step
  simp only [hk]
  exact predictCnn_width E hE (m := { x with params := { x.params with maxLen := n } }) hc hn (n := p.maxLen)
    (fun t => by rw [seen_cnn hs, encode_length, hq]) h1 (Ne.symm hne) size hb

/-- Names can be exchanged without training: if the number of labels and the number of the default label stay the same, the same numbers
are predicted, which now mean other labels. -/
theorem C87_rename_fails (E : Env W R) (m : Model W) (hk : m.kind = .cnn) (l : PyDict String ℕ)
    (h1 : LabelMap.numLabels l = LabelMap.numLabels m.mapping)
    (h2 : PyDict.get? l m.params.dflt = PyDict.get? m.mapping m.params.dflt) (size : ℕ) (batches : List (List (List ℕ))) :
    (predict E { m with mapping := l } size batches).2 = (predict E m size batches).2 := by
  have hneed : need { m with mapping := l } = need m := by
    unfold need Model.dfltNow
    simp only [h1, h2]
  unfold predict predictCnn
  rw [hneed]
  simp only [hk]

/-- Two labels exchanged. -/
example : LabelMap.numLabels [("PAD", 0), ("UNKNOWN", 1), ("NAME", 3), ("DATE", 2)] =
      LabelMap.numLabels [("PAD", 0), ("UNKNOWN", 1), ("NAME", 2), ("DATE", 3)] ∧
    PyDict.get? [("PAD", 0), ("UNKNOWN", 1), ("NAME", 3), ("DATE", 2)] "UNKNOWN" =
      PyDict.get? [("PAD", 0), ("UNKNOWN", 1), ("NAME", 2), ("DATE", 3)] "UNKNOWN" := by decide +kernel

/-- A label number that no label has can be predicted. -/
theorem C87_gap_fails : ∃ (E : Env Unit Unit) (m : Model Unit), Sound E ∧
    new .cnn { params0 with maxLen := 2 } (.dict [("PAD", 0), ("UNKNOWN", 2)]) = .ok m ∧
    (predict E (after E m [.reset]) 1 [[[97]]]).2 = .ok [[1]] ∧ ∀ x ∈ (after E m [.reset]).mapping, x.2 ≠ 1 := by
  refine ⟨{ env0 with forward := fun net codes => codes.map fun _ => (List.range (outputs net)).map fun i => if i = 1 then 1 else 0 }, _,
    ?_, rfl, ?_, ?_⟩
  · exact fun net codes => ⟨by simp, by simp⟩
  · decide +kernel
  · decide +kernel

/-- Training without a batch, and validating without a batch, raise. -/
theorem C87_empty_fails (E : Env W R) (m : Model W) (l : Option (LabelMap.Given String)) (r : Bool) (train : List (List Sample))
    (val : Option (List (List Sample))) (h : train = [] ∨ val = some []) : ∃ e, (fit E m l r train val).2 = .error e := by
  cases hf : (fit E m l r train val).2 with
  | error e => exact ⟨e, rfl⟩
  | ok x =>
    exfalso
    obtain ⟨m1, m2, m3, _, _, _, h4⟩ := fit_steps E hf
    rw [h4] at hf
    unfold fitLoops at hf
    cases hn : m3.net with
    | none => rw [hn] at hf; exact nomatch hf
    | some net =>
      rw [hn] at hf
      simp only at hf
      rcases h with rfl | rfl
      · exact nomatch hf
      · cases hs : (trainAll E net none train).2 with
        | none => rw [hs] at hf; exact nomatch hf
        | some s => rw [hs] at hf; exact nomatch hf

end Verif.Props.Network
