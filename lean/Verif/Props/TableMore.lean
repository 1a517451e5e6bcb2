import Verif.Spec.TableMore
import Verif.Props.TableStats
import Verif.Props.ColumnLabel

/-!
# C98: a table profile reports precision and labels of its columns
-/

namespace Verif.Props.TableMore

open Verif Verif.Table Verif.Schema Verif.SchemaSpec Verif.Column Verif.TableStats Verif.TableMore Verif.Spec.Column Verif.Spec.TableStats
  Verif.Spec.TableMore Verif.Props.TableStats

variable {η : Type} {w : World} {o : Opts} {a : Around η} {x : Setup} {n : ℕ}

/-- The precision is that of values drawn from the decimals of `vs`. -/
def Exact (w : World) (vs : List String) (p : Precision.State) : Prop :=
  ∃ hp : Precision.History, Precision.run hp = .ok p ∧ Precision.Valid hp ∧ PrecisionSpec.Default hp ∧
    PrecisionSpec.values hp = decimals w vs ∧ (vs.length ≤ 20000 → PrecisionSpec.AtMost 20000 hp)

/-- The labels are those of values drawn from `vs`. -/
def Voted (L : Labeler) (n : ℕ) (vs : List String) (c : Labels.Col) : Prop :=
  ∃ hl ys, Labels.run L.order L.labels L.pick hl = .ok c ∧ LabelsSpec.rows hl = ys.map L.conf ∧ ys.Subperm vs ∧ (ys = [] ↔ vs = []) ∧
    (vs.length ≤ n → ys.Perm vs)

/-- The state of a profile is what its class makes of the values, in some way of feeding them. -/
def StandsMore (w : World) (o : Opts) (draw : Draw) (x : Setup) (n : ℕ) (t : String) (s : More) (vs : List String) : Prop :=
  match s with
  | .plain s => t ≠ "float" ∧ t ≠ "data_labeler" ∧ Stands w o draw t s vs
  | .float s p => t = "float" ∧ Stands w o draw t s vs ∧ Exact w vs p
  | .label c => t = "data_labeler" ∧ ∃ L, x.labeler = some L ∧ Voted L n vs c

theorem decimals_append (vs ws : List String) : decimals w (vs ++ ws) = decimals w vs ++ decimals w ws := List.filter_append _ _

theorem exact_update (hx : Sound x n) {vs ws : List String} {p : Precision.State} (h : Exact w vs p) :
    Exact w (vs ++ ws) (Precision.update p ⟨decimals w ws, x.sample (decimals w ws)⟩) := by
  obtain ⟨hp, h1, h2, h3, h4, h5⟩ := h
  obtain ⟨d1, d2⟩ := hx.sample (decimals w ws)
  refine ⟨.update hp ⟨decimals w ws, x.sample (decimals w ws)⟩, ?_, ⟨h2, d1, ?_⟩, h3, ?_, fun hlen => ⟨h5 ?_, ?_⟩⟩
  · rw [Precision.run, h1]; rfl
  · rw [Precision.default_ratio hp h3]
    exact samples_size (e := ⟨fun _ => none, fun _ _ => 0, fun _ _ => 0, none, x.sample⟩) hx.sample _
  · rw [PrecisionSpec.values, h4, decimals_append]
  · rw [List.length_append] at hlen; omega
  · rw [List.length_append] at hlen
    have : (decimals w ws).length ≤ ws.length := List.length_filter_le _ _
    show (decimals w ws).length ≤ 20000
    omega

theorem exact_merge {vs ws : List String} {p q : Precision.State} (h : Exact w vs p) (g : Exact w ws q) :
    ∃ r, Precision.merge p q = .ok r ∧ Exact w (vs ++ ws) r := by
  obtain ⟨hp, h1, h2, h3, h4, h5⟩ := h
  obtain ⟨hq, g1, g2, g3, g4, g5⟩ := g
  have hv : Precision.Valid (.merge hp hq) := ⟨h2, g2⟩
  have hd : PrecisionSpec.Default (.merge hp hq) := ⟨h3, g3⟩
  obtain ⟨r, hr, -⟩ := Precision.run_spec (.merge hp hq) hv (Precision.C36_default_drawn _ hv hd)
  refine ⟨r, ?_, .merge hp hq, hr, hv, hd, ?_, fun hlen => ?_⟩
  · rw [Precision.run, h1, g1] at hr
    exact hr
  · rw [PrecisionSpec.values, h4, g4, decimals_append]
  · rw [List.length_append] at hlen
    exact ⟨h5 (by omega), g5 (by omega)⟩

theorem voted_update {L : Labeler} (hL : Spec.ColumnLabel.Works L n) {vs ws : List String} {c : Labels.Col} (h : Voted L n vs c) :
    Voted L n (vs ++ ws) (L.feed c ws) := by
  obtain ⟨hl, ys, h1, h2, h3, h4, h5⟩ := h
  obtain ⟨d1, d2⟩ := hL.draw ws
  refine ⟨.update hl ((L.draw ws).map L.conf), ys ++ L.draw ws, ?_, ?_, h3.append d1, ?_, fun hlen => ?_⟩
  · rw [Labels.run, h1]
    show Except.ok (Labels.update L.labels L.pick c ((L.draw ws).map L.conf)) = _
    rw [Labeler.feed]
    split_ifs with he
    · rw [List.isEmpty_iff] at he
      subst he
      have hd : L.draw [] = [] := List.length_eq_zero_iff.1 (by rw [d2]; simp)
      rw [hd, Labels.update]
      simp
    · rfl
  · rw [LabelsSpec.rows, h2, List.map_append]
  · rw [List.append_eq_nil_iff, List.append_eq_nil_iff, h4]
    refine and_congr_right fun _ => ?_
    rw [← List.length_eq_zero_iff, d2, ← List.length_eq_zero_iff]
    have := hL.pos
    omega
  · rw [List.length_append] at hlen
    refine (h5 (by omega)).append (d1.perm_of_length_le ?_)
    rw [d2, min_eq_left (by omega)]

theorem voted_inv {L : Labeler} (hL : Spec.ColumnLabel.Works L n) {hl : Labels.History} {ys : List String} {c : Labels.Col}
    (h1 : Labels.run L.order L.labels L.pick hl = .ok c) (h2 : LabelsSpec.rows hl = ys.map L.conf) :
    LabelsSpec.Valid L.labels hl ∧ LabelsSpec.Mergeable hl ∧ Labels.Inv L.labels L.pick (ys.map L.conf) c := by
  have hv : LabelsSpec.Valid L.labels hl := by
    intro row hr
    rw [h2] at hr
    obtain ⟨z, -, rfl⟩ := List.mem_map.1 hr
    exact hL.conf z
  obtain ⟨q1, q2⟩ := LabelsProps.run_inv (pick := L.pick) hL.order hL.labels hl hv
  have hm : LabelsSpec.Mergeable hl := by
    by_contra hc
    rw [q2 hc] at h1
    cases h1
  obtain ⟨d, e1, e2⟩ := q1 hm
  rw [h1] at e1
  cases e1
  exact ⟨hv, hm, h2 ▸ e2⟩

theorem voted_merge {L : Labeler} (hL : Spec.ColumnLabel.Works L n) {vs ws : List String} {c d : Labels.Col} (h : Voted L n vs c)
    (g : Voted L n ws d) : (∀ r, Labels.merge L.order c d = .ok r → Voted L n (vs ++ ws) r) ∧
      ((vs = [] ↔ ws = []) → ∃ r, Labels.merge L.order c d = .ok r) ∧ (¬ (vs = [] ↔ ws = []) → Labels.merge L.order c d = .error .typeError) := by
  obtain ⟨hl, ys, h1, h2, h3, h4, h5⟩ := h
  obtain ⟨hm, zs, g1, g2, g3, g4, g5⟩ := g
  obtain ⟨-, m1, i1⟩ := voted_inv hL h1 h2
  obtain ⟨-, m2, i2⟩ := voted_inv hL g1 g2
  refine ⟨?_, fun hiff => ?_, ?_⟩
  · intro r hr
    refine ⟨.merge hl hm, ys ++ zs, ?_, ?_, h3.append g3, ?_, fun hlen => ?_⟩
    · rw [Labels.run, h1, g1]; exact hr
    · rw [LabelsSpec.rows, h2, g2, List.map_append]
    · rw [List.append_eq_nil_iff, List.append_eq_nil_iff, h4, g4]
    · rw [List.length_append] at hlen
      exact (h5 (by omega)).append (g5 (by omega))
  · obtain ⟨r, hr, -⟩ := (Labels.inv_merge hL.order hL.labels i1 i2).1 (by rwa [List.map_eq_nil_iff, List.map_eq_nil_iff, h4, g4])
    exact ⟨r, hr⟩
  · intro hne
    refine (Labels.inv_merge hL.order hL.labels i1 i2).2 ?_
    rwa [List.map_eq_nil_iff, List.map_eq_nil_iff, h4, g4]

/-- The operations of the column profiles. -/
noncomputable abbrev moreOps (w : World) (o : Opts) (x : Setup) (a : Around η) : Ops More := (moreEnv w o x a).ops

theorem law_more (hv : ∀ k, (o.calcs k).valid = true) (hx : Sound x n) : Law (moreOps w o x a) (StandsMore w o a.draw x n) where
  init t name s h := by
    simp only [moreOps, moreEnv, initMore] at h
    split_ifs at h with h1 h2
    · split at h
      · rename_i L hL
        cases h
        exact ⟨h1, L, hL, .new, [], rfl, rfl, List.Subperm.refl _, Iff.rfl, fun _ => .refl _⟩
      · cases h
    · split at h
      · cases h
      · rename_i s' hs'
        cases h
        exact ⟨h2, (law hv a.draw a.safe).init t name s' hs', .new none, by rw [hx.ratio]; rfl, trivial, rfl, rfl, fun _ => trivial⟩
    · split at h
      · cases h
      · rename_i s' hs'
        cases h
        exact ⟨h2, h1, (law hv a.draw a.safe).init t name s' hs'⟩
  update t s vs ws s' hs h := by
    simp only [moreOps, moreEnv, updateMore] at h
    cases s with
    | plain s =>
      simp only at h
      cases hu : updateStat w a.draw t s ws with
      | error e => rw [hu] at h; cases h
      | ok s2 =>
        rw [hu] at h
        cases h
        exact ⟨hs.1, hs.2.1, (law hv a.draw a.safe).update t s vs ws s2 hs.2.2 hu⟩
    | float s p =>
      simp only at h
      cases hu : updateStat w a.draw t s ws with
      | error e => rw [hu] at h; cases h
      | ok s2 =>
        rw [hu] at h
        cases h
        exact ⟨hs.1, (law hv a.draw a.safe).update t s vs ws s2 hs.2.1 hu, exact_update hx hs.2.2⟩
    | label c =>
      obtain ⟨h1, L, h2, h3⟩ := hs
      rw [h2] at h
      cases h
      exact ⟨h1, L, h2, voted_update (hx.labeler L h2) h3⟩
  merge t s1 s2 vs ws s' h1 h2 h := by
    simp only [moreOps, moreEnv, mergeMore] at h
    cases s1 with
    | plain s =>
      cases s2 with
      | plain s2 =>
        simp only at h
        cases hu : mergeStat w t s s2 with
        | error e => rw [hu] at h; cases h
        | ok r =>
          rw [hu] at h
          cases h
          exact ⟨h1.1, h1.2.1, (law hv a.draw a.safe).merge t s s2 vs ws r h1.2.2 h2.2.2 hu⟩
      | _ => cases h
    | float s p =>
      cases s2 with
      | float s2 q =>
        simp only at h
        cases hu : mergeStat w t s s2 with
        | error e => rw [hu] at h; cases h
        | ok r =>
          obtain ⟨z, z1, z2⟩ := exact_merge h1.2.2 h2.2.2
          rw [hu] at h
          simp only [z1] at h
          cases h
          exact ⟨h1.1, (law hv a.draw a.safe).merge t s s2 vs ws r h1.2.1 h2.2.1 hu, z2⟩
      | _ => cases h
    | label c =>
      cases s2 with
      | label d =>
        obtain ⟨e1, L, e2, e3⟩ := h1
        obtain ⟨f1, M, f2, f3⟩ := h2
        rw [e2] at f2
        cases f2
        simp only [e2] at h
        cases hu : Labels.merge L.order c d with
        | error e => rw [hu] at h; cases h
        | ok r =>
          rw [hu] at h
          cases h
          exact ⟨e1, L, e2, (voted_merge (hx.labeler L e2) e3 f3).1 r hu⟩
      | _ => cases h

/-- Updates never fail. -/
theorem update_more {t : String} {s : More} {vs ws : List String} (hs : StandsMore w o a.draw x n t s vs) :
    ∃ s', (moreOps w o x a).update t s ws = .ok s' := by
  simp only [moreOps, moreEnv, updateMore]
  cases s with
  | plain s =>
    obtain ⟨s', h⟩ := (total (w := w) (o := o) a.draw a.safe).update t s vs ws hs.2.2
    exact ⟨_, by simp only [show updateStat w a.draw t s ws = .ok s' from h]; rfl⟩
  | float s p =>
    obtain ⟨s', h⟩ := (total (w := w) (o := o) a.draw a.safe).update t s vs ws hs.2.1
    exact ⟨_, by simp only [show updateStat w a.draw t s ws = .ok s' from h]; rfl⟩
  | label c =>
    obtain ⟨-, L, h2, -⟩ := hs
    simp only [h2]
    exact ⟨_, rfl⟩

/-- Merges fail for labels of nothing and of something. -/
theorem merge_more (hx : Sound x n) {t : String} {s1 s2 : More} {vs ws : List String} (h1 : StandsMore w o a.draw x n t s1 vs)
    (h2 : StandsMore w o a.draw x n t s2 ws) :
    (∃ s', (moreOps w o x a).merge t s1 s2 = .ok s') ↔ (t = "data_labeler" → (vs = [] ↔ ws = [])) := by
  simp only [moreOps, moreEnv, mergeMore]
  cases s1 with
  | plain s =>
    cases s2 with
    | plain s2 =>
      obtain ⟨s', h⟩ := (total (w := w) (o := o) a.draw a.safe).merge t s s2 vs ws h1.2.2 h2.2.2
      exact ⟨fun _ ht => absurd ht h1.2.1, fun _ => ⟨_, by simp only [show mergeStat w t s s2 = .ok s' from h]; rfl⟩⟩
    | float s2 q => exact absurd h2.1 h1.1
    | label d => exact absurd h2.1 h1.2.1
  | float s p =>
    cases s2 with
    | plain s2 => exact absurd h1.1 h2.1
    | float s2 q =>
      obtain ⟨s', h⟩ := (total (w := w) (o := o) a.draw a.safe).merge t s s2 vs ws h1.2.1 h2.2.1
      obtain ⟨z, z1, -⟩ := exact_merge h1.2.2 h2.2.2
      exact ⟨fun _ ht => absurd (h1.1.symm.trans ht) (by decide),
        fun _ => ⟨_, by simp only [show mergeStat w t s s2 = .ok s' from h, z1]; rfl⟩⟩
    | label d =>
      have := h1.1.symm.trans h2.1
      exact absurd this (by decide)
  | label c =>
    obtain ⟨e1, L, e2, e3⟩ := h1
    cases s2 with
    | plain s2 => exact absurd e1 h2.2.1
    | float s2 q => exact absurd (e1.symm.trans h2.1) (by decide)
    | label d =>
      obtain ⟨f1, M, f2, f3⟩ := h2
      rw [e2] at f2
      cases f2
      simp only [e2]
      obtain ⟨g1, g2, g3⟩ := voted_merge (hx.labeler L e2) e3 f3
      by_cases hne : vs = [] ↔ ws = []
      · obtain ⟨r, hr⟩ := g2 hne
        exact ⟨fun _ _ => hne, fun _ => ⟨_, by rw [hr]; rfl⟩⟩
      · rw [g3 hne]
        refine ⟨?_, fun h => absurd (h e1) hne⟩
        rintro ⟨_, h⟩
        cases h

theorem total_more (hx : Sound x n) (hn : x.labeler = none) : Total (moreOps w o x a) (StandsMore w o a.draw x n) where
  init _ _ _ h := h
  update _ _ _ _ hs := update_more hs
  merge t s1 s2 vs ws h1 h2 := by
    refine (merge_more hx h1 h2).2 fun ht => ?_
    cases s1 with
    | plain s => exact absurd ht h1.2.1
    | float s p => exact absurd (h1.1.symm.trans ht) (by decide)
    | label c =>
      obtain ⟨-, L, e, -⟩ := h1
      rw [hn] at e
      cases e

theorem init_more_iff (t : String) :
    (∃ s, initMore x o t = .ok s) ↔ Known t ∨ (t = "data_labeler" ∧ x.labeler.isSome = true) := by
  unfold initMore
  split_ifs with h1 h2
  · subst h1
    have hk : ¬ Known "data_labeler" := by
      rw [← init_iff (o := o)]
      rintro ⟨s, h⟩
      exact absurd h (by simp [initStat, clsOf])
    cases x.labeler with
    | none => simp [hk]
    | some L => simp
  all_goals
    rw [← init_iff (o := o)]
    cases initStat o t <;> simp [h1]

theorem tells_more (hw : Lists w) (hx : Sound x n) {draw : Draw} {type : String} {s : More} {vs xs : List String} (hp : vs.Perm xs)
    (hst : StandsMore w o draw x n type s vs) : TellsMore w o draw x n xs type s := by
  have hdp : (decimals w vs).Perm (Spec.ColumnHist.written w.number xs) := hp.filter _
  cases s with
  | plain s =>
    obtain ⟨h1, h2, h3⟩ := hst
    exact ⟨fun _ _ => ⟨s, rfl, tells_of hw hp h3⟩, fun h => absurd h h1, fun h => absurd h h2⟩
  | float s p =>
    obtain ⟨h1, h2, hq, q1, q2, q3, q4, q5⟩ := hst
    refine ⟨fun h => absurd h1 h, fun _ => ?_, fun h => absurd (h1.symm.trans h) (by decide)⟩
    obtain ⟨s', u1, -, u3, u4⟩ := Precision.run_spec hq q2 (Precision.C36_default_drawn hq q2 q3)
    rw [q1] at u1
    cases u1
    have hsub : ∀ hp : Precision.History, Precision.Valid hp → (PrecisionSpec.drawn hp).Subperm (PrecisionSpec.values hp) := by
      intro hp hv
      induction hp with
      | new => exact List.Subperm.refl _
      | update hp b ih => exact (ih hv.1).append hv.2.1
      | merge a b ia ib => exact (ia hv.1).append (ib hv.2)
    have hnil : ∀ hp : Precision.History, PrecisionSpec.Drawn hp → PrecisionSpec.drawn hp = [] → PrecisionSpec.values hp = [] := by
      intro hp hd
      induction hp with
      | new => exact fun _ => rfl
      | update hp b ih =>
        intro hc
        simp only [PrecisionSpec.drawn, List.append_eq_nil_iff] at hc
        rw [PrecisionSpec.values, ih hd.1 hc.1]
        by_contra hne
        exact hd.2 (by simpa using hne) hc.2
      | merge a b ia ib =>
        intro hc
        simp only [PrecisionSpec.drawn, List.append_eq_nil_iff] at hc
        rw [PrecisionSpec.values, ia hd.1 hc.1, ib hd.2 hc.2]
        rfl
    rw [← q4] at hdp
    refine ⟨s, p, PrecisionSpec.drawn hq, rfl, tells_of hw hp h2, (hsub hq q2).trans hdp.subperm, ⟨fun hc => ?_, fun hc => ?_⟩,
      fun hlen => (Precision.drawn_perm hq q2 q3 (q5 (hp.length_eq ▸ hlen))).trans hdp, u3, fun hne => ?_⟩
    · have := hnil hq (Precision.C36_default_drawn hq q2 q3) hc
      rw [this] at hdp
      exact hdp.nil_eq.symm
    · rw [hc] at hdp
      have := (hsub hq q2).length_le
      rw [hdp.eq_nil] at this
      exact List.length_eq_zero_iff.1 (by simpa using this)
    · obtain ⟨q, c1, c2, -⟩ := u4 hne
      exact ⟨q, c1, c2⟩
  | label c =>
    obtain ⟨h1, L, h2, hl, ys, v1, v2, v3, v4, v5⟩ := hst
    refine ⟨fun _ h => absurd h1 h, fun h => absurd (h.symm.trans h1) (by decide), fun _ => ?_⟩
    have hL := hx.labeler L h2
    obtain ⟨hv, hm, hi⟩ := voted_inv hL v1 v2
    obtain ⟨k1, k2⟩ := ColumnLabel.tells_of hL v1 v2 hv hm
    refine ⟨L, c, ys, h2, rfl, v3.trans hp.subperm, by rw [v4]; exact ⟨fun e => by rw [e] at hp; exact hp.nil_eq.symm, fun e => by rw [e] at hp; exact hp.eq_nil⟩,
      fun hlen => (v5 (hp.length_eq ▸ hlen)).trans hp, by rw [hi.size, List.length_map], fun he => ?_, k2⟩
    exact ⟨(k1 he).1, (k1 he).2.2⟩

/-- **C98** Without labels, profiling a table with precision never fails for another reason than columns that cannot be matched or are
spelled otherwise, and merging a profile without data or with other row options. -/
theorem C98_more_succeeds (hl : Idem a.lower) (hset : ∀ l, (w.setOrder l).Perm l) (hv : ∀ k, (o.calcs k).valid = true)
    (hx : Sound x n) (hn : x.labeler = none) (hk : (a.kinds.map Prod.fst).Nodup) (h : Hist) (hf : h.Fair) (hs : h.Sensible) :
    (∃ t, run (moreEnv w o x a) h = .ok t) ↔ Agrees a.lower h :=
  run_ok_iff (moreEnv w o x a) hl hset w.isNull (fun _ _ => rfl) (StandsMore w o a.draw x n) (law_more hv hx)
    (total_more hx hn) hk h hf hs

/-- **C98** Every column of a table profile with precision and labels has all the profiles it was asked for, and no others; all of them
are about the same cells of that column, those of the sampled rows. -/
theorem C98_more_columns (hl : Idem a.lower) (hw : Lists w) (hv : ∀ k, (o.calcs k).valid = true) (hx : Sound x n)
    (h : Hist) (hf : h.Fair) (hs : h.Sensible) (t : TableProf More η) (ht : run (moreEnv w o x a) h = .ok t) :
    t.cols.length = h.names.length ∧ t.total = h.rows.length ∧
    ∃ rows, Sampled a.lower h rows ∧ ∀ p c, t.cols[p]? = some c → ∃ cells vals,
      cells = column rows p ∧ vals = cells.filter (fun z => !w.isNull z) ∧
      c.name = h.names[p]? ∧ c.base.sampleSize = cells.length ∧ c.base.nullCount = cells.countP w.isNull ∧
      (∀ kind type, (∃ s, ShowsMore c kind type s) ↔ (Known type ∨ (type = "data_labeler" ∧ x.labeler.isSome = true)) ∧
        ∃ kt ∈ a.kinds, kt.1 = kind ∧ type ∈ kt.2) ∧
      ∀ kind type s, ShowsMore c kind type s → TellsMore w o a.draw x n vals type s := by
  have hset := hw.labels
  obtain ⟨h1, h2, rows, h3, h4⟩ := C20_describes (moreEnv w o x a) hl hset w.isNull (fun _ _ => rfl) (StandsMore w o a.draw x n)
    (law_more hv hx) h hf hs t ht
  have hkeys := run_keys (moreEnv w o x a) hl hset w.isNull (fun _ _ => rfl) (StandsMore w o a.draw x n) (law_more hv hx) h hf hs
    t ht
  refine ⟨h1, h2, rows, h3, fun p c hc => ⟨_, _, rfl, rfl, ?_⟩⟩
  obtain ⟨g1, g2⟩ := h4 p c hc
  obtain ⟨name, k1, k2⟩ := hkeys c (List.mem_of_getElem? hc)
  refine ⟨g1, g2.sampleSize, g2.nullCount, fun kind type => ?_, ?_⟩
  · rw [← init_more_iff (o := o)]
    constructor
    · rintro ⟨s, kc, hkc, rfl, tp, htp, rfl, rfl⟩
      have hm : (kc.1, kc.2.kind, kc.2.name, PyDict.keys kc.2.profs) ∈ compKeys c := List.mem_map.2 ⟨kc, hkc, rfl⟩
      rw [k2] at hm
      obtain ⟨kt, hkt, e⟩ := List.mem_map.1 hm
      simp only [Prod.mk.injEq] at e
      have : tp.1 ∈ PyDict.keys (createProfs (moreEnv w o x a).ops name kt.2) := by
        rw [e.2.2.2]; exact List.mem_map.2 ⟨tp, htp, rfl⟩
      rw [createProfs_keys] at this
      exact ⟨this.2, kt, hkt, e.1, this.1⟩
    · rintro ⟨hi, kt, hkt, rfl, hty⟩
      have hm : (kt.1, kt.1, name, PyDict.keys (createProfs (moreEnv w o x a).ops name kt.2)) ∈ compKeys c := by
        rw [k2]; exact List.mem_map.2 ⟨kt, hkt, rfl⟩
      obtain ⟨kc, hkc, e⟩ := List.mem_map.1 hm
      simp only [Prod.mk.injEq] at e
      have : type ∈ PyDict.keys (createProfs (moreEnv w o x a).ops name kt.2) := by
        rw [createProfs_keys]; exact ⟨hty, hi⟩
      rw [← e.2.2.2] at this
      obtain ⟨tp, htp, e2⟩ := List.mem_map.1 this
      exact ⟨_, kc, hkc, e.1, tp, htp, e2, rfl⟩
  · rintro kind type s ⟨kc, hkc, rfl, tp, htp, rfl, rfl⟩
    obtain ⟨vs, hp, hst⟩ := g2.profs kc hkc tp htp
    exact tells_more hw hx hp hst

/-- **C98** A batch can be added exactly when its columns are those of the profile, also with precision and labels. -/
theorem C98_more_update (hl : Idem a.lower) (hset : ∀ l, (w.setOrder l).Perm l) (hv : ∀ k, (o.calcs k).valid = true) (hx : Sound x n)
    (h : Hist) (pool : Option TableSched) (u : Upd) (hf : (Hist.update h pool u).Fair) (hs : (Hist.update h pool u).Sensible)
    (t : TableProf More η) (ht : run (moreEnv w o x a) h = .ok t) :
    (∃ t', run (moreEnv w o x a) (.update h pool u) = .ok t') ↔
      (u.data.rows ≠ [] → h.names ≠ [] → SameCols a.lower u.data.names h.names) := by
  rw [Table.run, ht]
  simp only
  obtain ⟨V, r, hi⟩ := tinv_run (moreEnv w o x a) hl hset w.isNull (fun _ _ => rfl) (StandsMore w o a.draw x n) (law_more hv hx) h hf.1
    hs.1 t ht
  by_cases hr : u.data.rows = []
  · unfold updateTable
    simp [hr]
  · rw [update_ok_iff (moreEnv w o x a) hl hset w.isNull (fun _ _ => rfl) (StandsMore w o a.draw x n) (law_more hv hx)
      (fun t s vs ws hst => update_more hst) h pool hf.2 u (hs.2 hr) hr t (run_shaped (moreEnv w o x a) hl h hf.1 t ht) V r hi]
    exact ⟨fun g _ => g, fun g => g hr⟩

/-- **C98** Two profiles can be merged exactly when both have data, the same row options and the same columns and, if they have labels,
no column has only nulls in one of them and other values in the other. -/
theorem C98_more_merge (hl : Idem a.lower) (hset : ∀ l, (w.setOrder l).Perm l) (hv : ∀ k, (o.calcs k).valid = true) (hx : Sound x n)
    (hk : (a.kinds.map Prod.fst).Nodup) (h1 h2 : Hist) (hf : (Hist.merge h1 h2).Fair) (hs : (Hist.merge h1 h2).Sensible)
    (t1 t2 : TableProf More η) (e1 : run (moreEnv w o x a) h1 = .ok t1) (e2 : run (moreEnv w o x a) h2 = .ok t2) :
    (∃ t, run (moreEnv w o x a) (.merge h1 h2) = .ok t) ↔
      h1.names ≠ [] ∧ h2.names ≠ [] ∧ optsOf h1 = optsOf h2 ∧ SameCols a.lower h2.names h1.names ∧
      (x.labeler.isSome = true → (∃ kt ∈ a.kinds, "data_labeler" ∈ kt.2) → ∀ (p : ℕ) (c d : Col More), t1.cols[p]? = some c →
        t2.cols[sourceCol a.lower h2.names h1.names p]? = some d →
        (c.base.nullCount = c.base.sampleSize ↔ d.base.nullCount = d.base.sampleSize)) := by
  have hlaw := law_more (w := w) (a := a) hv hx
  have hpairs := merge_pairs (moreEnv w o x a) hl hset w.isNull (fun _ _ => rfl) (StandsMore w o a.draw x n) hlaw hk h1 h2
    hf.1 hf.2 hs.1 hs.2 t1 t2 e1 e2
  obtain ⟨V, r, hi⟩ := tinv_run (moreEnv w o x a) hl hset w.isNull (fun _ _ => rfl) (StandsMore w o a.draw x n) hlaw h1 hf.1 hs.1 t1 e1
  obtain ⟨W, s, hj⟩ := tinv_run (moreEnv w o x a) hl hset w.isNull (fun _ _ => rfl) (StandsMore w o a.draw x n) hlaw h2 hf.2 hs.2 t2 e2
  obtain ⟨-, -, rows1, -, d1⟩ := C20_describes (moreEnv w o x a) hl hset w.isNull (fun _ _ => rfl) (StandsMore w o a.draw x n) hlaw
    h1 hf.1 hs.1 t1 e1
  obtain ⟨-, -, rows2, -, d2⟩ := C20_describes (moreEnv w o x a) hl hset w.isNull (fun _ _ => rfl) (StandsMore w o a.draw x n) hlaw
    h2 hf.2 hs.2 t2 e2
  have hkeys := run_keys (moreEnv w o x a) hl hset w.isNull (fun _ _ => rfl) (StandsMore w o a.draw x n) hlaw h1 hf.1 hs.1 t1 e1
  have hnull : ∀ {c : Col More} {cells vs : List String}, ColDescribes w.isNull (StandsMore w o a.draw x n) c cells →
      vs.Perm (cells.filter fun z => !w.isNull z) → (vs = [] ↔ c.base.nullCount = c.base.sampleSize) := by
    intro c cells vs hc hp
    rw [hc.nullCount, hc.sampleSize, List.countP_eq_length, ← List.length_eq_zero_iff, hp.length_eq, List.length_eq_zero_iff,
      List.filter_eq_nil_iff]
    simp
  rw [Table.run, e1, e2]
  simp only
  constructor
  · intro hok
    obtain ⟨n1, n2, ho, hc, -⟩ := hpairs.1 hok
    refine ⟨n1, n2, ho, hc, ?_⟩
    rintro hlab ⟨kt, hkt, hty⟩ p c d hcp hdp
    obtain ⟨-, -, -, -, hcol⟩ := (C20_ok_iff (moreEnv w o x a) hl t1 t2 h1.names h2.names hi.schema hj.schema hi.len hj.len).1 hok
    obtain ⟨-, -, -, -, hall⟩ := (C20_column_ok_iff _ _ _).1 (hcol p c d hcp hdp)
    obtain ⟨name, k1, k2⟩ := hkeys c (List.mem_of_getElem? hcp)
    have hm : (kt.1, kt.1, name, PyDict.keys (createProfs (moreEnv w o x a).ops name kt.2)) ∈ compKeys c := by
      rw [k2]; exact List.mem_map.2 ⟨kt, hkt, rfl⟩
    obtain ⟨kc, hkc, e⟩ := List.mem_map.1 hm
    simp only [Prod.mk.injEq] at e
    have : "data_labeler" ∈ PyDict.keys (createProfs (moreEnv w o x a).ops name kt.2) := by
      rw [createProfs_keys]; exact ⟨hty, (init_more_iff (o := o) _).2 (.inr ⟨rfl, hlab⟩)⟩
    rw [← e.2.2.2] at this
    obtain ⟨tp, htp, f1⟩ := List.mem_map.1 this
    obtain ⟨D, f2, -, -, -, f3⟩ := hall kc hkc
    obtain ⟨q, f4, f5⟩ := f3 tp htp
    obtain ⟨vs, hp1, st1⟩ := (d1 p c hcp).2.profs kc hkc tp htp
    obtain ⟨ws, hp2, st2⟩ := (d2 _ d hdp).2.profs _ (PyDict.mem_of_get? f2) _ (PyDict.mem_of_get? f4)
    rw [← hnull (d1 p c hcp).2 hp1, ← hnull (d2 _ d hdp).2 hp2]
    exact merge_more hx st1 st2 |>.1 f5 f1
  · rintro ⟨n1, n2, ho, hc, hb⟩
    refine hpairs.2 ⟨n1, n2, ho, hc, ?_⟩
    intro p c d hcp hdp kc hkc D hD tp htp q hq
    obtain ⟨vs, hp1, st1⟩ := (d1 p c hcp).2.profs kc hkc tp htp
    obtain ⟨ws, hp2, st2⟩ := (d2 _ d hdp).2.profs _ (PyDict.mem_of_get? hD) _ (PyDict.mem_of_get? hq)
    refine (merge_more hx st1 st2).2 fun ht => ?_
    rw [hnull (d1 p c hcp).2 hp1, hnull (d2 _ d hdp).2 hp2]
    have hsome : x.labeler.isSome = true := by
      rw [ht] at st1
      cases hst : tp.2.state with
      | plain s => rw [hst] at st1; exact absurd rfl st1.2.1
      | float s p => rw [hst] at st1; exact absurd st1.1 (by decide)
      | label c =>
        rw [hst] at st1
        obtain ⟨-, L, hL, -⟩ := st1
        rw [hL]; rfl
    refine hb hsome ?_ p c d hcp hdp
    obtain ⟨name, k1, k2⟩ := hkeys c (List.mem_of_getElem? hcp)
    have hm : (kc.1, kc.2.kind, kc.2.name, PyDict.keys kc.2.profs) ∈ compKeys c := List.mem_map.2 ⟨kc, hkc, rfl⟩
    rw [k2] at hm
    obtain ⟨kt, hkt, e⟩ := List.mem_map.1 hm
    simp only [Prod.mk.injEq] at e
    have : tp.1 ∈ PyDict.keys (createProfs (moreEnv w o x a).ops name kt.2) := by
      rw [e.2.2.2]; exact List.mem_map.2 ⟨tp, htp, rfl⟩
    rw [createProfs_keys] at this
    exact ⟨kt, hkt, ht ▸ this.1⟩

/-! ## A concrete case -/

/-- The labeler of `Props/ColumnLabel` looking at more values. -/
def demoSetup : Setup :=
  ⟨none, fun l => if l.length ≤ 20000 then l else l.take (max 20000 (l.length / 20)), some { ColumnLabel.demoLabeler with draw := List.take 9 }⟩

theorem demo_sound : Sound demoSetup 9 where
  ratio := rfl
  sample l := by
    simp only [demoSetup]
    split_ifs with h
    · exact ⟨.refl _, rfl⟩
    · refine ⟨(List.take_sublist _ l).subperm, ?_⟩
      rw [List.length_take]
      omega
  labeler L hL := by
    cases hL
    obtain ⟨h1, h2, h3, h4, h5, -, -⟩ := ColumnLabel.demo_works
    exact ⟨h1, h2, h3, h4, h5, by decide, fun l => ⟨(List.take_sublist _ l).subperm, by simp [min_comm]⟩⟩

/-- The profiler of `Props/TableStats` with labels. -/
def demoAround : Around ℕ := { TableStats.demoAround with
  kinds := TableStats.demoAround.kinds ++ [("data_label_profile", ["data_labeler"])] }

/-- The first batches of the history of `Props/TableStats`. -/
def left : Hist :=
  .update (.update (.new ⟨true, true, true, .full⟩) none ⟨⟨[.str "a", .str "b"], [(0, ["1", "x"]), (1, ["", "5"])]⟩, 9, 0, id⟩)
    none ⟨⟨[.str "a", .str "b"], [(0, ["5", "null"])]⟩, 9, 0, id⟩

/-- A batch with the given rows. -/
def batch (rows : List (ℤ × List String)) : Hist := .update (.new ⟨true, true, true, .full⟩) none ⟨⟨[.str "b", .str "a"], rows⟩, 9, 0, id⟩

theorem demo_fits : left.Fair ∧ left.Sensible ∧ left.Whole ∧ (∀ r, (batch r).Fair) ∧
    (∀ x, (batch [(3, ["x", x])]).Sensible ∧ (batch [(3, ["x", x])]).Whole) ∧ (demoAround.kinds.map Prod.fst).Nodup := by
  refine ⟨⟨⟨trivial, by simp⟩, by simp⟩, ⟨⟨trivial, fun _ => ⟨by decide, by decide, by decide, by decide, rfl, ?_⟩⟩,
    fun _ => ⟨by decide, by decide, by decide, by decide, rfl, ?_⟩⟩, ⟨⟨trivial, by decide⟩, by decide⟩, fun r => ⟨trivial, by simp⟩,
    fun x => ⟨⟨trivial, fun _ => ⟨by simp, by simp, by simp, by simp, rfl, ?_⟩⟩, trivial, by simp⟩, by decide⟩
  all_goals
    intro j hj
    exact ⟨Nat.le_refl _, hj⟩

theorem demo_same : SameCols id [.str "b", .str "a"] [.str "a", .str "b"] := sameCols_perm (by decide) (by decide)

theorem demo_left : ∃ t, run (moreEnv Props.Column.demoWorld Props.Column.demoOpts demoSetup demoAround) left = .ok t := by
  obtain ⟨f1, f2, -⟩ := demo_fits
  obtain ⟨t, ht⟩ := (C98_more_update (w := Props.Column.demoWorld) (o := Props.Column.demoOpts) (a := demoAround) (fun _ => rfl)
    (fun l => List.reverse_perm l) (fun _ => rfl) demo_sound _ _ _ f1.1 f2.1 _ rfl).2 fun _ h => absurd rfl h
  exact (C98_more_update (fun _ => rfl) (fun l => List.reverse_perm l) (fun _ => rfl) demo_sound _ _ _ f1 f2 t ht).2
    fun _ _ => sameCols_perm (.refl _) (by decide)

example : (∃ t c l, run (moreEnv Props.Column.demoWorld Props.Column.demoOpts demoSetup demoAround) left = .ok t ∧
      t.cols[0]? = some c ∧ ShowsMore c "data_label_profile" "data_labeler" (.label l) ∧ l.sampleSize = 2) ∧
    (∃ t, run (moreEnv Props.Column.demoWorld Props.Column.demoOpts demoSetup demoAround) (.merge left (batch [(3, ["x", "-2"])])) = .ok t) ∧
    ¬ ∃ t, run (moreEnv Props.Column.demoWorld Props.Column.demoOpts demoSetup demoAround) (.merge left (batch [(3, ["x", ""])])) = .ok t := by
  obtain ⟨f1, f2, f3, f4, f5, f6⟩ := demo_fits
  obtain ⟨t, ht⟩ := demo_left
  have hset : ∀ l, (Props.Column.demoWorld.setOrder l).Perm l := fun l => List.reverse_perm l
  obtain ⟨h1, -, rows, h3, h4⟩ := C98_more_columns (w := Props.Column.demoWorld) (o := Props.Column.demoOpts) (a := demoAround)
    (fun _ => rfl) demo_lists (fun _ => rfl) demo_sound left f1 f2 t ht
  obtain rfl := C20_whole_table _ _ f3 rows h3
  have hlt : 0 < t.cols.length := by rw [h1]; decide
  have hlt' : 1 < t.cols.length := by rw [h1]; decide
  have hb : ∀ x, ∃ t2, run (moreEnv Props.Column.demoWorld Props.Column.demoOpts demoSetup demoAround) (batch [(3, ["x", x])]) = .ok t2 :=
    fun x => (C98_more_update (w := Props.Column.demoWorld) (o := Props.Column.demoOpts) (a := demoAround) (fun _ => rfl)
    hset (fun _ => rfl) demo_sound _ _ _ (f4 _) (f5 x).1 _ rfl).2 fun _ h => absurd rfl h
  have hcol : ∀ x t2, run (moreEnv Props.Column.demoWorld Props.Column.demoOpts demoSetup demoAround) (batch [(3, ["x", x])]) = .ok t2 →
      t2.cols.length = 2 ∧ ∀ p c, t2.cols[p]? = some c → c.base.sampleSize = 1 ∧
        c.base.nullCount = (column ((batch [(3, ["x", x])]).table id) p).countP Props.Column.demoWorld.isNull := by
    intro x t2 e
    obtain ⟨g1, -, rows, g3, g4⟩ := C98_more_columns (w := Props.Column.demoWorld) (o := Props.Column.demoOpts) (a := demoAround)
      (fun _ => rfl) demo_lists (fun _ => rfl) demo_sound _ (f4 _) (f5 x).1 t2 e
    obtain rfl := C20_whole_table _ _ (f5 x).2 rows g3
    refine ⟨g1, fun p c hc => ?_⟩
    obtain ⟨_, _, rfl, rfl, -, k1, k2, -⟩ := g4 p c hc
    refine ⟨?_, k2⟩
    rw [k1, column, List.length_map, table_length]
    rfl
  have hleft : ∀ p c, t.cols[p]? = some c → c.base.sampleSize = 3 ∧
      c.base.nullCount = (column (left.table id) p).countP Props.Column.demoWorld.isNull := by
    intro p c hc
    obtain ⟨_, _, rfl, rfl, -, k1, k2, -⟩ := h4 p c hc
    refine ⟨?_, k2⟩
    rw [k1, column, List.length_map, table_length]
    rfl
  refine ⟨?_, ?_, ?_⟩
  · obtain ⟨_, _, rfl, rfl, -, -, -, g, k⟩ := h4 0 _ (List.getElem?_eq_getElem hlt)
    obtain ⟨s, hs⟩ := (g "data_label_profile" "data_labeler").2 ⟨.inr ⟨rfl, rfl⟩, ("data_label_profile", ["data_labeler"]), by decide, rfl, by decide⟩
    obtain ⟨L, c, ys, -, rfl, -, -, y1, y2, -⟩ := (k _ _ s hs).label rfl
    have e : ((column (left.table id) 0).filter fun z => !Props.Column.demoWorld.isNull z) = ["1", "5"] := by decide +kernel
    have y1 := y1 (by show ((column (left.table id) 0).filter fun z => !Props.Column.demoWorld.isNull z).length ≤ 9; rw [e]; decide)
    exact ⟨t, _, c, ht, List.getElem?_eq_getElem hlt, hs, by rw [y2, y1.length_eq]; exact congrArg List.length e⟩
  · obtain ⟨t2, e2⟩ := hb "-2"
    refine (C98_more_merge (fun _ => rfl) hset (fun _ => rfl) demo_sound f6 _ _ ⟨f1, f4 _⟩ ⟨f2, (f5 _).1⟩ t t2 ht e2).2
      ⟨by decide, by decide, rfl, demo_same, ?_⟩
    intro _ _ p c d hc hd
    obtain ⟨a1, a2⟩ := hleft p c hc
    obtain ⟨b1, b2⟩ := (hcol _ t2 e2).2 _ d hd
    have hp : p < 2 := by
      have := (List.getElem?_eq_some_iff.1 hc).1
      rw [h1] at this
      exact this
    rw [a1, a2, b1, b2]
    match p, hp with
    | 0, _ => decide +kernel
    | 1, _ => decide +kernel
  · obtain ⟨t2, e2⟩ := hb ""
    rw [C98_more_merge (fun _ => rfl) hset (fun _ => rfl) demo_sound f6 _ _ ⟨f1, f4 _⟩ ⟨f2, (f5 _).1⟩ t t2 ht e2]
    rintro ⟨-, -, -, -, h⟩
    have hl2 : 1 < t2.cols.length := by rw [(hcol _ t2 e2).1]; decide
    have := h rfl ⟨("data_label_profile", ["data_labeler"]), by decide, by decide⟩ 0 _ _ (List.getElem?_eq_getElem hlt)
      (show t2.cols[1]? = _ from List.getElem?_eq_getElem hl2)
    obtain ⟨a1, a2⟩ := hleft 0 _ (List.getElem?_eq_getElem hlt)
    obtain ⟨b1, b2⟩ := (hcol _ t2 e2).2 1 _ (List.getElem?_eq_getElem hl2)
    rw [a1, a2, b1, b2] at this
    revert this
    decide +kernel

end Verif.Props.TableMore
