import Verif.Lemmas.TableStats
import Verif.Props.Column

/-!
# C98: a table profile reports the statistics of its columns

From the rows a user hands over, through matching columns by name, sampling, removing nulls, worker pools and merging of
profiles, to the numbers reported for each column.
-/

namespace Verif.Props.TableStats

open Verif Verif.Table Verif.Schema Verif.SchemaSpec Verif.Column Verif.TableStats Verif.Spec.Column Verif.Spec.TableStats

variable {η : Type} {w : World} {o : Opts} {a : Around η}

/-! ## The column profiles -/

/-- The state of a profile is what its class makes of the values, in some way of feeding them. -/
def Stands (w : World) (o : Opts) (draw : Draw) (t : String) (s : Stat) (vs : List String) : Prop :=
  match clsOf t, s with
  | some (.num k), .num s v => (∃ hn : Numeric.History, hn.run (w.parse k) = .ok s ∧ hn.Valid ∧ hn.cells = vs ∧
      (∀ f, hn.on f ↔ On k f (.new o)) ∧ (hn.biasOn ↔ Corrected k (.new o))) ∧
      ∃ hv : Vocab.History, Vocab.run w.charOrder hv = v ∧ (k = .text → Vocab.values hv = vs)
  | some .cat, .cat c => ∃ hc : Categorical.History String, Categorical.run hc = c ∧ CatSpec.seen hc = vs ∧
      ∀ x ∈ CatSpec.optsIn hc, x = o.stop
  | some .order, .order c => ∃ ho : Order.History String, Order.runColumn w.number w.render ho = c ∧ OrderSpec.seen ho = vs
  | some .date, .date c => ∃ hd : DateTime.History, DateTime.run w.formatOrder w.date w.isMay hd = c ∧
      DateTimeSpec.values hd = vs ∧ (DrawnFrom draw → DateTimeSpec.Valid hd)
  | _, _ => False

theorem law (hv : ∀ k, (o.calcs k).valid = true) (draw : Draw) (safe : String → Bool) :
    Law (statOps w o draw safe) (Stands w o draw) where
  init t name s h := by
    simp only [statOps, initStat] at h
    unfold Stands
    cases hc : clsOf t with
    | none => rw [hc] at h; cases h
    | some c =>
      rw [hc] at h
      cases c with
      | num k =>
        cases h
        exact ⟨⟨.new (o.calcs k) (o.bias k), rfl, hv k, rfl, fun _ => Iff.rfl, Iff.rfl⟩, .new, rfl, fun _ => rfl⟩
      | cat =>
        cases h
        exact ⟨.new o.stop o.topK, rfl, rfl, by simp [CatSpec.optsIn]⟩
      | order =>
        cases h
        exact ⟨.new, rfl, rfl⟩
      | date =>
        cases h
        exact ⟨.new, rfl, rfl, fun _ => trivial⟩
  update t s vs ws s' hs h := by
    simp only [statOps, updateStat] at h
    unfold Stands at hs ⊢
    cases hc : clsOf t with
    | none => rw [hc] at hs; exact hs.elim
    | some c =>
      rw [hc] at h hs
      cases c with
      | num k =>
        cases s with
        | cat c => exact hs.elim
        | order c => exact hs.elim
        | date c => exact hs.elim
        | num s v =>
          obtain ⟨⟨hn, n1, n2, n3, n4, n5⟩, hw, w1, w2⟩ := hs
          simp only at h
          cases hu : Numeric.update (w.parse k) s ws with
          | error e => rw [hu] at h; cases h
          | ok s2 =>
            rw [hu] at h
            cases h
            refine ⟨⟨.update hn ws, ?_, n2, ?_, n4, n5⟩, ?_⟩
            · rw [Numeric.History.run, n1]; exact hu
            · rw [← n3]
              simp [Numeric.History.cells, Numeric.History.batches]
            · by_cases hk : k = .text
              · rw [if_pos hk, ← w1]
                exact ⟨.update hw ws, rfl, fun hk => by rw [Vocab.values, w2 hk]⟩
              · rw [if_neg hk]
                exact ⟨hw, w1, fun h => absurd h hk⟩
      | cat =>
        cases s with
        | num s v => exact hs.elim
        | order c => exact hs.elim
        | date c => exact hs.elim
        | cat c =>
          obtain ⟨hc, c1, c2, c3⟩ := hs
          cases h
          exact ⟨.update hc ws, by rw [Categorical.run, c1], by rw [CatSpec.seen, c2], c3⟩
      | order =>
        cases s with
        | num s v => exact hs.elim
        | cat c => exact hs.elim
        | date c => exact hs.elim
        | order c =>
          obtain ⟨ho, o1, o2⟩ := hs
          cases h
          exact ⟨.update ho ws, by rw [Order.runColumn, o1], by rw [← o2]; simp [OrderSpec.seen, OrderSpec.batches]⟩
      | date =>
        cases s with
        | num s v => exact hs.elim
        | cat c => exact hs.elim
        | order c => exact hs.elim
        | date c =>
          obtain ⟨hd, d1, d2, d3⟩ := hs
          cases h
          exact ⟨.update hd ⟨ws, draw c ws⟩, by rw [DateTime.run, d1], by rw [DateTimeSpec.values, d2],
            fun hr => ⟨d3 hr, hr c ws⟩⟩
  merge t s1 s2 vs ws s' h1 h2 h := by
    simp only [statOps, mergeStat] at h
    unfold Stands at h1 h2 ⊢
    cases hc : clsOf t with
    | none => rw [hc] at h1; exact h1.elim
    | some c =>
      rw [hc] at h h1 h2
      cases c with
      | num k =>
        cases s1 with
        | cat c => exact h1.elim
        | order c => exact h1.elim
        | date c => exact h1.elim
        | num x v =>
          cases s2 with
          | cat c => exact h2.elim
          | order c => exact h2.elim
          | date c => exact h2.elim
          | num y u =>
            obtain ⟨⟨hn, n1, n2, n3, n4, n5⟩, hw, w1, w2⟩ := h1
            obtain ⟨⟨hm, m1, m2, m3, m4, m5⟩, hw', w1', w2'⟩ := h2
            cases h
            refine ⟨⟨.add hn hm, ?_, ⟨n2, m2⟩, ?_, fun f => ?_, ?_⟩, ?_⟩
            · rw [Numeric.History.run, n1, m1]; rfl
            · rw [← n3, ← m3]
              simp [Numeric.History.cells, Numeric.History.batches]
            · rw [show (Numeric.History.add hn hm).on f ↔ hn.on f ∧ hm.on f from Iff.rfl, n4, m4, and_self]
            · rw [show (Numeric.History.add hn hm).biasOn ↔ hn.biasOn ∧ hm.biasOn from Iff.rfl, n5, m5, and_self]
            · by_cases hk : k = .text
              · rw [if_pos hk, ← w1, ← w1']
                exact ⟨.merge hw hw', rfl, fun hk => by rw [Vocab.values, w2 hk, w2' hk]⟩
              · rw [if_neg hk]
                exact ⟨hw, w1, fun h => absurd h hk⟩
      | cat =>
        cases s1 with
        | num s v => exact h1.elim
        | order c => exact h1.elim
        | date c => exact h1.elim
        | cat x =>
          cases s2 with
          | num s v => exact h2.elim
          | order c => exact h2.elim
          | date c => exact h2.elim
          | cat y =>
            obtain ⟨hc, c1, c2, c3⟩ := h1
            obtain ⟨hd, d1, d2, d3⟩ := h2
            cases h
            refine ⟨.merge hc hd, by rw [Categorical.run, c1, d1], by rw [CatSpec.seen, c2, d2], ?_⟩
            intro x hx
            simp only [CatSpec.optsIn, List.mem_append] at hx
            exact hx.elim (c3 x) (d3 x)
      | order =>
        cases s1 with
        | num s v => exact h1.elim
        | cat c => exact h1.elim
        | date c => exact h1.elim
        | order x =>
          cases s2 with
          | num s v => exact h2.elim
          | cat c => exact h2.elim
          | date c => exact h2.elim
          | order y =>
            obtain ⟨ho, o1, o2⟩ := h1
            obtain ⟨hp, p1, p2⟩ := h2
            cases h
            exact ⟨.merge ho hp, by rw [Order.runColumn, o1, p1], by rw [← o2, ← p2]; simp [OrderSpec.seen, OrderSpec.batches]⟩
      | date =>
        cases s1 with
        | num s v => exact h1.elim
        | cat c => exact h1.elim
        | order c => exact h1.elim
        | date x =>
          cases s2 with
          | num s v => exact h2.elim
          | cat c => exact h2.elim
          | order c => exact h2.elim
          | date y =>
            obtain ⟨hd, d1, d2, d3⟩ := h1
            obtain ⟨he, e1, e2, e3⟩ := h2
            cases h
            exact ⟨.merge hd he, by rw [DateTime.run, d1, e1], by rw [DateTimeSpec.values, d2, e2],
              fun hr => ⟨d3 hr, e3 hr⟩⟩

theorem total (draw : Draw) (safe : String → Bool) : Total (statOps w o draw safe) (Stands w o draw) where
  init _ _ _ h := h
  update t s vs ws hs := by
    simp only [statOps, updateStat]
    unfold Stands at hs
    cases hc : clsOf t with
    | none => rw [hc] at hs; exact hs.elim
    | some c =>
      rw [hc] at hs
      cases c with
      | num k =>
        cases s with
        | num s v =>
          obtain ⟨⟨hn, n1, n2, _⟩, _⟩ := hs
          obtain ⟨s', e, _⟩ := Numeric.C01_totals (w.parse k) (.update hn ws) n2
          rw [Numeric.History.run, n1] at e
          have e : Numeric.update (w.parse k) s ws = .ok s' := e
          simp only [e]
          exact ⟨_, rfl⟩
        | _ => exact hs.elim
      | cat =>
        cases s with
        | cat c => exact ⟨_, rfl⟩
        | _ => exact hs.elim
      | order =>
        cases s with
        | order c => exact ⟨_, rfl⟩
        | _ => exact hs.elim
      | date =>
        cases s with
        | date c => exact ⟨_, rfl⟩
        | _ => exact hs.elim
  merge t s1 s2 vs ws h1 h2 := by
    simp only [statOps, mergeStat]
    unfold Stands at h1 h2
    cases hc : clsOf t with
    | none => rw [hc] at h1; exact h1.elim
    | some c =>
      rw [hc] at h1 h2
      cases c <;> cases s1 <;> first | exact h1.elim | (cases s2 <;> first | exact h2.elim | exact ⟨_, rfl⟩)

theorem clsOf_nameOf (k : Kind) : clsOf (nameOf k) = some (.num k) := by cases k <;> rfl

theorem init_iff (t : String) : (∃ s, initStat o t = .ok s) ↔ Known t := by
  unfold initStat clsOf Known
  split_ifs with h1 h2 h3 h4 h5 h6
  · subst h1; exact ⟨fun _ => .inl ⟨.int, rfl⟩, fun _ => ⟨_, rfl⟩⟩
  · subst h2; exact ⟨fun _ => .inl ⟨.float, rfl⟩, fun _ => ⟨_, rfl⟩⟩
  · subst h3; exact ⟨fun _ => .inl ⟨.text, rfl⟩, fun _ => ⟨_, rfl⟩⟩
  · subst h4; exact ⟨fun _ => .inr (.inl rfl), fun _ => ⟨_, rfl⟩⟩
  · subst h5; exact ⟨fun _ => .inr (.inr (.inl rfl)), fun _ => ⟨_, rfl⟩⟩
  · subst h6; exact ⟨fun _ => .inr (.inr (.inr rfl)), fun _ => ⟨_, rfl⟩⟩
  · constructor
    · rintro ⟨_, h⟩; cases h
    · rintro (⟨k, rfl⟩ | rfl | rfl | rfl)
      · cases k <;> simp [nameOf] at h1 h2 h3
      · exact absurd rfl h4
      · exact absurd rfl h5
      · exact absurd rfl h6

theorem tells_of (hw : Lists w) {draw : Draw} {type : String} {s : Stat} {vs xs : List String} (hp : vs.Perm xs)
    (hst : Stands w o draw type s vs) : Tells w o draw xs type s := by
  unfold Stands at hst
  refine ⟨fun k hk => ?_, fun hk => ?_, fun hk => ?_, fun hk => ?_⟩
  · rw [hk, clsOf_nameOf] at hst
    cases s with
    | num n v =>
      obtain ⟨⟨hn, n1, n2, n3, n4, n5⟩, hv, v1, v2⟩ := hst
      have := Props.Column.describes_hist n1 n2 (n3 ▸ hp) n4 n5
      refine ⟨n, v, rfl, this.1, this.2, fun ht => ?_⟩
      have : k = .text := by
        rw [hk] at ht
        cases k <;> simp [nameOf] at ht ⊢
      rw [← v1]
      exact Props.Column.letters_hist hw.chars (v2 this ▸ hp)
    | _ => exact hst.elim
  · rw [hk] at hst
    cases s with
    | cat n =>
      obtain ⟨hc, c1, c2, c3⟩ := hst
      subst c1
      refine ⟨_, rfl, Props.Column.counts_hist (c2 ▸ hp), fun hn => ?_⟩
      exact Categorical.C13_never_without_options hc fun x hx => by rw [c3 x hx]; exact hn
    | _ => exact hst.elim
  · rw [hk] at hst
    cases s with
    | order n =>
      obtain ⟨ho, o1, o2⟩ := hst
      rw [← o1]
      exact ⟨_, rfl, Props.Column.order_hist (o2 ▸ hp)⟩
    | _ => exact hst.elim
  · rw [hk] at hst
    cases s with
    | date n =>
      obtain ⟨hd, d1, d2, d3⟩ := hst
      rw [← d1]
      refine ⟨_, rfl, Props.Column.dates_hist hw.formats (d2 ▸ hp), fun hdr hmay hall => ?_⟩
      rw [← hp.length_eq, ← d2]
      subst d2
      exact DateTime.C37_all_dates w.formatOrder w.date w.isMay hd (d3 hdr) (fun x hx => hmay x (hp.mem_iff.1 hx))
        (fun x hx => hall x (hp.mem_iff.1 hx))
    | _ => exact hst.elim

/-! ## The theorems -/

/-- **C98** Profiling a table never fails for another reason than columns that cannot be matched or are spelled otherwise,
and merging a profile without data or with other row options. -/
theorem C98_succeeds (hl : Idem a.lower) (hset : ∀ l, (w.setOrder l).Perm l) (hv : ∀ k, (o.calcs k).valid = true)
    (hk : (a.kinds.map Prod.fst).Nodup) (h : Hist) (hf : h.Fair) (hs : h.Sensible) :
    (∃ t, run (tableEnv w o a) h = .ok t) ↔ Agrees a.lower h :=
  run_ok_iff (tableEnv w o a) hl hset w.isNull (fun _ _ => rfl) (Stands w o a.draw) (law hv a.draw a.safe)
    (total a.draw a.safe) hk h hf hs

/-- **C98** Every column of a table profile has all the profiles it was asked for, and no others; all of them are about
the same cells of that column: those of the sampled rows. -/
theorem C98_columns (hl : Idem a.lower) (hw : Lists w) (hv : ∀ k, (o.calcs k).valid = true)
    (h : Hist) (hf : h.Fair) (hs : h.Sensible) (t : TableProf Stat η) (ht : run (tableEnv w o a) h = .ok t) :
    t.cols.length = h.names.length ∧ t.total = h.rows.length ∧
    ∃ rows, Sampled a.lower h rows ∧ ∀ p c, t.cols[p]? = some c → ∃ cells vals,
      cells = column rows p ∧ vals = cells.filter (fun x => !w.isNull x) ∧
      c.name = h.names[p]? ∧ c.base.sampleSize = cells.length ∧ c.base.nullCount = cells.countP w.isNull ∧
      (∀ kind type, (∃ s, Shows c kind type s) ↔ Known type ∧ ∃ kt ∈ a.kinds, kt.1 = kind ∧ type ∈ kt.2) ∧
      ∀ kind type s, Shows c kind type s → Tells w o a.draw vals type s := by
  have hset := hw.labels
  obtain ⟨h1, h2, rows, h3, h4⟩ := C20_describes (tableEnv w o a) hl hset w.isNull (fun _ _ => rfl) (Stands w o a.draw)
    (law hv a.draw a.safe) h hf hs t ht
  have hkeys := run_keys (tableEnv w o a) hl hset w.isNull (fun _ _ => rfl) (Stands w o a.draw) (law hv a.draw a.safe) h hf hs
    t ht
  refine ⟨h1, h2, rows, h3, fun p c hc => ⟨_, _, rfl, rfl, ?_⟩⟩
  obtain ⟨g1, g2⟩ := h4 p c hc
  obtain ⟨name, k1, k2⟩ := hkeys c (List.mem_of_getElem? hc)
  refine ⟨g1, g2.sampleSize, g2.nullCount, fun kind type => ?_, ?_⟩
  · rw [← init_iff (o := o)]
    constructor
    · rintro ⟨s, kc, hkc, rfl, tp, htp, rfl, rfl⟩
      have hm : (kc.1, kc.2.kind, kc.2.name, PyDict.keys kc.2.profs) ∈ compKeys c := List.mem_map.2 ⟨kc, hkc, rfl⟩
      rw [k2] at hm
      obtain ⟨kt, hkt, e⟩ := List.mem_map.1 hm
      simp only [Prod.mk.injEq] at e
      have : tp.1 ∈ PyDict.keys (createProfs (tableEnv w o a).ops name kt.2) := by
        rw [e.2.2.2]; exact List.mem_map.2 ⟨tp, htp, rfl⟩
      rw [createProfs_keys] at this
      exact ⟨this.2, kt, hkt, e.1, this.1⟩
    · rintro ⟨hi, kt, hkt, rfl, hty⟩
      have hm : (kt.1, kt.1, name, PyDict.keys (createProfs (tableEnv w o a).ops name kt.2)) ∈ compKeys c := by
        rw [k2]; exact List.mem_map.2 ⟨kt, hkt, rfl⟩
      obtain ⟨kc, hkc, e⟩ := List.mem_map.1 hm
      simp only [Prod.mk.injEq] at e
      have : type ∈ PyDict.keys (createProfs (tableEnv w o a).ops name kt.2) := by
        rw [createProfs_keys]; exact ⟨hty, hi⟩
      rw [← e.2.2.2] at this
      obtain ⟨tp, htp, e2⟩ := List.mem_map.1 this
      exact ⟨_, kc, hkc, e.1, tp, htp, e2, rfl⟩
  · rintro kind type s ⟨kc, hkc, rfl, tp, htp, rfl, rfl⟩
    obtain ⟨vs, hp, hst⟩ := g2.profs kc hkc tp htp
    exact tells_of hw hp hst

theorem table_length (lower : String → String) (h : Hist) : (h.table lower).length = h.rows.length := by
  induction h with
  | new o => rfl
  | update h pool u ih => simp [Hist.table, Hist.rows, ih]
  | merge h1 h2 i1 i2 => simp [Hist.table, Hist.rows, i1, i2]

/-- **C98** When every batch is profiled completely, the cells are all the cells of the column. -/
theorem C98_whole (hl : Idem a.lower) (hw : Lists w) (hv : ∀ k, (o.calcs k).valid = true)
    (h : Hist) (hf : h.Fair) (hs : h.Sensible) (hwh : h.Whole) (t : TableProf Stat η)
    (ht : run (tableEnv w o a) h = .ok t) (p : ℕ) (c : Col Stat) (hc : t.cols[p]? = some c) :
    ∃ cells vals, cells = column (h.table a.lower) p ∧ vals = cells.filter (fun x => !w.isNull x) ∧
      c.base.sampleSize = h.rows.length ∧ c.base.sampleSize = cells.length ∧ c.base.nullCount = cells.countP w.isNull ∧
      ∀ kind type s, Shows c kind type s → Tells w o a.draw vals type s := by
  obtain ⟨h1, h2, rows, h3, h4⟩ := C98_columns hl hw hv h hf hs t ht
  obtain rfl := C20_whole_table a.lower h hwh rows h3
  obtain ⟨cells, vals, rfl, rfl, _, g2, g3, _, g5⟩ := h4 p c hc
  refine ⟨_, _, rfl, rfl, ?_, g2, g3, g5⟩
  rw [g2, column, List.length_map, table_length]

/-- **C98** How the rows were ordered, cut into batches, spread over workers and merged does not matter: two complete
profiles of the same rows report the same numbers for every column, the same counts and the same vocabulary. -/
theorem C98_same (hl : Idem a.lower) (hw : Lists w) (hv : ∀ k, (o.calcs k).valid = true)
    (g h : Hist) (fg : g.Fair) (fh : h.Fair) (sg : g.Sensible) (sh : h.Sensible) (wg : g.Whole) (wh : h.Whole)
    (same : (g.table a.lower).Perm (h.table a.lower)) (s t : TableProf Stat η) (hg : run (tableEnv w o a) g = .ok s)
    (hh : run (tableEnv w o a) h = .ok t) (p : ℕ) (c d : Col Stat) (hc : s.cols[p]? = some c) (hd : t.cols[p]? = some d) :
    c.base.sampleSize = d.base.sampleSize ∧ c.base.nullCount = d.base.nullCount ∧
    (∀ i j k x y v u, Shows c i (nameOf k) (.num x v) → Shows d j (nameOf k) (.num y u) → SameStats o k x y ∧
      (k = .text → v.Perm u)) ∧
    (∀ i j x y, Shows c i "category" (.cat x) → Shows d j "category" (.cat y) → x.stopped = false → y.stopped = false →
      ∀ v, PyDict.get? x.cats v = PyDict.get? y.cats v) ∧
    (∀ i j x y, Shows c i "datetime" (.date x) → Shows d j "datetime" (.date y) → x.sampleSize = y.sampleSize) := by
  obtain ⟨_, _, rfl, rfl, _, a1, a2, a3⟩ := C98_whole hl hw hv g fg sg wg s hg p c hc
  obtain ⟨_, _, rfl, rfl, _, b1, b2, b3⟩ := C98_whole hl hw hv h fh sh wh t hh p d hd
  have hp : (column (g.table a.lower) p).Perm (column (h.table a.lower) p) := same.map _
  have hq := hp.filter (fun x => !w.isNull x)
  generalize (column (g.table a.lower) p).filter (fun x => !w.isNull x) = xs at *
  generalize (column (h.table a.lower) p).filter (fun x => !w.isNull x) = ys at *
  refine ⟨by rw [a1, b1, hp.length_eq], by rw [a2, b2, hp.countP_eq], ?_, ?_, ?_⟩
  · intro i j k x y v u hx hy
    obtain ⟨n, v', e, x1, x2, x3⟩ := (a3 i _ _ hx).num k rfl
    obtain ⟨m, u', f, y1, y2, y3⟩ := (b3 j _ _ hy).num k rfl
    cases e; cases f
    refine ⟨?_, fun hk => ?_⟩
    swap
    · subst hk
      have x3 := x3 rfl
      have y3 := y3 rfl
      rw [List.perm_ext_iff_of_nodup x3.distinct y3.distinct]
      intro z
      rw [x3.mem, y3.mem]
      simp only [hq.mem_iff]
    have hn : (numbers w.number k xs).Perm (numbers w.number k ys) := hq.filterMap _
    refine ⟨by rw [x1, y1, hq.length_eq], by rw [x2.matched, y2.matched, hn.length_eq], fun on => ?_, fun on hlen => ?_,
      fun on => ?_, fun on => ?_⟩
    · exact ⟨by rw [(x2.sum on).1, (y2.sum on).1, hn.sum_eq], by rw [(x2.sum on).2, (y2.sum on).2, Moments.mean_perm hn]⟩
    · rw [x2.matched] at hlen
      by_cases hb : Corrected k (.new o)
      · rw [(x2.sampleVariance on hlen hb).1, (x2.sampleVariance on hlen hb).2,
          (y2.sampleVariance on (hn.length_eq ▸ hlen) hb).1, (y2.sampleVariance on (hn.length_eq ▸ hlen) hb).2]
        have e : Spec.sampleVariance (numbers w.number k xs) = Spec.sampleVariance (numbers w.number k ys) := by
          unfold Spec.sampleVariance
          rw [Moments.mean_perm hn, hn.length_eq, (hn.map _).sum_eq]
        rw [e]
        exact ⟨rfl, rfl⟩
      · have n1 : numbers w.number k xs ≠ [] := by intro e; rw [e] at hlen; simp at hlen
        have n2 : numbers w.number k ys ≠ [] := by
          intro e; rw [e] at hn; exact n1 hn.eq_nil
        rw [(x2.variance on n1 hb).1, (x2.variance on n1 hb).2, (y2.variance on n2 hb).1, (y2.variance on n2 hb).2,
          Spec.stddev, Spec.stddev, Moments.variance_perm hn]
        exact ⟨rfl, rfl⟩
    · rw [x2.zeros on, y2.zeros on, hn.count_eq]
    · rw [x2.negatives on, y2.negatives on]
      exact (hn.filter _).length_eq
  · intro i j x y hx hy sx sy v
    obtain ⟨n, e, x1, _⟩ := (a3 i _ _ hx).cat rfl
    obtain ⟨m, f, y1, _⟩ := (b3 j _ _ hy).cat rfl
    cases e; cases f
    apply Option.ext
    intro z
    rw [(x1 sx).count, (y1 sy).count, hq.count_eq]
  · intro i j x y hx hy
    obtain ⟨n, e, x1, _⟩ := (a3 i _ _ hx).date rfl
    obtain ⟨m, f, y1, _⟩ := (b3 j _ _ hy).date rfl
    cases e; cases f
    rw [x1.size, y1.size, hq.length_eq]

theorem filterMap_all {α β : Type} (f : α → Option β) (l : List α) :
    (l.filterMap f).length = l.length ↔ ∀ x ∈ l, (f x).isSome = true := by
  constructor
  · intro h
    induction l with
    | nil => simp
    | cons x xs ih =>
      rw [List.filterMap_cons] at h
      cases hx : f x with
      | none =>
        rw [hx] at h
        have := List.length_filterMap_le f xs
        simp only [List.length_cons] at h
        omega
      | some y =>
        rw [hx] at h
        simp only [List.length_cons, Nat.add_right_cancel_iff] at h
        intro z hz
        rcases List.mem_cons.1 hz with rfl | hz
        · rw [hx]; rfl
        · exact ih h z hz
  · exact Props.Column.length_filterMap_all f l

theorem find_filter {α : Type} (p q : α → Bool) (l : List α) (h : ∀ x, p x = true → q x = true) :
    (l.filter q).find? p = l.find? p := by
  induction l with
  | nil => rfl
  | cons x xs ih =>
    rw [List.filter_cons, List.find?_cons]
    cases hp : p x with
    | true => rw [if_pos (h x hp), List.find?_cons, hp]
    | false =>
      split_ifs
      · rw [List.find?_cons, hp]; exact ih
      · exact ih

theorem find_keys {β : Type} (p : String → Bool) (q : String × β → Bool) (l : List (String × β))
    (h : ∀ x ∈ l, q x = p x.1) : (l.find? q).map Prod.fst = (l.map Prod.fst).find? p := by
  induction l with
  | nil => rfl
  | cons x xs ih =>
    rw [List.find?_cons, List.map_cons, List.find?_cons, h x (by simp)]
    cases p x.1 with
    | true => rfl
    | false => exact ih fun y hy => h y (by simp [hy])

/-- The ratio of a numeric profile is one when all values are of its type. -/
theorem ratio_iff {k : Kind} {vals : List String} {n : Numeric.State} {v : List Char} (h1 : n.sampleSize = vals.length)
    (h2 : n.matchCount = (numbers w.number k vals).length) :
    ratio (.num n v) = some 1 ↔ OfType w.number vals (nameOf k) := by
  have hne : vals ≠ [] ↔ n.sampleSize ≠ 0 := by rw [h1, ne_eq, ne_eq, List.length_eq_zero_iff]
  unfold ratio Numeric.State.dataTypeRatio OfType
  rw [hne]
  by_cases h0 : n.sampleSize = 0
  · simp [h0]
  · simp only
    rw [if_neg h0]
    have e : (some ((n.matchCount : ℝ) / n.sampleSize) = some 1) ↔ n.matchCount = n.sampleSize := by
      rw [Option.some.injEq, div_eq_one_iff_eq (by exact_mod_cast h0)]
      exact_mod_cast Iff.rfl
    rw [e, h1, h2, numbers, filterMap_all]
    simp only [ne_eq, h1 ▸ h0, not_false_eq_true, true_and]
    cases k with
    | int =>
      simp only [nameOf, true_and, String.reduceEq, false_and, or_false]
      refine forall_congr' fun x => forall_congr' fun _ => ?_
      cases hx : w.number x with
      | none => simp
      | some q =>
        simp only [Option.bind_some, Option.some.injEq]
        split_ifs with hz
        · simpa using hz
        · simpa using hz
    | float =>
      simp only [nameOf, true_and, String.reduceEq, false_and, or_false, false_or]
      refine forall_congr' fun x => forall_congr' fun _ => ?_
      cases hx : w.number x <;> simp
    | text => simp [nameOf]

theorem date_ratio_iff {vals : List String} {n : DateTime.Col Moment} (h : n.sampleSize = vals.length) :
    ratio (.date n) = some 1 ↔ vals ≠ [] ∧ n.matchCount = vals.length := by
  unfold ratio
  rw [← h, ne_eq, ← List.length_eq_zero_iff, ← h]
  by_cases h0 : n.sampleSize = 0
  · simp [h0]
  · simp only
    rw [if_neg h0, Option.some.injEq, div_eq_one_iff_eq (by exact_mod_cast h0)]
    simp only [h0, not_false_eq_true, true_and]
    exact_mod_cast Iff.rfl

open Classical in
/-- **C98** The data type of a column: the first of the types asked for that all non-null cells of the sample have; for dates,
that all of them were counted. -/
theorem C98_type (hl : Idem a.lower) (hw : Lists w) (hv : ∀ k, (o.calcs k).valid = true)
    (hk : (a.kinds.map Prod.fst).Nodup) (h : Hist) (hf : h.Fair) (hs : h.Sensible) (t : TableProf Stat η)
    (ht : run (tableEnv w o a) h = .ok t) :
    ∃ rows, Sampled a.lower h rows ∧ ∀ p c, t.cols[p]? = some c → ∀ kt ∈ a.kinds, kt.2.Nodup →
      ∃ comp vals, PyDict.get? c.compilers kt.1 = some comp ∧ vals = (column rows p).filter (fun x => !w.isNull x) ∧
        selected comp = kt.2.find? fun type => decide (OfType w.number vals type ∨
          (type = "datetime" ∧ vals ≠ [] ∧ ∃ n, Shows c kt.1 "datetime" (.date n) ∧ n.matchCount = vals.length)) := by
  obtain ⟨_, _, rows, h3, h4⟩ := C98_columns hl hw hv h hf hs t ht
  have hkeys := run_keys (tableEnv w o a) hl hw.labels w.isNull (fun _ _ => rfl) (Stands w o a.draw) (law hv a.draw a.safe)
    h hf hs t ht
  refine ⟨rows, h3, fun p c hc kt hkt hnd => ?_⟩
  obtain ⟨_, _, rfl, rfl, _, _, _, g4, g5⟩ := h4 p c hc
  obtain ⟨name, k1, k2⟩ := hkeys c (List.mem_of_getElem? hc)
  generalize (column rows p).filter (fun x => !w.isNull x) = vals at *
  have hm : (kt.1, kt.1, name, PyDict.keys (createProfs (tableEnv w o a).ops name kt.2)) ∈ compKeys c := by
    rw [k2]; exact List.mem_map.2 ⟨kt, hkt, rfl⟩
  obtain ⟨kc, hkc, e⟩ := List.mem_map.1 hm
  simp only [Prod.mk.injEq] at e
  have hwf : PyDict.WF c.compilers := by
    have : PyDict.keys c.compilers = a.kinds.map Prod.fst := by
      have := congrArg (List.map Prod.fst) k2
      simpa [compKeys, keysFor, PyDict.keys, Function.comp_def, tableEnv] using this
    unfold PyDict.WF
    rw [this]
    exact hk
  have hget : PyDict.get? c.compilers kt.1 = some kc.2 := by
    rw [← e.1]
    exact (PyDict.mem_iff_get? hwf _ _).1 hkc
  refine ⟨kc.2, vals, hget, rfl, ?_⟩
  · have hl2 : PyDict.keys kc.2.profs =
        kt.2.filter fun t => decide (∃ s, (tableEnv w o a).ops.init t name = .ok s) := by
      rw [e.2.2.2]
      exact createProfs_list _ _ _ hnd _ (fun t => by simp)
    have hnk : (PyDict.keys kc.2.profs).Nodup := by rw [hl2]; exact hnd.filter _
    have huniq : ∀ s s', Shows c kt.1 "datetime" s → Shows c kt.1 "datetime" s' → s = s' := by
      rintro s s' ⟨x, hx, ex, y, hy, ey, rfl⟩ ⟨x', hx', ex', y', hy', ey', rfl⟩
      have hxx : x.2 = kc.2 := by
        have := (PyDict.mem_iff_get? hwf x.1 x.2).1 hx
        rw [ex, hget] at this
        exact (Option.some.inj this).symm
      have hxx' : x'.2 = kc.2 := by
        have := (PyDict.mem_iff_get? hwf x'.1 x'.2).1 hx'
        rw [ex', hget] at this
        exact (Option.some.inj this).symm
      rw [hxx] at hy
      rw [hxx'] at hy'
      have m1 := (PyDict.mem_iff_get? hnk y.1 y.2).1 hy
      have m2 := (PyDict.mem_iff_get? hnk y'.1 y'.2).1 hy'
      rw [ey] at m1
      rw [ey', m1] at m2
      rw [Option.some.inj m2]
    rw [selected, find_keys (fun type => decide (OfType w.number vals type ∨
          (type = "datetime" ∧ vals ≠ [] ∧ ∃ n, Shows c kt.1 "datetime" (.date n) ∧ n.matchCount = vals.length))),
      show List.map Prod.fst kc.2.profs = _ from hl2, find_filter]
    · intro x hx
      simp only [decide_eq_true_eq] at hx ⊢
      have : ∃ s, initStat o x = .ok s := by
        rw [init_iff]
        rcases hx with ⟨_, ⟨rfl, _⟩ | ⟨rfl, _⟩ | rfl⟩ | ⟨rfl, _⟩
        · exact .inl ⟨.int, rfl⟩
        · exact .inl ⟨.float, rfl⟩
        · exact .inl ⟨.text, rfl⟩
        · exact .inr (.inr (.inr rfl))
      exact this
    · intro tp htp
      have hsh : Shows c kt.1 tp.1 tp.2.state := ⟨kc, hkc, e.1, tp, htp, rfl, rfl⟩
      obtain ⟨hty, _⟩ := (g4 kt.1 tp.1).1 ⟨_, hsh⟩
      rw [decide_eq_decide]
      have hte := g5 _ _ _ hsh
      rcases hty with ⟨k, hk⟩ | hk | hk | hk
      · obtain ⟨n, v, e1, e2, e3, _⟩ := hte.num k hk
        rw [e1, hk, ratio_iff e2 e3.matched]
        have : nameOf k ≠ "datetime" := by cases k <;> simp [nameOf]
        simp [this]
      · obtain ⟨n, e1, _⟩ := hte.cat hk
        rw [e1, hk]
        simp [ratio, OfType]
      · obtain ⟨n, e1, _⟩ := hte.order hk
        rw [e1, hk]
        simp [ratio, OfType]
      · obtain ⟨n, e1, e2, _⟩ := hte.date hk
        rw [hk] at hsh
        rw [e1, date_ratio_iff e2.size, hk]
        constructor
        · intro hr
          exact .inr ⟨rfl, hr.1, n, e1 ▸ hsh, hr.2⟩
        · rintro (hr | ⟨_, h1, n', h2, h3⟩)
          · simp [OfType] at hr
          · have := huniq _ _ hsh h2
            rw [e1] at this
            cases this
            exact ⟨h1, h3⟩

/-- **C98** A column of dates is called one: if dates are looked for first, every batch is profiled completely and each
non-null cell can be read by some format, none of them as an abbreviated May. -/
theorem C98_all_dates (hl : Idem a.lower) (hw : Lists w) (hv : ∀ k, (o.calcs k).valid = true)
    (hk : (a.kinds.map Prod.fst).Nodup) (h : Hist) (hf : h.Fair) (hs : h.Sensible) (hwh : h.Whole) (t : TableProf Stat η)
    (ht : run (tableEnv w o a) h = .ok t) (p : ℕ) (c : Col Stat) (hc : t.cols[p]? = some c) (kind : String) (ts : List String)
    (hkt : (kind, "datetime" :: ts) ∈ a.kinds) (hnd : ("datetime" :: ts).Nodup) (hdr : DrawnFrom a.draw)
    (hne : ∃ x ∈ column (h.table a.lower) p, w.isNull x = false)
    (hmay : DateTimeSpec.NoMay w.date w.isMay (column (h.table a.lower) p))
    (hall : ∀ x ∈ column (h.table a.lower) p, w.isNull x = false → DateTimeSpec.IsDate w.date x) :
    ∃ comp, PyDict.get? c.compilers kind = some comp ∧ selected comp = some "datetime" := by
  obtain ⟨_, _, rows, h3, h4⟩ := C98_columns hl hw hv h hf hs t ht
  obtain rfl := C20_whole_table a.lower h hwh rows h3
  obtain ⟨_, _, rfl, rfl, _, _, _, g4, g5⟩ := h4 p c hc
  obtain ⟨rows', k3, k4⟩ := C98_type hl hw hv hk h hf hs t ht
  obtain rfl := C20_whole_table a.lower h hwh rows' k3
  obtain ⟨comp, _, e1, rfl, e2⟩ := k4 p c hc _ hkt hnd
  refine ⟨comp, e1, ?_⟩
  rw [e2, List.find?_cons]
  obtain ⟨s, hsh⟩ := (g4 kind "datetime").2 ⟨.inr (.inr (.inr rfl)), _, hkt, rfl, by simp⟩
  obtain ⟨n, rfl, n1, n2⟩ := (g5 _ _ _ hsh).date rfl
  have hcount := n2 hdr (fun x hx => hmay x (List.mem_filter.1 hx).1)
    (fun x hx => hall x (List.mem_filter.1 hx).1 (by simpa using (List.mem_filter.1 hx).2))
  have hne' : (column (h.table a.lower) p).filter (fun x => !w.isNull x) ≠ [] := by
    obtain ⟨x, hx, hn⟩ := hne
    exact List.ne_nil_of_mem (List.mem_filter.2 ⟨hx, by simp [hn]⟩)
  split
  · rfl
  · rename_i hd
    rw [decide_eq_false_iff_not] at hd
    exact absurd (.inr ⟨rfl, hne', n, hsh, hcount⟩) hd

/-! ## When the columns agree -/

theorem sameCols_refl (lower : String → String) (ns : List Key) : SameCols lower ns ns := by
  refine ⟨fun k => ⟨rfl, fun _ => rfl⟩, fun p k hk => ?_⟩
  have hlt := (List.getElem?_eq_some_iff.1 hk).1
  rw [sourceCol_of hk (by rw [names_getElem?, hk]; rfl) (fun _ => rfl)]
  exact hk

/-- Distinct names may come in any order. -/
theorem sameCols_perm {lower : String → String} {dn pn : List Key} (hp : dn.Perm pn) (hn : (names lower pn).Nodup) :
    SameCols lower dn pn := by
  have hperm : (names lower dn).Perm (names lower pn) := by
    rw [names_eq, names_eq]; exact hp.map _
  have hnd : (names lower dn).Nodup := hperm.nodup_iff.2 hn
  refine ⟨fun k => ⟨hperm.count_eq k, fun h => ?_⟩, fun p k hk => ?_⟩
  · have := List.nodup_iff_count_le_one.1 hnd k
    omega
  · have hmem : k ∈ dn := hp.mem_iff.2 (List.mem_of_getElem? hk)
    obtain ⟨j, hj⟩ := List.mem_iff_getElem?.1 hmem
    rw [sourceCol_of hk (j := j) (by rw [names_getElem?, hj]; rfl) (fun h => ?_)]
    · exact hj
    · have := List.nodup_iff_count_le_one.1 hnd (folded lower k)
      omega

/-- **C98** The same columns all the time, even with repeated names: profiling never fails. -/
theorem C98_same_columns (hl : Idem a.lower) (hset : ∀ l, (w.setOrder l).Perm l) (hv : ∀ k, (o.calcs k).valid = true)
    (hk : (a.kinds.map Prod.fst).Nodup) (h : Hist) (hf : h.Fair) (hs : h.Sensible) (ns : List Key) (hu : Uniform ns h) :
    ∃ t, run (tableEnv w o a) h = .ok t := by
  rw [C98_succeeds hl hset hv hk h hf hs]
  have key : Agrees a.lower h ∧ (h.rows ≠ [] → h.names ≠ []) ∧ (h.names = [] ∨ h.names = ns) := by
    clear hf
    induction h with
    | new o => exact ⟨trivial, fun h => absurd rfl h, .inl rfl⟩
    | update h pool u ih =>
      obtain ⟨i1, i2, i3⟩ := ih hs.1 hu.1
      refine ⟨⟨i1, fun hr hn => ?_⟩, ?_, ?_⟩
      · rw [hu.2 hr, i3.resolve_left hn]
        exact sameCols_refl _ _
      · intro hr
        rw [Hist.names]
        split_ifs with hc
        · rcases hc with hc | hc
          · apply i2
            intro e
            rw [Hist.rows, hc, e] at hr
            exact hr rfl
          · exact hc
        · push Not at hc
          exact (hs.2 hc.1).names
      · rw [Hist.names]
        split_ifs with hc
        · exact i3
        · push Not at hc
          exact .inr (hu.2 hc.1)
    | merge h1 h2 ih1 ih2 =>
      obtain ⟨i1, i2, i3⟩ := ih1 hs.1 hu.1
      obtain ⟨j1, j2, j3⟩ := ih2 hs.2 hu.2.1
      have n1 := i2 hu.2.2.1
      have n2 := j2 hu.2.2.2.1
      refine ⟨⟨i1, j1, n1, n2, hu.2.2.2.2, ?_⟩, fun _ => n1, i3⟩
      rw [i3.resolve_left n1, j3.resolve_left n2]
      exact sameCols_refl _ _
  exact key.1

/-- **C98** The same columns in any order, none of them repeated: profiling never fails. -/
theorem C98_any_order (hl : Idem a.lower) (hset : ∀ l, (w.setOrder l).Perm l) (hv : ∀ k, (o.calcs k).valid = true)
    (hk : (a.kinds.map Prod.fst).Nodup) (h : Hist) (hf : h.Fair) (hs : h.Sensible) (ns : List Key)
    (hn : (names a.lower ns).Nodup) (hu : Shuffled ns h) : ∃ t, run (tableEnv w o a) h = .ok t := by
  rw [C98_succeeds hl hset hv hk h hf hs]
  have hnp : ∀ {l : List Key}, l.Perm ns → (names a.lower l).Nodup := by
    intro l hp
    have : (names a.lower l).Perm (names a.lower ns) := by rw [names_eq, names_eq]; exact hp.map _
    exact this.nodup_iff.2 hn
  have key : Agrees a.lower h ∧ (h.rows ≠ [] → h.names ≠ []) ∧ (h.names = [] ∨ h.names.Perm ns) := by
    clear hf
    induction h with
    | new o => exact ⟨trivial, fun h => absurd rfl h, .inl rfl⟩
    | update h pool u ih =>
      obtain ⟨i1, i2, i3⟩ := ih hs.1 hu.1
      refine ⟨⟨i1, fun hr hn' => ?_⟩, ?_, ?_⟩
      · have hp := i3.resolve_left hn'
        exact sameCols_perm ((hu.2 hr).trans hp.symm) (hnp hp)
      · intro hr
        rw [Hist.names]
        split_ifs with hc
        · rcases hc with hc | hc
          · apply i2
            intro e
            rw [Hist.rows, hc, e] at hr
            exact hr rfl
          · exact hc
        · push Not at hc
          exact (hs.2 hc.1).names
      · rw [Hist.names]
        split_ifs with hc
        · exact i3
        · push Not at hc
          exact .inr (hu.2 hc.1)
    | merge h1 h2 ih1 ih2 =>
      obtain ⟨i1, i2, i3⟩ := ih1 hs.1 hu.1
      obtain ⟨j1, j2, j3⟩ := ih2 hs.2 hu.2.1
      have n1 := i2 hu.2.2.1
      have n2 := j2 hu.2.2.2.1
      have p1 := i3.resolve_left n1
      have p2 := j3.resolve_left n2
      exact ⟨⟨i1, j1, n1, n2, hu.2.2.2.2, sameCols_perm (p2.trans p1.symm) (hnp p1)⟩, fun _ => n1, i3⟩
  exact key.1

/-! ## A concrete case -/

/-- Names as they are, the compilers of the library, nothing safe for a pool. -/
def demoAround : Around ℕ where
  hll := ⟨fun _ _ => 0, fun n _ => n + 1, fun n m => n + m, fun n => n⟩
  lower := id
  hash row := (row.length : ℤ)
  kinds := [("data_type_profile", ["datetime", "int", "float", "text"]), ("data_stats_profile", ["order", "category"])]
  safe t := t == "int"
  draw _ l := l.take 50

/-- Two batches merged with a third one whose columns are swapped and which is profiled by a pool. -/
def demo : Hist :=
  .merge (.update (.update (.new ⟨true, true, true, .full⟩) none ⟨⟨[.str "a", .str "b"], [(0, ["1", "x"]), (1, ["", "5"])]⟩, 9, 0, id⟩)
    none ⟨⟨[.str "a", .str "b"], [(0, ["5", "null"])]⟩, 9, 0, id⟩)
    (.update (.new ⟨true, true, true, .full⟩) (some ⟨⟨fun _ => false, fun j => j == 0, List.reverse⟩, id, ⟨fun t => t == "int", fun _ => false, id⟩⟩)
      ⟨⟨[.str "b", .str "a"], [(3, ["x", "-2"]), (4, ["5", "1"])]⟩, 9, 0, id⟩)

theorem demo_fits : demo.Fair ∧ demo.Sensible ∧ demo.Whole ∧ Shuffled [.str "a", .str "b"] demo ∧
    (names demoAround.lower [.str "a", .str "b"]).Nodup ∧ (demoAround.kinds.map Prod.fst).Nodup ∧
    column (demo.table demoAround.lower) 0 = ["1", "", "5", "-2", "1"] := by
  refine ⟨⟨⟨⟨trivial, by simp⟩, by simp⟩, trivial, ?_⟩, ⟨⟨⟨trivial, fun _ => ⟨by decide, by decide, by decide, by decide, rfl, ?_⟩⟩,
    fun _ => ⟨by decide, by decide, by decide, by decide, rfl, ?_⟩⟩, trivial,
    fun _ => ⟨by decide, by decide, by decide, by decide, rfl, ?_⟩⟩, ⟨⟨⟨trivial, by decide⟩, by decide⟩, trivial, by decide⟩,
    ⟨⟨⟨trivial, fun _ => .refl _⟩, fun _ => .refl _⟩, ⟨trivial, fun _ => by decide⟩, by decide, by decide, rfl⟩,
    by decide, by decide, by decide +kernel⟩
  · intro s hs
    cases hs
    exact ⟨fun l => List.reverse_perm l, fun l => .refl _, fun l => .refl _⟩
  all_goals
    intro j hj
    exact ⟨Nat.le_refl _, hj⟩

theorem demo_lists : Lists Props.Column.demoWorld :=
  ⟨fun l => List.reverse_perm l, fun l => List.reverse_perm l, fun l => List.reverse_perm l⟩

example : ∃ t c s v, run (tableEnv Props.Column.demoWorld Props.Column.demoOpts demoAround) demo = .ok t ∧ t.cols[0]? = some c ∧
    Shows c "data_type_profile" "int" (.num s v) ∧ c.base.sampleSize = 5 ∧ c.base.nullCount = 1 ∧ s.sum = 5 ∧
    s.numNegatives = 1 := by
  obtain ⟨f1, f2, f3, f4, f5, f6, f7⟩ := demo_fits
  obtain ⟨t, ht⟩ := C98_any_order (w := Props.Column.demoWorld) (o := Props.Column.demoOpts) (a := demoAround) (fun _ => rfl)
    (fun l => List.reverse_perm l) (fun _ => rfl) f6 demo f1 f2 _ f5 f4
  obtain ⟨h1, _, rows, _, h4⟩ := C98_columns (fun _ => rfl) demo_lists (fun _ => rfl) demo f1 f2 t ht
  have hlt : 0 < t.cols.length := by rw [h1]; decide
  obtain ⟨_, _, _, _, _, _, _, g, _⟩ := h4 0 _ (List.getElem?_eq_getElem hlt)
  obtain ⟨s, hs⟩ := (g "data_type_profile" "int").2 ⟨.inl ⟨.int, rfl⟩,
    ("data_type_profile", ["datetime", "int", "float", "text"]), List.mem_cons_self, rfl, by decide⟩
  obtain ⟨_, _, rfl, rfl, k1, k2, k3, k4⟩ := C98_whole (fun _ => rfl) demo_lists (fun _ => rfl) demo f1 f2 f3 t
    ht 0 _ (List.getElem?_eq_getElem hlt)
  obtain ⟨n, v, rfl, n1, n2, _⟩ := (k4 _ _ s hs).num .int rfl
  have hvals : (["1", "", "5", "-2", "1"].filter fun x => !Props.Column.demoWorld.isNull x) = ["1", "5", "-2", "1"] := by
    decide
  rw [f7, hvals] at n2
  rw [f7] at k2 k3
  have hn : numbers Props.Column.demoWorld.number .int ["1", "5", "-2", "1"] = [1, 5, -2, 1] := by
    have e1 : Props.Column.demoWorld.number "1" = some 1 := rfl
    have e2 : Props.Column.demoWorld.number "5" = some 5 := rfl
    have e3 : Props.Column.demoWorld.number "-2" = some (-2) := rfl
    have z1 : ∃ z : ℤ, (1 : ℚ) = z := ⟨1, by norm_num⟩
    have z2 : ∃ z : ℤ, (5 : ℚ) = z := ⟨5, by norm_num⟩
    have z3 : ∃ z : ℤ, (-2 : ℚ) = z := ⟨-2, by norm_num⟩
    simp only [numbers, List.filterMap_cons, List.filterMap_nil, e1, e2, e3, Option.bind_some, if_pos z1, if_pos z2, if_pos z3]
    norm_num
  rw [hn] at n2
  refine ⟨t, _, n, v, ht, List.getElem?_eq_getElem hlt, hs, k2, k3.trans (by decide), ?_, ?_⟩
  · rw [(n2.sum rfl).1]; norm_num
  · rw [n2.negatives rfl]; norm_num

/-- A table of one column with dates and an empty cell, in two batches. -/
def demoDates : Hist :=
  .update (.update (.new ⟨true, true, true, .full⟩) none ⟨⟨[.str "d"], [(0, ["1999-12-31"]), (1, [""])]⟩, 9, 0, id⟩)
    none ⟨⟨[.str "d"], [(0, ["1999-12-31"])]⟩, 9, 0, id⟩

example : ∃ t c comp, run (tableEnv Props.Column.demoWorld Props.Column.demoOpts demoAround) demoDates = .ok t ∧
    t.cols[0]? = some c ∧ PyDict.get? c.compilers "data_type_profile" = some comp ∧ selected comp = some "datetime" := by
  have hf : demoDates.Fair := ⟨⟨trivial, by simp⟩, by simp⟩
  have hs : demoDates.Sensible := by
    refine ⟨⟨trivial, fun _ => ⟨by decide, by decide, by decide, by decide, rfl, ?_⟩⟩,
      fun _ => ⟨by decide, by decide, by decide, by decide, rfl, ?_⟩⟩
    all_goals
      intro j hj
      exact ⟨Nat.le_refl _, hj⟩
  have hwh : demoDates.Whole := ⟨⟨trivial, by decide⟩, by decide⟩
  obtain ⟨t, ht⟩ := C98_same_columns (w := Props.Column.demoWorld) (o := Props.Column.demoOpts) (a := demoAround) (fun _ => rfl)
    (fun l => List.reverse_perm l) (fun _ => rfl) demo_fits.2.2.2.2.2.1 demoDates hf hs [.str "d"]
    ⟨⟨trivial, fun _ => rfl⟩, fun _ => rfl⟩
  have hlt : 0 < t.cols.length := by
    rw [(C98_columns (fun _ => rfl) demo_lists (fun _ => rfl) demoDates hf hs t ht).1]; decide
  have hcol : column (demoDates.table demoAround.lower) 0 = ["1999-12-31", "", "1999-12-31"] := by decide +kernel
  obtain ⟨comp, h1, h2⟩ := C98_all_dates (fun _ => rfl) demo_lists (fun _ => rfl) demo_fits.2.2.2.2.2.1 demoDates hf hs hwh t ht
    0 _ (List.getElem?_eq_getElem hlt) "data_type_profile" ["int", "float", "text"] (by simp [demoAround]) (by decide)
    (fun c l => ⟨(List.take_sublist _ _).subperm, by simp [demoAround]⟩)
    (by rw [hcol]; exact ⟨"1999-12-31", by simp, by decide⟩)
    (fun _ _ _ _ _ _ _ => rfl)
    (by
      rw [hcol]
      intro x hx hn
      have : x = "1999-12-31" := by
        simp only [List.mem_cons, List.not_mem_nil, or_false] at hx
        rcases hx with rfl | rfl | rfl
        · rfl
        · exact absurd hn (by decide)
        · rfl
      subst this
      exact ⟨"%Y-%m-%d", by decide +kernel, by simp [Props.Column.demoWorld]⟩)
  exact ⟨t, _, comp, ht, List.getElem?_eq_getElem hlt, h1, h2⟩

end Verif.Props.TableStats
