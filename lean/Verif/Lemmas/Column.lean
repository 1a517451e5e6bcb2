import Verif.Spec.Column
import Verif.Props.Nulls
import Verif.Props.NumericStats
import Verif.Props.Categorical
import Verif.Props.ColumnTypes
import Verif.Props.Order
import Verif.Props.DateTime
import Verif.Props.Vocab

/-! # The parts of a column profile, run by themselves -/

namespace Verif.Column

open Verif Verif.Spec.Column Verif.NullsSpec

/-- The base statistics' part of a history. -/
def nullsOf : History → Nulls.History
  | .new _ => .new
  | .update h b => .update (nullsOf h) b.toBatch
  | .merge h1 h2 => .merge (nullsOf h1) (nullsOf h2)

theorem fed_nullsOf (h : History) : NullsSpec.Fed (nullsOf h) ↔ Spec.Column.Fed h := by
  induction h with
  | new => rfl
  | update => simp [nullsOf, NullsSpec.Fed, Spec.Column.Fed]
  | merge h1 h2 i1 i2 => simp [nullsOf, NullsSpec.Fed, Spec.Column.Fed, i1, i2]

theorem sensible_nullsOf {h : History} (hs : Spec.Column.Sensible h) : NullsSpec.Sensible (nullsOf h) := by
  induction h with
  | new => trivial
  | update h b ih => exact ⟨ih hs.1, hs.2⟩
  | merge h1 h2 i1 i2 => exact ⟨i1 hs.1, i2 hs.2.1, (fed_nullsOf h1).2 hs.2.2.1, (fed_nullsOf h2).2 hs.2.2.2⟩

theorem eachKind_ok {α : Type} (f : Kind → Except Err α) (g : Kind → α) (h : ∀ k, f k = .ok (g k)) : eachKind f = .ok g := by
  simp only [eachKind, h]
  congr 1
  funext k
  cases k <;> rfl

/-- What is known of the compilers of a column: each of them is what it would be on its own, given the proper values. -/
structure Parts (w : World) (h : History) (cs : List String) (p : Profs) : Prop where
  num : ∀ k, ∃ hn : Numeric.History, hn.run (w.parse k) = .ok (p.num k) ∧ hn.Valid ∧
    hn.cells.Perm (cs.filter fun x => !w.isNull x) ∧ (∀ f, hn.on f ↔ On k f h) ∧ (hn.biasOn ↔ Corrected k h)
  cats : ∃ hc : Categorical.History String, Categorical.run hc = p.cats ∧
    (CatSpec.seen hc).Perm (cs.filter fun x => !w.isNull x) ∧
    (NeverStops h → ∀ o ∈ CatSpec.optsIn hc, o.maxSample = none ∨ o.ratio = none)
  types : ∃ ht : ColumnTypes.History, ColumnTypes.run w.toFloat w.enabled ht = .ok p.types ∧ ColumnTypesSpec.Sensible ht ∧
    (ColumnTypesSpec.values ht).Perm (cs.filter fun x => !w.isNull x) ∧ ColumnTypesSpec.dates ht = p.dates.matchCount
  order : ∃ ho : Order.History String, Order.runColumn w.number w.render ho = p.order ∧
    (OrderSpec.seen ho).Perm (cs.filter fun x => !w.isNull x)
  vocab : ∃ hv : Vocab.History, Vocab.run w.charOrder hv = p.vocab ∧ (Vocab.values hv).Perm (cs.filter fun x => !w.isNull x)
  dates : ∃ hd : DateTime.History, DateTime.run w.formatOrder w.date w.isMay hd = p.dates ∧
    (DateTimeSpec.values hd).Perm (cs.filter fun x => !w.isNull x) ∧ (Drawn h → DateTimeSpec.Valid hd)

theorem dates_le (w : World) (b : DateTime.Batch) : w.dates b ≤ b.values.length := by
  unfold World.dates
  split_ifs
  · exact DateTime.count_le _ _ _
  · exact Nat.zero_le _

/-- The date profile counts the dates of every batch. -/
theorem matchCount_update (w : World) (c : DateTime.Col Moment) (b : DateTime.Batch) :
    (DateTime.update w.formatOrder w.date w.isMay c b).matchCount = c.matchCount + w.dates b := by
  unfold DateTime.update World.dates
  by_cases h0 : b.values.length = 0
  · simp [h0, DateTime.isDateColumn]
  · rw [if_neg h0]
    split_ifs <;> simp

end Verif.Column

namespace Verif.Column

open Verif Verif.Spec.Column Verif.NullsSpec

theorem filter_map_snd (isNull : String → Bool) (cs : List Nulls.Cell) :
    (trueCells isNull cs).map Prod.snd = (cs.map Prod.snd).filter fun x => !isNull x := by
  rw [trueCells, List.filter_map]; rfl

/-- The parts of an updated profile. -/
theorem Parts.update {w : World} {h : History} {cs : List String} {p : Profs}
    (ih : Parts w h cs p) (b : Batch) {vals rows : List String}
    (hvals : vals.Perm (rows.filter fun x => !w.isNull x)) :
    ∃ q, p.update w b.draw vals = .ok q ∧ Parts w (.update h b) (cs ++ rows) q := by
  choose hn n1 n2 n3 n4 n5 using ih.num
  obtain ⟨hc, c1, c2, c3⟩ := ih.cats
  obtain ⟨ht, t1, t2, t3, t4⟩ := ih.types
  obtain ⟨hv, v1, v2⟩ := ih.vocab
  obtain ⟨hd, d1, d2, d3⟩ := ih.dates
  have hall : ∀ k, ∃ s, Numeric.update (w.parse k) (p.num k) vals = .ok s := by
    intro k
    obtain ⟨s, hs, _⟩ := Numeric.C01_totals (w.parse k) (.update (hn k) vals) (n2 k)
    rw [Numeric.History.run, n1 k] at hs
    exact ⟨s, hs⟩
  choose g hg using hall
  refine ⟨_, by rw [Profs.update, eachKind_ok _ g hg], ⟨fun k => ?_, ?_, ?_, ?_, ?_, ?_⟩⟩
  · refine ⟨.update (hn k) vals, ?_, n2 k, ?_, n4 k, n5 k⟩
    · rw [Numeric.History.run, n1 k]; exact hg k
    · rw [List.filter_append]
      simp only [Numeric.History.cells, Numeric.History.batches, List.flatten_append, List.flatten_cons, List.flatten_nil,
        List.append_nil]
      exact (n3 k).append hvals
  · refine ⟨.update hc vals, by rw [Categorical.run, c1], ?_, c3⟩
    rw [List.filter_append]
    exact c2.append hvals
  · refine ⟨.update ht ⟨vals, w.dates ⟨vals, b.draw vals⟩⟩, ?_, ⟨t2, dates_le w _⟩, ?_, ?_⟩
    · rw [ColumnTypes.run, t1]
    · rw [List.filter_append]
      exact t3.append hvals
    · rw [ColumnTypesSpec.dates, t4, matchCount_update]
  · obtain ⟨ho, o1, o2⟩ := ih.order
    refine ⟨.update ho vals, by rw [Order.runColumn, o1], ?_⟩
    rw [List.filter_append]
    simp only [OrderSpec.seen, OrderSpec.batches, List.flatten_append, List.flatten_cons, List.flatten_nil, List.append_nil]
    exact o2.append hvals
  · refine ⟨.update hv vals, by rw [Vocab.run, v1], ?_⟩
    rw [List.filter_append]
    exact v2.append hvals
  · refine ⟨.update hd ⟨vals, b.draw vals⟩, by rw [DateTime.run, d1], ?_, fun hdr => ⟨d3 hdr.1, hdr.2 vals⟩⟩
    rw [List.filter_append]
    exact d2.append hvals

/-- Two types compilers of the same options can always be merged. -/
theorem types_merge (w : World) {h1 h2 : ColumnTypes.History} (s1 : ColumnTypesSpec.Sensible h1)
    (s2 : ColumnTypesSpec.Sensible h2) {c d : ColumnTypes.Compiler} (r1 : ColumnTypes.run w.toFloat w.enabled h1 = .ok c)
    (r2 : ColumnTypes.run w.toFloat w.enabled h2 = .ok d) : ∃ e, ColumnTypes.merge c d = .ok e := by
  obtain ⟨e, he, _⟩ := ColumnTypes.run_eq w.toFloat w.enabled (.merge h1 h2) ⟨s1, s2⟩
  rw [ColumnTypes.run, r1, r2] at he
  exact ⟨e, he⟩

/-- The parts of a merged profile. -/
theorem Parts.merge {w : World} {h1 h2 : History} {cs ds : List String} {p q : Profs} (i1 : Parts w h1 cs p)
    (i2 : Parts w h2 ds q) : ∃ r, p.merge w q = .ok r ∧ Parts w (.merge h1 h2) (cs ++ ds) r := by
  obtain ⟨hc, c1, c2, c3⟩ := i1.cats
  obtain ⟨hc', c1', c2', c3'⟩ := i2.cats
  obtain ⟨ht, t1, t2, t3, t4⟩ := i1.types
  obtain ⟨ht', t1', t2', t3', t4'⟩ := i2.types
  obtain ⟨hv, v1, v2⟩ := i1.vocab
  obtain ⟨hv', v1', v2'⟩ := i2.vocab
  obtain ⟨hd, d1, d2, d3⟩ := i1.dates
  obtain ⟨hd', d1', d2', d3'⟩ := i2.dates
  obtain ⟨e, he⟩ := types_merge w t2 t2' t1 t1'
  refine ⟨_, by rw [Profs.merge, he], ⟨fun k => ?_, ?_, ?_, ?_, ?_, ?_⟩⟩
  · obtain ⟨hn, n1, n2, n3, n4, n5⟩ := i1.num k
    obtain ⟨hn', n1', n2', n3', n4', n5'⟩ := i2.num k
    refine ⟨.add hn hn', ?_, ⟨n2, n2'⟩, ?_, fun f => and_congr (n4 f) (n4' f), and_congr n5 n5'⟩
    · rw [Numeric.History.run, n1, n1']; rfl
    · rw [List.filter_append]
      simp only [Numeric.History.cells, Numeric.History.batches, List.flatten_append]
      exact n3.append n3'
  · refine ⟨.merge hc hc', by rw [Categorical.run, c1, c1'], ?_, ?_⟩
    · rw [List.filter_append]
      exact c2.append c2'
    · rintro ⟨a, b⟩ o ho
      simp only [CatSpec.optsIn, List.mem_append] at ho
      exact ho.elim (c3 a o) (c3' b o)
  · refine ⟨.merge ht ht', by rw [ColumnTypes.run, t1, t1']; exact he, ⟨t2, t2'⟩, ?_, by rw [ColumnTypesSpec.dates, t4, t4']; rfl⟩
    rw [List.filter_append]
    exact t3.append t3'
  · obtain ⟨ho, o1, o2⟩ := i1.order
    obtain ⟨ho', o1', o2'⟩ := i2.order
    refine ⟨.merge ho ho', by rw [Order.runColumn, o1, o1'], ?_⟩
    rw [List.filter_append]
    simp only [OrderSpec.seen, OrderSpec.batches, List.flatten_append]
    exact o2.append o2'
  · refine ⟨.merge hv hv', by rw [Vocab.run, v1, v1'], ?_⟩
    rw [List.filter_append]
    exact v2.append v2'
  · refine ⟨.merge hd hd', by rw [DateTime.run, d1, d1'], ?_, fun hdr => ⟨d3 hdr.1, d3' hdr.2⟩⟩
    rw [List.filter_append]
    exact d2.append d2'

/-- The parts of a fresh profile. -/
theorem Parts.new (w : World) (o : Opts) (hv : ∀ k, (o.calcs k).valid = true) :
    Parts w (.new o) [] (Profs.new w o) where
  num k := ⟨.new (o.calcs k) (o.bias k), rfl, hv k, .refl _, fun _ => Iff.rfl, Iff.rfl⟩
  cats := ⟨.new o.stop o.topK, rfl, .refl _, by simp [CatSpec.optsIn, NeverStops]⟩
  types := ⟨.new, rfl, trivial, .refl _, rfl⟩
  order := ⟨.new, rfl, .refl _⟩
  vocab := ⟨.new, rfl, .refl _⟩
  dates := ⟨.new, rfl, .refl _, fun _ => trivial⟩

/-- Every sensible history goes through; its base statistics and its compilers are those of the cells looked at. -/
theorem run_parts (w : World) (hset : ∀ l, (w.setOrder l).Perm l) (h : History)
    (hs : Spec.Column.Sensible h) :
    ∃ s cs, run w h = .ok s ∧ NullsSpec.Sampled w.isNull (nullsOf h) cs ∧ Looked w.isNull h (cs.map Prod.snd) ∧
      Nulls.run w.isNull w.setOrder (nullsOf h) = .ok s.base ∧ (s.profs.isSome = true ↔ Spec.Column.Fed h) ∧
      Parts w h (cs.map Prod.snd) (s.profs.getD (Profs.new w s.opts)) := by
  induction h with
  | new o => exact ⟨_, [], rfl, .new, .new o, rfl, by simp [Spec.Column.Fed], Parts.new w o hs⟩
  | update h b ih =>
    obtain ⟨s, cs, r1, r2, r2', r3, r4, r5⟩ := ih hs.1
    obtain ⟨k, vals, base, b1, b2, _, _, _, b6, _⟩ := Nulls.C17_partition (isNull := w.isNull) hset hs.2.1
    obtain ⟨s', _, u1, _⟩ := Nulls.C17_history (isNull := w.isNull) hset (nullsOf (.update h b)) (sensible_nullsOf hs)
    rw [filter_map_snd] at b6
    obtain ⟨q, q1, q2⟩ := r5.update b b6
    have hu : Nulls.updateBase s.base base = .ok s' := by
      rw [nullsOf, Nulls.run, r3, Nulls.batchBase, b2] at u1
      exact u1
    refine ⟨⟨s.opts, s', some q⟩, cs ++ firstRows b.toBatch k, ?_, .update r2 b1, ?_, u1, by simp [Spec.Column.Fed], ?_⟩
    · rw [run, r1]
      simp only [update, b2, hu, q1]
    · rw [List.map_append]; exact .update r2' b1
    · rw [List.map_append]; exact q2
  | merge h1 h2 i1 i2 =>
    obtain ⟨a, cs, r1, r2, r2', r3, r4, r5⟩ := i1 hs.1
    obtain ⟨b, ds, s1, s2, s2', s3, s4, s5⟩ := i2 hs.2.1
    obtain ⟨s', _, u1, _⟩ := Nulls.C17_history (isNull := w.isNull) hset (nullsOf (.merge h1 h2)) (sensible_nullsOf hs)
    have ha := r4.2 hs.2.2.1
    have hb := s4.2 hs.2.2.2
    obtain ⟨p, hp⟩ := Option.isSome_iff_exists.1 ha
    obtain ⟨q, hq⟩ := Option.isSome_iff_exists.1 hb
    rw [hp] at r5
    rw [hq] at s5
    obtain ⟨r, m1, m2⟩ := r5.merge s5
    have hu : Nulls.mergeState a.base b.base = .ok s' := by
      rw [nullsOf, Nulls.run, r3, s3] at u1
      exact u1
    refine ⟨⟨a.opts, s', some r⟩, cs ++ ds, ?_, .merge r2 s2, ?_, u1, by simp [Spec.Column.Fed, hs.2.2], ?_⟩
    · rw [run, r1, s1]
      simp only [merge, hp, hq, hu]
      simp only [Option.getD_some] at m1
      simp [m1]
    · rw [List.map_append]; exact .merge r2' s2'
    · rw [List.map_append]; exact m2

/-- The numbers of the specification are the numbers the profiles see. -/
theorem numbers_eq (w : World) (k : Kind) (xs : List String) : xs.filterMap (w.parse k) = numbers w.number k xs := by
  rw [numbers]
  congr 1
  funext x
  cases k with
  | text => rfl
  | float => rfl
  | int =>
    simp only [World.parse]
    cases hx : w.number x with
    | none => simp
    | some q =>
      have hi := ColumnTypes.isInt_iff w.toFloat x
      by_cases hz : ∃ z : ℤ, q = z
      · have : ColumnTypes.isInt w.toFloat x = true := by
          rw [hi]
          obtain ⟨z, rfl⟩ := hz
          exact ⟨z, by simp [World.toFloat, hx]⟩
        simp [this, hz]
      · have : ColumnTypes.isInt w.toFloat x = false := by
          rw [Bool.eq_false_iff, ne_eq, hi]
          rintro ⟨z, h⟩
          simp only [World.toFloat, hx, Option.map_some, Option.some.injEq, ColumnTypes.Flt.fin.injEq] at h
          exact hz ⟨z, h⟩
        simp [this, hz]

end Verif.Column

namespace Verif.Column

open Verif Verif.Spec.Column Verif.NullsSpec

/-- The cells looked at are determined. -/
theorem sampled_unique {isNull : String → Bool} {h : Nulls.History} {cs ds : List Nulls.Cell} (h1 : Sampled isNull h cs)
    (h2 : Sampled isNull h ds) : cs = ds := by
  induction h1 generalizing ds with
  | new => cases h2; rfl
  | update _ ht ih =>
    cases h2 with
    | update h2 ht2 => rw [ih h2, Nulls.C17_taken_unique ht ht2]
  | merge _ _ i1 i2 =>
    cases h2 with
    | merge a b => rw [i1 a, i2 b]

/-- Without dates, the selected type only depends on which values were seen. -/
theorem selected_same (w : World) (hdt : w.enabled .datetime = false) {h1 h2 : ColumnTypes.History}
    (s1 : ColumnTypesSpec.Sensible h1) (s2 : ColumnTypesSpec.Sensible h2) {c d : ColumnTypes.Compiler}
    (r1 : ColumnTypes.run w.toFloat w.enabled h1 = .ok c) (r2 : ColumnTypes.run w.toFloat w.enabled h2 = .ok d)
    (hv : (ColumnTypesSpec.values h1).Perm (ColumnTypesSpec.values h2)) :
    ColumnTypes.selected c = ColumnTypes.selected d := by
  by_cases hn : ColumnTypesSpec.values h1 = []
  · obtain ⟨c', e1, e2⟩ := ColumnTypes.C30_unseen w.toFloat w.enabled h1 s1 hn
    obtain ⟨d', e3, e4⟩ := ColumnTypes.C30_unseen w.toFloat w.enabled h2 s2 (by rw [hn] at hv; exact hv.nil_eq.symm)
    rw [r1] at e1
    rw [r2] at e3
    cases e1; cases e3
    rw [e2, e4]
  · obtain ⟨c', e1, e2⟩ := ColumnTypes.C30_selected w.toFloat w.enabled h1 s1 hn
    obtain ⟨d', e3, e4⟩ := ColumnTypes.C30_selected w.toFloat w.enabled h2 s2
      (fun e => hn (by rw [e] at hv; exact hv.eq_nil))
    rw [r1] at e1
    rw [r2] at e3
    cases e1; cases e3
    have hall : ∀ t, t ≠ .datetime → (ColumnTypesSpec.AllAre w.toFloat h1 t ↔ ColumnTypesSpec.AllAre w.toFloat h2 t) := by
      intro t ht
      cases t with
      | datetime => exact absurd rfl ht
      | int => exact forall_congr' fun x => by rw [hv.mem_iff]
      | float => exact forall_congr' fun x => by rw [hv.mem_iff]
      | text => exact Iff.rfl
    have hfirst : ∀ t, ColumnTypesSpec.IsFirst w.toFloat w.enabled h1 t ↔ ColumnTypesSpec.IsFirst w.toFloat w.enabled h2 t := by
      intro t
      unfold ColumnTypesSpec.IsFirst
      by_cases ht : t = .datetime
      · subst ht; simp [hdt]
      · rw [hall t ht]
        refine and_congr_right fun _ => and_congr_right fun _ => forall_congr' fun t' => ?_
        by_cases ht' : t' = .datetime
        · subst ht'; simp [hdt]
        · rw [hall t' ht']
    apply Option.ext
    intro t
    rw [e2, e4, hfirst]

end Verif.Column
