import Mathlib.Algebra.Order.Floor.Semifield
import Verif.Spec.ColumnHist
import Verif.Props.HistColumn
import Verif.Props.Precision
import Verif.Props.Column

/-! # Histograms and precision inside a column profile -/

namespace Verif.Column

open Verif Verif.Histogram Verif.HistColumn Verif.Spec.Column Verif.Spec.ColumnHist Verif.Props.HistColumn

/-! ## Dictionaries that are left alone -/

/-- The dictionaries of a column all come after the first `n`. -/
structure Own (n : ℕ) (H : Heap) (c : Col) : Prop where
  stored : n ≤ c.stored
  entry : ∀ m e, PyDict.get? (H.tab c.table) m = some e → n ≤ e.hist

theorem newCol_own (H : Heap) (f : Bool) (o : Option Options) :
    Own H.dicts.length (newCol H f o).1 (newCol H f o).2 ∧ H.dicts.length ≤ (newCol H f o).1.dicts.length ∧
      (newCol H f o).2.names = (binNames o).1 ∧ (newCol H f o).2.user = (binNames o).2 ∧ (newCol H f o).2.isFloat = f := by
  have F := newTable_spec (some minBins) (binNames o).1 { H with dicts := H.dicts ++ [emptyDict] }
  obtain ⟨⟨k, hk⟩, -, hst⟩ := newCol_frame H f o
  refine ⟨⟨by rw [hst], ?_⟩, by rw [hk]; simp, rfl, rfl, rfl⟩
  intro m e he
  have htab : (newCol H f o).1.tab (newCol H f o).2.table =
      (newTable (some minBins) (binNames o).1 { H with dicts := H.dicts ++ [emptyDict] } []).2 := by
    unfold newCol Heap.tab
    simp
  rw [htab] at he
  have := (F.entry m e he).1
  simp only [List.length_append, List.length_singleton] at this
  omega

theorem update_own (est : String → List ℚ → ℕ) (H : Heap) (c : Col) (data batch : List ℚ) (n : ℕ) (hb : batch ≠ [])
    (hint : c.isFloat = false → ∀ v ∈ data ++ batch, IsInt v) (G : Good est H c data) (O : Own n H c) :
    Own n (HistColumn.update est H c batch).1 (HistColumn.update est H c batch).2 ∧
      (HistColumn.update est H c batch).1.dicts.length = H.dicts.length ∧
      ∀ r < n, (HistColumn.update est H c batch).1.dict r = H.dict r := by
  obtain ⟨vs, hc, hvne, hsafe, hst⟩ := combined_ok _ c.isFloat data batch hb hint G.track
  have hn : ∀ m ∈ c.names, ∃ e, PyDict.get? (H.tab c.table) m = some e := fun m hm => (PyDict.mem_keys_iff _ _).1 ((G.keys m).2 hm)
  obtain ⟨h1, W, e1, S, -⟩ := update_eq est H c batch vs hb hc G.ht hn (fun m e he => (G.entry m e he).1) G.hs
  have hs1 : c.stored < h1.dicts.length := by rw [W.dlen]; exact G.hs
  rw [e1]
  refine ⟨⟨by rw [S.stored]; exact O.stored, ?_⟩, ?_, ?_⟩
  · intro m e' he'
    rw [S.table] at he'
    have he1 : PyDict.get? (h1.tab c.table) m = some e' := he'
    have hk : m ∈ PyDict.keys (H.tab c.table) := by rw [← W.keys]; exact (PyDict.mem_keys_iff _ _).2 ⟨e', he1⟩
    obtain ⟨e, he⟩ := (PyDict.mem_keys_iff _ _).1 hk
    have := W.entry m e he
    rw [he1] at this
    have hh : e'.hist = e.hist := by
      simp only [Option.some.injEq] at this
      rw [this]
      split_ifs <;> rfl
    rw [hh]
    exact O.entry m e he
  · rw [← W.dlen]
    simp [Heap.write]
  · intro r hr
    have := O.stored
    rw [dict_write _ _ _ _ hs1, if_neg (by omega), W.miss r]
    intro m _ e he
    have := O.entry m e he
    omega

/-- What a merge of two histograms makes of the names, the number of bins asked for and the other dictionaries. -/
theorem merge_more (suggest : String → ℕ) (H H' : Heap) (c1 c2 c : Col) (lo hi : Option ℚ)
    (hm : HistColumn.merge suggest H c1 c2 lo hi = .ok (H', c)) :
    (∀ r < H.dicts.length, H'.dict r = H.dict r) ∧ H.dicts.length ≤ H'.dicts.length ∧
      (∀ g1 g2, c1.histogram H = some g1 → c2.histogram H = some g2 →
        c.names = (c1.names.filter fun x => c2.names.contains x) ∧ c.user = mergedUser c1.user c2.user) ∧
      (c1.histogram H = none → c1.stored < H.dicts.length → c2.histogram H = none → c2.stored < H.dicts.length →
        c.histogram H' = none ∧ c.stored < H'.dicts.length) := by
  obtain ⟨⟨k, hk⟩, -, hst⟩ := newCol_frame H c1.isFloat none
  have hlen : H.dicts.length < (newCol H c1.isFloat none).1.dicts.length := by rw [hk]; simp
  have hold : ∀ r < H.dicts.length, (newCol H c1.isFloat none).1.dict r = H.dict r := newCol_dict H c1.isFloat none
  have hkeep : ∀ (x : Col), x.stored < H.dicts.length → x.histogram (newCol H c1.isFloat none).1 = x.histogram H := by
    intro x hx
    unfold Col.histogram
    rw [hold _ hx]
  have hempty : ∀ x : Col, x.stored = H.dicts.length → x.histogram (newCol H c1.isFloat none).1 = none := by
    intro x hx
    unfold Col.histogram Heap.dict
    rw [hx, hk]
    simp [emptyDict, asHist]
  unfold HistColumn.merge at hm
  dsimp only at hm
  split at hm
  · rename_i g1 g2 e1 e2
    unfold mergeBoth at hm
    dsimp only at hm
    split at hm
    · cases hm
    split at hm
    · cases hm
    rename_i r _
    simp only [Except.ok.injEq, Prod.mk.injEq] at hm
    have F := newTable_spec none (c1.names.filter fun x => c2.names.contains x)
      { (newCol H c1.isFloat none).1 with
        dicts := (newCol H c1.isFloat none).1.dicts.set (newCol H c1.isFloat none).2.stored ⟨.floats r.1, some r.2⟩ }
    obtain ⟨k', hk'⟩ := F.dicts
    obtain ⟨m1, m2⟩ := hm
    have hd : H'.dicts = (newTable none (c1.names.filter fun x => c2.names.contains x)
      { (newCol H c1.isFloat none).1 with
        dicts := (newCol H c1.isFloat none).1.dicts.set (newCol H c1.isFloat none).2.stored ⟨.floats r.1, some r.2⟩ } []).1.dicts := by
      rw [← m1]
    rw [hk'] at hd
    refine ⟨?_, ?_, ?_, ?_⟩
    · intro r' hr'
      rw [← hold r' hr']
      unfold Heap.dict
      rw [hd]
      dsimp only
      rw [List.getD_eq_getElem?_getD, List.getElem?_append_left (by rw [List.length_set]; omega), List.getElem?_set,
        if_neg (by rw [hst]; omega), ← List.getD_eq_getElem?_getD]
    · rw [hd]
      simp only [List.length_append, List.length_set]
      omega
    · intro _ _ _ _
      obtain ⟨s1, -⟩ := withQuantiles_same H' { (newCol H c1.isFloat none).2 with
        names := (c1.names.filter fun x => c2.names.contains x), user := mergedUser c1.user c2.user,
        table := (newTable none (c1.names.filter fun x => c2.names.contains x)
          { (newCol H c1.isFloat none).1 with
            dicts := (newCol H c1.isFloat none).1.dicts.set (newCol H c1.isFloat none).2.stored ⟨.floats r.1, some r.2⟩ } []).1.tables.length }
      rw [← m2, m1]
      exact ⟨s1.names, s1.user⟩
    · intro a b _ _
      rw [hkeep c1 b, a] at e1
      cases e1
  · rename_i e2
    simp only [Except.ok.injEq, Prod.mk.injEq] at hm
    obtain ⟨rfl, rfl⟩ := hm
    refine ⟨hold, hlen.le, ?_, ?_⟩
    · intro g1 g2 a b
      rw [hkeep c2 (stored_lt H c2 g2 b), b] at e2
      cases e2
    · intro _ _ _ _
      exact ⟨hempty _ hst, by show (newCol H c1.isFloat none).2.stored < _; rw [hst]; exact hlen⟩
  · rename_i e1 e2
    simp only [Except.ok.injEq, Prod.mk.injEq] at hm
    obtain ⟨rfl, rfl⟩ := hm
    refine ⟨hold, hlen.le, ?_, ?_⟩
    · intro g1 g2 a b
      rw [hkeep c1 (stored_lt H c1 g1 a), a] at e1
      cases e1
    · intro _ _ _ _
      exact ⟨hempty _ hst, by show (newCol H c1.isFloat none).2.stored < _; rw [hst]; exact hlen⟩

end Verif.Column

namespace Verif.Column

open Verif Verif.Histogram Verif.HistColumn Verif.Spec.Column Verif.Spec.ColumnHist Verif.Props.HistColumn

/-! ## The numbers -/

theorem rational_eq (w : World) (k : Kind) (xs : List String) : xs.filterMap (w.rational k) = rationals w.number k xs := by
  rw [rationals]
  congr 1
  funext x
  cases k with
  | text => rfl
  | float => rfl
  | int =>
    simp only [World.rational]
    cases hx : w.number x with
    | none => simp
    | some q =>
      have hi := ColumnTypes.isInt_iff w.toFloat x
      by_cases hz : ∃ z : ℤ, q = z
      · have : ColumnTypes.isInt w.toFloat x = true := by
          rw [hi]
          obtain ⟨z, rfl⟩ := hz
          exact ⟨z, by simp [World.toFloat, hx]⟩
        simp [this, hz]
      · have : ColumnTypes.isInt w.toFloat x = false := by
          rw [Bool.eq_false_iff, ne_eq, hi]
          rintro ⟨z, h⟩
          simp only [World.toFloat, hx, Option.map_some, Option.some.injEq, ColumnTypes.Flt.fin.injEq] at h
          exact hz ⟨z, h⟩
        simp [this, hz]

theorem rationals_cast (read : String → Option ℚ) (k : Kind) (xs : List String) :
    numbers read k xs = (rationals read k xs).map fun q : ℚ => (q : ℝ) := by
  rw [numbers, rationals, List.map_filterMap]
  congr 1
  funext x
  cases k with
  | text => simp
  | float => cases hx : read x <;> simp [hx]
  | int =>
    cases hx : read x with
    | none => simp [hx]
    | some q =>
      simp only [hx, Option.bind_some]
      by_cases hz : ∃ z : ℤ, q = z
      · simp [hz]
      · simp [hz]

/-- Only the profile of decimals has numbers that are not whole. -/
theorem rationals_int (read : String → Option ℚ) (k : Kind) (hk : k ≠ .float) (xs : List String) :
    ∀ v ∈ rationals read k xs, IsInt v := by
  intro v hv
  simp only [rationals, List.mem_filterMap] at hv
  obtain ⟨x, -, hx⟩ := hv
  cases k with
  | float => exact absurd rfl hk
  | text =>
    simp only [Option.some.injEq] at hx
    exact ⟨x.length, by rw [← hx]; simp⟩
  | int =>
    simp only at hx
    cases hr : read x with
    | none => rw [hr] at hx; cases hx
    | some q =>
      rw [hr, Option.bind_some] at hx
      split_ifs at hx with hz
      cases hx
      obtain ⟨z, hz⟩ := hz
      exact ⟨z, hz⟩

theorem rationals_append (read : String → Option ℚ) (k : Kind) (xs ys : List String) :
    rationals read k (xs ++ ys) = rationals read k xs ++ rationals read k ys := by
  rw [rationals, List.filterMap_append]; rfl

/-- The cells looked at are determined. -/
theorem looked_unique {isNull : String → Bool} {h : History} {cs ds : List String} (h1 : Looked isNull h cs)
    (h2 : Looked isNull h ds) : cs = ds := by
  induction h1 generalizing ds with
  | new => cases h2; rfl
  | update _ ht ih =>
    cases h2 with
    | update h2 ht2 => rw [ih h2, Nulls.C17_taken_unique ht ht2]
  | merge _ _ i1 i2 =>
    cases h2 with
    | merge a b => rw [i1 a, i2 b]

theorem asRat_cast (q : ℚ) : asRat (some (q : ℝ)) = some q := by
  have h : ∃ p : ℚ, (p : ℝ) = (q : ℝ) := ⟨q, rfl⟩
  rw [asRat, dif_pos h]
  congr 1
  exact_mod_cast h.choose_spec

/-- The recorded extremes of a profile with numbers. -/
theorem extremes (w : World) (hset : ∀ l, (w.setOrder l).Perm l) (k : Kind) (h : History) (hs : Spec.Column.Sensible h) (hf : Spec.Column.Fed h)
    (hmin : On k Numeric.Calcs.min h) (hmax : On k Numeric.Calcs.max h) {cs : List String} (hl : Looked w.isNull h cs)
    (hne : rationals w.number k (cs.filter fun x => !w.isNull x) ≠ []) :
    ∃ s lo hi, run w h = .ok s ∧ minOf k s = some lo ∧ maxOf k s = some hi ∧
      (0 ∉ rationals w.number k (cs.filter fun x => !w.isNull x) →
        Spec.HistColumn.Smallest lo (rationals w.number k (cs.filter fun x => !w.isNull x)) ∧
        Spec.HistColumn.Largest hi (rationals w.number k (cs.filter fun x => !w.isNull x))) := by
  obtain ⟨s, p, ds, r1, r2, r3, -, -, r4, -⟩ := Props.Column.C97_describes hset h hs hf
  obtain rfl := looked_unique r3 hl
  obtain ⟨-, D⟩ := r4 k
  rw [rationals_cast] at D
  set R := rationals w.number k (ds.filter fun x => !w.isNull x) with hR
  have hne' : R.map (fun q : ℚ => (q : ℝ)) ≠ [] := by simpa using hne
  obtain ⟨a1, a2⟩ := D.min hmin
  obtain ⟨b1, b2⟩ := D.max hmax
  cases hm : (p.num k).min with
  | none => exact absurd (a2.1 hm) hne'
  | some m =>
    cases hM : (p.num k).max with
    | none => exact absurd (b2.1 hM) hne'
    | some M =>
      obtain ⟨lo, l1, rfl⟩ := List.mem_map.1 (a1 m hm)
      obtain ⟨hi, u1, rfl⟩ := List.mem_map.1 (b1 M hM)
      refine ⟨s, lo, hi, r1, by rw [minOf, r2, Option.bind_some, hm, asRat_cast], by rw [maxOf, r2, Option.bind_some, hM, asRat_cast], ?_⟩
      intro h0
      have h0' : (0 : ℝ) ∉ R.map (fun q : ℚ => (q : ℝ)) := by
        intro hc
        obtain ⟨q, q1, q2⟩ := List.mem_map.1 hc
        have : q = 0 := by exact_mod_cast q2
        exact h0 (this ▸ q1)
      refine ⟨⟨l1, fun v hv => ?_⟩, u1, fun v hv => ?_⟩
      · exact_mod_cast D.least hmin h0' _ hm (v : ℝ) (List.mem_map.2 ⟨v, hv, rfl⟩)
      · exact_mod_cast D.greatest hmax h0' _ hM (v : ℝ) (List.mem_map.2 ⟨v, hv, rfl⟩)

/-! ## All histories -/

/-- What is known of the histogram after a history. -/
structure Known (e : Env) (k : Kind) (H0 H : Heap) (h : History) (c : Option Col) (data : List ℚ) : Prop where
  old : ∀ r < H0.dicts.length, H.dict r = H0.dict r
  len : H0.dicts.length ≤ H.dicts.length
  fed : c.isSome = true ↔ Spec.Column.Fed h
  nodata : c = none → data = [] ∧ H = H0
  good : Updated h → ∀ x, c = some x → Good e.est H x data ∧ Own H0.dicts.length H x ∧ x.isFloat = decide (k = .float) ∧
    x.names = (binNames (e.bins k)).1 ∧ x.user = (binNames (e.bins k)).2
  stored : ∀ x, c = some x → x.stored < H.dicts.length
  empty : ∀ x, c = some x → data = [] → x.histogram H = none
  names : ∀ x, c = some x → data ≠ [] → x.names = (binNames (e.bins k)).1 ∧ x.user = (binNames (e.bins k)).2
  bars : ∀ x, c = some x → data ≠ [] → ∃ g, x.histogram H = some g ∧ Bars g data (Updated h ∨ 0 ∉ data)

theorem bars_of {g : Hist} {data : List ℚ} {P : Prop} (h : Spec.HistColumn.Describes g data) : Bars g data P :=
  ⟨h.shape, h.total, fun _ => h.first, fun _ => h.last⟩

theorem good_empty {est : String → List ℚ → ℕ} {H : Heap} {c : Col} (G : Good est H c []) : c.histogram H = none := by
  rcases G.track with ⟨-, hb⟩ | ⟨g', lo, hi, -, -, hlo, -⟩
  · unfold Col.histogram
    rw [hb]; rfl
  · simpa using hlo.1

theorem good_some {est : String → List ℚ → ℕ} {H : Heap} {c : Col} {data : List ℚ} {P : Prop} (hd : data ≠ []) (G : Good est H c data) :
    ∃ g, c.histogram H = some g ∧ Bars g data P := by
  obtain ⟨g, h1, h2⟩ := good_stored est H c data hd G
  exact ⟨_, by unfold Col.histogram; rw [h1]; rfl, bars_of h2⟩

/-- One update of a profile that was only updated. -/
theorem Known.update {e : Env} {k : Kind} {H0 H : Heap} {h : History} {c : Option Col} {data nums : List ℚ} (b : Batch)
    (K : Known e k H0 H h c data) (hu : Updated h) (hint : k ≠ .float → ∀ v ∈ data ++ nums, IsInt v) :
    Known e k H0 (feed e (histOf e k H c) nums).1 (.update h b) (Option.some (feed e (histOf e k H c) nums).2) (data ++ nums) := by
  have base : ∃ N x, histOf e k H c = (N, x) ∧ Good e.est N x data ∧ Own H0.dicts.length N x ∧ x.isFloat = decide (k = .float) ∧
      (∀ r < H0.dicts.length, N.dict r = H0.dict r) ∧ H0.dicts.length ≤ N.dicts.length ∧
      x.names = (binNames (e.bins k)).1 ∧ x.user = (binNames (e.bins k)).2 := by
    cases c with
    | none =>
      obtain ⟨hd, hH⟩ := K.nodata rfl
      subst hH
      obtain ⟨o1, o2, o3, o4, o5⟩ := newCol_own H (decide (k = .float)) (e.bins k)
      rw [hd]
      exact ⟨_, _, rfl, newCol_good _ _ _ _, o1, o5, newCol_dict H (decide (k = .float)) (e.bins k), o2, o3, o4⟩
    | some x =>
      obtain ⟨g1, g2, g3, g4, g5⟩ := K.good hu x rfl
      exact ⟨H, x, rfl, g1, g2, g3, K.old, K.len, g4, g5⟩
  obtain ⟨N, x, hN, G, O, hF, hold, hlen, hnm, hus⟩ := base
  have next : ∃ N' x', feed e (histOf e k H c) nums = (N', x') ∧ Good e.est N' x' (data ++ nums) ∧ Own H0.dicts.length N' x' ∧
      x'.isFloat = decide (k = .float) ∧ (∀ r < H0.dicts.length, N'.dict r = H0.dict r) ∧ H0.dicts.length ≤ N'.dicts.length ∧
      x'.names = (binNames (e.bins k)).1 ∧ x'.user = (binNames (e.bins k)).2 := by
    rw [hN]
    by_cases hb : nums = []
    · subst hb
      exact ⟨N, x, rfl, by rw [List.append_nil]; exact G, O, hF, hold, hlen, hnm, hus⟩
    · have hi : x.isFloat = false → ∀ v ∈ data ++ nums, IsInt v := by
        intro hf
        refine hint ?_
        rw [hF] at hf
        simpa using hf
      obtain ⟨G', S⟩ := update_good e.est N x data nums hb hi G
      obtain ⟨O', l', f'⟩ := update_own e.est N x data nums H0.dicts.length hb hi G O
      refine ⟨_, _, by rw [feed, if_neg (by cases nums <;> simp_all)], G', O', by rw [S.isFloat]; exact hF, ?_, by rw [l']; exact hlen,
        by rw [S.names]; exact hnm, by rw [S.user]; exact hus⟩
      intro r hr
      rw [f' r hr, hold r hr]
  obtain ⟨N', x', hN', G', O', hF', hold', hlen', hnm', hus'⟩ := next
  rw [hN']
  refine ⟨hold', hlen', by simp [Spec.Column.Fed], by simp, ?_, ?_, ?_, ?_, ?_⟩
  · rintro - y hy
    cases hy
    exact ⟨G', O', hF', hnm', hus'⟩
  · rintro y hy
    cases hy
    exact G'.hs
  · rintro y hy hd
    cases hy
    rw [hd] at G'
    exact good_empty G'
  · rintro y hy -
    cases hy
    exact ⟨hnm', hus'⟩
  · rintro y hy hd
    cases hy
    exact good_some hd G'

theorem binNames_ne {o : Option Options} (h : ∀ q, o ≠ Option.some ⟨.methods [], q⟩) : (binNames o).1 ≠ [] := by
  rcases o with - | ⟨m | ms | n, q⟩
  · simp [binNames, defaultNames]
  · simp [binNames]
  · intro hc
    simp only [binNames] at hc
    exact h q (by rw [hc])
  · simp [binNames]

theorem binNames_user {o : Option Options} (h : Spec.HistColumn.Wanted o = none) : (binNames o).2 = none := by
  rcases o with - | ⟨m | ms | n, q⟩ <;> simp_all [binNames, Spec.HistColumn.Wanted]

/-- Everything that holds of the histogram of a kind, for every history without updates after merges. -/
theorem runHist_known (w : World) (e : Env) (k : Kind) (hset : ∀ l, (w.setOrder l).Perm l)
    (hsome : ∀ q, e.bins k ≠ Option.some ⟨.methods [], q⟩) (h : History) (hs : Spec.Column.Sensible h)
    (hmin : On k Numeric.Calcs.min h) (hmax : On k Numeric.Calcs.max h) (hst : Straight w.isNull w.number k h)
    (hw : ¬ Updated h → Spec.HistColumn.Wanted (e.bins k) = none) (H0 : Heap) :
    ∃ s H c cs data, runHist w e k h H0 = .ok (s, H, c) ∧ run w h = .ok s ∧ Looked w.isNull h cs ∧
      data.Perm (rationals w.number k (cs.filter fun x => !w.isNull x)) ∧ Known e k H0 H h c data ∧
      (∀ h1 h2, h = .merge h1 h2 → data ≠ [] → ∃ (H2 : Heap) (c1 c2 : Col) (x : Col) (g1 g2 : Hist) (lo hi : ℚ), c = some x ∧
        c1.histogram H2 = some g1 ∧ c2.histogram H2 = some g2 ∧ g1.edges.length = g1.counts.length + 1 ∧
        g2.edges.length = g2.counts.length + 1 ∧ (∃ m ∈ c1.names, m ∈ c2.names) ∧ (c1.user = none ∨ c2.user = none) ∧
        HistColumn.merge (e.suggest h) H2 c1 c2 (some lo) (some hi) = .ok (H, x) ∧ g1.counts.sum + g2.counts.sum = data.length ∧
        (0 ∉ data → Spec.HistColumn.Smallest lo data ∧ Spec.HistColumn.Largest hi data)) := by
  induction h generalizing H0 with
  | new o =>
    refine ⟨_, H0, none, [], [], rfl, rfl, .new o, .refl _, ?_, by rintro _ _ ⟨⟩⟩
    exact ⟨fun _ _ => rfl, le_refl _, by simp [Spec.Column.Fed], fun _ => ⟨rfl, rfl⟩, by rintro - _ ⟨⟩, by rintro _ ⟨⟩, by rintro _ ⟨⟩,
      by rintro _ ⟨⟩, by rintro _ ⟨⟩⟩
  | update h b ih =>
    have hu : Updated h := hst
    have hst' : Straight w.isNull w.number k h := by
      cases h with
      | new => trivial
      | update => exact hu
      | merge => exact hu.elim
    obtain ⟨s, H, c, cs, data, r1, r2, r3, r4, K, -⟩ := ih hs.1 hmin hmax hst' (fun hc => absurd hu hc) H0
    obtain ⟨j, vals, base, b1, b2, -, -, -, b6, -⟩ := Nulls.C17_partition (isNull := w.isNull) hset hs.2.1
    rw [filter_map_snd] at b6
    obtain ⟨s', -, u1, -⟩ := run_parts w hset (.update h b) hs
    have hup : update w s b = .ok s' := by
      rw [run, r2] at u1
      exact u1
    have hp : (data ++ vals.filterMap (w.rational k)).Perm (rationals w.number k
        ((cs ++ (NullsSpec.firstRows b.toBatch j).map Prod.snd).filter fun x => !w.isNull x)) := by
      rw [List.filter_append, rationals_append]
      refine r4.append ?_
      rw [rational_eq]
      exact b6.filterMap _
    refine ⟨s', _, _, _, _, ?_, u1, .update r3 b1, hp, K.update b hu ?_, by rintro _ _ ⟨⟩⟩
    · rw [runHist, r1]
      simp only [b2, hup]
    · intro hk v hv
      exact rationals_int _ k hk _ v (hp.mem_iff.1 hv)
  | merge h1 h2 i1 i2 =>
    have hw0 := hw id
    obtain ⟨a, H1, c1, cs, d1, r1, r2, r3, r4, K1, -⟩ := i1 hs.1 hmin.1 hmax.1 hst.1 (fun _ => hw0) H0
    obtain ⟨b, H2, c2, ds, d2, s1, s2, s3, s4, K2, -⟩ := i2 hs.2.1 hmin.2 hmax.2 hst.2.1 (fun _ => hw0) H1
    obtain ⟨x1, rfl⟩ := Option.isSome_iff_exists.1 (K1.fed.2 hs.2.2.1)
    obtain ⟨x2, rfl⟩ := Option.isSome_iff_exists.1 (K2.fed.2 hs.2.2.2)
    have hf : Spec.Column.Fed (.merge h1 h2) := .inl hs.2.2.1
    have hl : Looked w.isNull (.merge h1 h2) (cs ++ ds) := .merge r3 s3
    have hp : (d1 ++ d2).Perm (rationals w.number k ((cs ++ ds).filter fun x => !w.isNull x)) := by
      rw [List.filter_append, rationals_append]
      exact r4.append s4
    obtain ⟨s, -, u1, -⟩ := run_parts w hset (.merge h1 h2) hs
    have hmg : merge w a b = .ok s := by
      rw [run, r2, s2] at u1
      exact u1
    have hrun : runHist w e k (.merge h1 h2) H0 =
        (match HistColumn.merge (e.suggest (.merge h1 h2)) H2 x1 x2 (minOf k s) (maxOf k s) with
          | .error x => .error x
          | .ok r => .ok (s, r.1, some r.2)) := by
      rw [runHist, r1]
      simp only [s1, hmg]
      rfl
    have hst1 : x1.stored < H1.dicts.length := K1.stored x1 rfl
    have hst2 : x2.stored < H2.dicts.length := K2.stored x2 rfl
    have hst1' : x1.stored < H2.dicts.length := lt_of_lt_of_le hst1 K2.len
    have hkeep : x1.histogram H2 = x1.histogram H1 := by
      unfold Col.histogram
      rw [K2.old _ hst1]
    have hiff : d1 ≠ [] ↔ d2 ≠ [] := by
      have f1 : Holds w.isNull w.number k h1 ↔ d1 ≠ [] := by
        constructor
        · rintro ⟨cs', l, n⟩ hc
          obtain rfl := looked_unique l r3
          rw [hc] at r4
          exact n r4.nil_eq.symm
        · intro n
          exact ⟨cs, r3, fun hc => n (by rw [hc] at r4; exact r4.eq_nil)⟩
      have f2 : Holds w.isNull w.number k h2 ↔ d2 ≠ [] := by
        constructor
        · rintro ⟨cs', l, n⟩ hc
          obtain rfl := looked_unique l s3
          rw [hc] at s4
          exact n s4.nil_eq.symm
        · intro n
          exact ⟨ds, s3, fun hc => n (by rw [hc] at s4; exact s4.eq_nil)⟩
      rw [← f1, ← f2]
      exact hst.2.2
    have hold : ∀ H' : Heap, (∀ r < H2.dicts.length, H'.dict r = H2.dict r) → ∀ r < H0.dicts.length, H'.dict r = H0.dict r := by
      intro H' hh r hr
      rw [hh r (lt_of_lt_of_le (lt_of_lt_of_le hr K1.len) K2.len), K2.old r (lt_of_lt_of_le hr K1.len), K1.old r hr]
    by_cases hd : d1 = []
    · have hd2 : d2 = [] := by
        by_contra hc
        exact hiff.2 hc hd
      have e1 : x1.histogram H2 = none := by rw [hkeep]; exact K1.empty x1 rfl hd
      have e2 : x2.histogram H2 = none := K2.empty x2 rfl hd2
      have hm : ∃ r, HistColumn.merge (e.suggest (.merge h1 h2)) H2 x1 x2 (minOf k s) (maxOf k s) = .ok r := by
        have e2' : x2.histogram (newCol H2 x1.isFloat none).1 = none := by
          unfold Col.histogram at e2 ⊢
          rw [newCol_dict _ _ _ _ hst2]; exact e2
        unfold HistColumn.merge
        dsimp only
        rw [e2']
        cases x1.histogram (newCol H2 x1.isFloat none).1 <;> exact ⟨_, rfl⟩
      obtain ⟨⟨H', x⟩, hm⟩ := hm
      obtain ⟨m1, m2, -, m4⟩ := merge_more _ _ _ _ _ _ _ _ hm
      obtain ⟨m5, m6⟩ := m4 e1 hst1' e2 hst2
      refine ⟨s, H', some x, cs ++ ds, [], by rw [hrun, hm], u1, hl, by rw [hd, hd2] at hp; exact hp, ?_, fun _ _ _ hc => absurd rfl hc⟩
      exact ⟨hold H' m1, (K1.len.trans K2.len).trans m2, by simp [hf], by simp, fun hc => hc.elim, by rintro _ ⟨⟩; exact m6,
        by rintro _ ⟨⟩ -; exact m5, fun _ _ hc => absurd rfl hc, fun _ _ hc => absurd rfl hc⟩
    · have hd2 := hiff.1 hd
      obtain ⟨g1, e1, B1⟩ := K1.bars x1 rfl hd
      obtain ⟨g2, e2, B2⟩ := K2.bars x2 rfl hd2
      rw [← hkeep] at e1
      have hne : rationals w.number k ((cs ++ ds).filter fun x => !w.isNull x) ≠ [] := by
        intro hc
        rw [hc] at hp
        have := hp.eq_nil
        simp only [List.append_eq_nil_iff] at this
        exact hd this.1
      obtain ⟨s', lo, hi, q1, q2, q3, q4⟩ := extremes w hset k (.merge h1 h2) hs hf hmin hmax hl hne
      rw [u1] at q1
      cases q1
      obtain ⟨n1, us1⟩ := K1.names x1 rfl hd
      obtain ⟨n2, us2⟩ := K2.names x2 rfl hd2
      have hcommon : ∃ m ∈ x1.names, m ∈ x2.names := by
        rw [n1, n2]
        obtain ⟨m, hm⟩ := List.exists_mem_of_ne_nil _ (binNames_ne hsome)
        exact ⟨m, hm, hm⟩
      obtain ⟨H', x, g, loss, m1, m2, m3, m4, m5, m6, m7, m8, m9, -⟩ :=
        merge_eq (e.suggest (.merge h1 h2)) H2 x1 x2 g1 g2 lo hi e1 e2 B1.shape B2.shape hcommon
      obtain ⟨f1, f2, f3, -⟩ := merge_more _ _ _ _ _ _ _ _ m1
      obtain ⟨f4, f5⟩ := f3 g1 g2 e1 e2
      have hq4 : 0 ∉ d1 ++ d2 → Spec.HistColumn.Smallest lo (d1 ++ d2) ∧ Spec.HistColumn.Largest hi (d1 ++ d2) := by
        intro h0
        obtain ⟨⟨a1, a2⟩, a3, a4⟩ := q4 (fun hc => h0 (hp.mem_iff.2 hc))
        exact ⟨⟨hp.mem_iff.2 a1, fun v hv => a2 v (hp.mem_iff.1 hv)⟩, hp.mem_iff.2 a3, fun v hv => a4 v (hp.mem_iff.1 hv)⟩
      have hsum : g1.counts.sum + g2.counts.sum = ((d1 ++ d2).length : ℕ) := by
        rw [B1.total, B2.total, List.length_append, Nat.cast_add]
      refine ⟨s, H', some x, cs ++ ds, d1 ++ d2, by rw [hrun, q2, q3, m1], u1, hl, hp, ?_, ?_⟩
      · refine ⟨hold H' f1, (K1.len.trans K2.len).trans f2, by simp [hf], by simp, fun hc => hc.elim, by rintro _ ⟨⟩; exact m3, ?_, ?_, ?_⟩
        · rintro _ - hc
          simp only [List.append_eq_nil_iff] at hc
          exact absurd hc.1 hd
        · rintro _ ⟨⟩ -
          refine ⟨by rw [f4, n1, n2]; simp, ?_⟩
          rw [f5, us1, us2, binNames_user hw0]
          rfl
        · rintro _ ⟨⟩ -
          refine ⟨g, by unfold Col.histogram; rw [m4]; rfl, m6, by rw [m7, hsum], ?_, ?_⟩
          · rintro (hc | h0)
            · exact hc.elim
            · exact ⟨lo, m8, (hq4 h0).1⟩
          · rintro (hc | h0)
            · exact hc.elim
            · exact ⟨hi, m9, (hq4 h0).2⟩
      · rintro _ _ ⟨⟩ -
        exact ⟨H2, x1, x2, x, g1, g2, lo, hi, rfl, e1, e2, B1.shape, B2.shape, hcommon,
          .inl (by rw [us1]; exact binNames_user hw0), m1, hsum, hq4⟩

end Verif.Column

namespace Verif.Column

open Verif Verif.Spec.Column Verif.Spec.ColumnHist Verif.PrecisionSpec

/-! ## Precision -/

theorem samples_size {e : Env} (hs : Samples e) (l : List String) : (e.sample l).length = Precision.sampleSize l.length none := by
  rw [(hs l).2]
  have hfl : ⌊((l.length : ℚ) * (1 / 20))⌋₊ = l.length / 20 := by
    rw [← Nat.floor_div_eq_div (K := ℚ) l.length 20]
    congr 1
    push_cast
    ring
  unfold Precision.sampleSize
  dsimp only
  rw [hfl]
  split_ifs with h
  · rw [min_eq_left]
    exact h.trans (le_max_left _ _)
  · rw [min_eq_right]
    apply max_le
    · omega
    · exact Nat.div_le_self _ _

theorem rows_le {b : Nulls.Batch} (hv : NullsSpec.Valid b) (j : ℕ) : (NullsSpec.firstRows b j).length ≤ b.col.length := by
  obtain ⟨h1, h2⟩ := Nulls.firstRows_positions hv j
  rw [NullsSpec.firstRows, Nulls.cellsAt_length b.col _ h2]
  have := (h1.subperm (fun p hp => List.mem_range.2 (h2 p hp))).length_le
  rwa [List.length_range] at this

/-- The precision of every sensible history is that of a history of its own. -/
theorem runPrec_parts (w : World) (e : Env) (hset : ∀ l, (w.setOrder l).Perm l) (hr : e.ratio = none) (he : Samples e) (h : History)
    (hs : Spec.Column.Sensible h) :
    ∃ ps cs hp, runPrec w e h = .ok ps ∧ Looked w.isNull h cs ∧ (ps.isSome = true ↔ Spec.Column.Fed h) ∧
      Precision.run hp = .ok (ps.getD ⟨none, none⟩) ∧ Precision.Valid hp ∧ Default hp ∧
      (values hp).Perm (written w.number (cs.filter fun x => !w.isNull x)) ∧ (Small h → AtMost 20000 hp) := by
  induction h with
  | new o =>
    exact ⟨none, [], .new none, rfl, .new o, by simp [Spec.Column.Fed], rfl, trivial, rfl, .refl _, fun _ => trivial⟩
  | update h b ih =>
    obtain ⟨ps, cs, hp, r1, r2, -, r4, r5, r6, r7, r8⟩ := ih hs.1
    obtain ⟨j, vals, base, b1, b2, -, -, -, b6, -⟩ := Nulls.C17_partition (isNull := w.isNull) hset hs.2.1
    rw [filter_map_snd] at b6
    refine ⟨some (Precision.update (ps.getD ⟨none, none⟩) ⟨decimals w vals, e.sample (decimals w vals)⟩), _,
      .update hp ⟨decimals w vals, e.sample (decimals w vals)⟩, ?_, .update r2 b1, by simp [Spec.Column.Fed], ?_, ⟨r5, (he _).1, ?_⟩, r6, ?_, ?_⟩
    · rw [runPrec, r1]
      simp only [b2, hr]
    · rw [Precision.run, r4]
      rfl
    · rw [samples_size he]
      rw [Precision.default_ratio hp r6]
    · rw [values, List.filter_append, written, List.filter_append]
      exact r7.append (b6.filter _)
    · intro hsm
      refine ⟨r8 hsm.1, ?_⟩
      have h1 : (decimals w vals).length ≤ vals.length := List.length_filter_le _ _
      have h2 := b6.length_eq
      have h3 := List.length_filter_le (fun x => !w.isNull x) ((NullsSpec.firstRows b.toBatch j).map Prod.snd)
      have h4 := rows_le hs.2.1 j
      rw [List.length_map] at h3
      have h5 := hsm.2
      show (decimals w vals).length ≤ 20000
      omega
  | merge h1 h2 i1 i2 =>
    obtain ⟨p, cs, hp, r1, r2, r3, r4, r5, r6, r7, r8⟩ := i1 hs.1
    obtain ⟨q, ds, hq, s1, s2, s3, s4, s5, s6, s7, s8⟩ := i2 hs.2.1
    obtain ⟨p, rfl⟩ := Option.isSome_iff_exists.1 (r3.2 hs.2.2.1)
    obtain ⟨q, rfl⟩ := Option.isSome_iff_exists.1 (s3.2 hs.2.2.2)
    have hv : Precision.Valid (.merge hp hq) := ⟨r5, s5⟩
    have hdf : Default (.merge hp hq) := ⟨r6, s6⟩
    obtain ⟨s, hrun, -⟩ := Precision.run_spec (.merge hp hq) hv (Precision.C36_default_drawn _ hv hdf)
    have hm : Precision.merge p q = .ok s := by
      rw [Precision.run, r4, s4] at hrun
      exact hrun
    refine ⟨some s, cs ++ ds, .merge hp hq, ?_, .merge r2 s2, by simp [Spec.Column.Fed, hs.2.2], hrun, hv, hdf, ?_, fun hsm => ⟨r8 hsm.1, s8 hsm.2⟩⟩
    · rw [runPrec, r1]
      simp only [s1, hm]
      rfl
    · rw [values, List.filter_append, written, List.filter_append]
      exact r7.append s7

end Verif.Column
