import Mathlib.Tactic.Ring
import Mathlib.Tactic.Linarith
import Verif.Spec.Plot
import Verif.Spec.Schema
import Verif.Lemmas.Schema

/-!
# Lemmas about the plots of histograms
-/

namespace Verif.Plot

open Verif Verif.Spec.Plot

theorem pick_at {cols : List Column} {i : ℤ} {c : Column} : pick cols i = .ok c ↔ At cols i c := by
  unfold pick At
  by_cases h0 : 0 ≤ i
  · obtain ⟨k, rfl⟩ := Int.eq_ofNat_of_zero_le h0
    simp only [h0, if_true, Int.toNat_natCast]
    constructor
    · intro h
      refine Or.inl ⟨k, rfl, ?_⟩
      cases hk : cols[k]? with
      | none => rw [hk] at h; cases h
      | some d => rw [hk] at h; cases h; rfl
    · rintro (⟨k', e, h⟩ | ⟨k', e, hn, h⟩)
      · have : k = k' := by omega
        subst this
        rw [h]
      · omega
  · by_cases h1 : 0 ≤ i + cols.length
    · simp only [h0, if_false, h1, if_true]
      constructor
      · intro h
        refine Or.inr ⟨(i + cols.length).toNat, by omega, by omega, ?_⟩
        cases hk : cols[(i + cols.length).toNat]? with
        | none => rw [hk] at h; cases h
        | some d => rw [hk] at h; cases h; rfl
      · rintro (⟨k', e, h⟩ | ⟨k', e, hn, h⟩)
        · omega
        · have : (i + cols.length).toNat = k' := by omega
          rw [this, h]
    · simp only [h0, if_false, h1]
      constructor
      · intro h; cases h
      · rintro (⟨k', e, h⟩ | ⟨k', e, hn, h⟩)
        · omega
        · omega

theorem graphable_ok {cols : List Column} {i : ℤ} {c : Column} (h : At cols i c) (hc : c.compiled = true) :
    graphable cols i = .ok (decide (Numeric c)) := by
  unfold graphable
  rw [pick_at.mpr h]
  show (if c.compiled then _ else _) = _
  rw [if_pos hc]
  rfl

theorem filterInds_ok {cols : List Column} {is : List ℤ} {cs : List Column} (h : List.Forall₂ (At cols) is cs)
    (hc : ∀ c ∈ cs, c.compiled = true) :
    ∃ ks, filterInds cols is = .ok ks ∧ List.Forall₂ (At cols) ks (cs.filter fun c => decide (Numeric c)) := by
  induction h with
  | nil => exact ⟨[], rfl, by simp⟩
  | @cons i c is cs hi _ ih =>
    obtain ⟨ks, hk, hf⟩ := ih fun c hm => hc c (List.mem_cons_of_mem _ hm)
    have hg := graphable_ok hi (hc c List.mem_cons_self)
    by_cases hn : Numeric c
    · refine ⟨i :: ks, ?_, ?_⟩
      · rw [filterInds, hg, hk]; simp [hn, bind, Except.bind]
      · rw [List.filter_cons_of_pos (by simpa using hn)]; exact .cons hi hf
    · refine ⟨ks, ?_, ?_⟩
      · rw [filterInds, hg, hk]; simp [hn, bind, Except.bind]
      · rw [List.filter_cons_of_neg (by simpa using hn)]; exact hf

/-! ## Bars -/

theorem heights_go (edges : List ℚ) : ∀ (counts : List ℚ) (pre : List (ℚ × ℚ)), edges.length = counts.length + 1 →
    edges.Pairwise (· < ·) → (∀ p ∈ pre, ∀ e ∈ edges, p.1 < e) →
    heights (pre ++ edges.dropLast.zip counts) edges = counts := by
  induction edges with
  | nil => intro counts pre hl; simp at hl
  | cons a tl ih =>
    intro counts pre hl hs hp
    cases tl with
    | nil =>
      have : counts = [] := by cases counts with | nil => rfl | cons _ _ => simp at hl
      subst this; rfl
    | cons b rest =>
      cases counts with
      | nil => simp at hl
      | cons w ws =>
        have hsp := List.pairwise_cons.mp hs
        have hab : a < b := hsp.1 b List.mem_cons_self
        have hpost : ∀ p ∈ (b :: rest).dropLast.zip ws, p.1 ∈ (b :: rest).dropLast := fun p hp' =>
          (List.of_mem_zip (show (p.1, p.2) ∈ _ from hp')).1
        have hge : ∀ x ∈ (b :: rest).dropLast, b ≤ x := by
          intro x hx
          have hx' := List.dropLast_subset _ hx
          rcases List.mem_cons.mp hx' with rfl | hm
          · exact le_refl _
          · exact le_of_lt ((List.pairwise_cons.mp hsp.2).1 x hm)
        show weight _ a b rest.isEmpty :: heights _ (b :: rest) = w :: ws
        have hdl : (a :: b :: rest).dropLast.zip (w :: ws) = (a, w) :: (b :: rest).dropLast.zip ws := rfl
        rw [hdl]
        congr 1
        · unfold weight
          have hpre : pre.filter (fun p => inBin a b rest.isEmpty p.1) = [] := by
            rw [List.filter_eq_nil_iff]
            intro p hp'
            have := hp p hp' a List.mem_cons_self
            simp [inBin, not_le.mpr this]
          have hpo : ((b :: rest).dropLast.zip ws).filter (fun p => inBin a b rest.isEmpty p.1) = [] := by
            rw [List.filter_eq_nil_iff]
            intro p hp'
            have hb := hge _ (hpost p hp')
            cases rest with
            | nil => simp at hp'
            | cons r rs => simp [inBin, not_lt.mpr hb]
          have hin : inBin a b rest.isEmpty a = true := by simp [inBin, hab]
          rw [List.filter_append, hpre, List.filter_cons, if_pos (show inBin a b rest.isEmpty (a, w).1 = true from hin), hpo]
          simp
        · have := ih ws (pre ++ [(a, w)]) (by simpa using hl) hsp.2 (by
            intro p hp' e he
            rcases List.mem_append.mp hp' with hm | hm
            · exact hp p hm e (List.mem_cons_of_mem _ he)
            · rw [List.mem_singleton] at hm; subst hm; exact hsp.1 e he)
          rw [List.append_assoc] at this
          exact this

theorem heights_counts {h : Hist} (hp : Proper h) : heights (h.edges.dropLast.zip h.counts) h.edges = h.counts := by
  have := heights_go h.edges h.counts [] hp.1 hp.2 (by simp)
  simpa using this

/-- The weight of the points satisfying a test. -/
def total (pts : List (ℚ × ℚ)) (p : ℚ → Bool) : ℚ := ((pts.filter fun x => p x.1).map Prod.snd).sum

theorem total_cons (x : ℚ × ℚ) (pts : List (ℚ × ℚ)) (p : ℚ → Bool) :
    total (x :: pts) p = (if p x.1 then x.2 else 0) + total pts p := by
  unfold total
  by_cases h : p x.1 = true
  · simp [h]
  · simp [h]

theorem total_split (pts : List (ℚ × ℚ)) (p q r : ℚ → Bool) (h : ∀ x, r x = (p x || q x)) (hd : ∀ x, ¬(p x = true ∧ q x = true)) :
    total pts r = total pts p + total pts q := by
  induction pts with
  | nil => simp [total]
  | cons x xs ih =>
    rw [total_cons, total_cons, total_cons, ih]
    have h1 := h x.1
    have h2 := hd x.1
    cases hp : p x.1 <;> cases hq : q x.1 <;> simp_all <;> ring

theorem heights_sum (pts : List (ℚ × ℚ)) (rest : List ℚ) : ∀ (a b : ℚ), (a :: b :: rest).Pairwise (· ≤ ·) →
    (heights pts (a :: b :: rest)).sum = total pts fun x => decide (a ≤ x) && decide (x ≤ (b :: rest).getLast (by simp)) := by
  induction rest with
  | nil =>
    intro a b hs
    show (weight pts a b true :: []).sum = _
    have hab : a ≤ b := (List.pairwise_cons.mp hs).1 b List.mem_cons_self
    simp only [List.sum_cons, List.sum_nil, add_zero]
    unfold weight total
    congr 3
    funext x
    have : (decide (x.1 < b) || (true && decide (x.1 ≤ b))) = decide (x.1 ≤ b) := by
      by_cases h : x.1 ≤ b
      · simp [h]
      · have : ¬ x.1 < b := fun h' => h h'.le
        simp [h, this]
    simp only [inBin, this]
    rfl
  | cons c rest ih =>
    intro a b hs
    have hsp := List.pairwise_cons.mp hs
    show (weight pts a b false :: heights pts (b :: c :: rest)).sum = _
    rw [List.sum_cons, ih b c hsp.2]
    have hlast : (b :: c :: rest).getLast (by simp) = (c :: rest).getLast (by simp) := by simp
    rw [hlast]
    have hab : a ≤ b := hsp.1 b List.mem_cons_self
    have hbl : b ≤ (c :: rest).getLast (by simp) := (List.pairwise_cons.mp hsp.2).1 _ (List.getLast_mem _)
    generalize (c :: rest).getLast (by simp) = z at *
    refine (total_split pts (fun x => inBin a b false x) _ _ ?_ ?_).symm
    · intro x
      by_cases h1 : x < b
      · have h2 : ¬ b ≤ x := not_le.mpr h1
        have h3 : x ≤ z := h1.le.trans hbl
        simp [inBin, h1, h2, h3]
      · have h2 : b ≤ x := not_lt.mp h1
        have h3 : a ≤ x := hab.trans h2
        simp [inBin, h1, h2, h3]
    · rintro x ⟨h1, h2⟩
      simp [inBin] at h1 h2
      exact absurd h1.2 (not_lt.mpr h2.1)

theorem le_getLast (l : List ℚ) (hs : l.Pairwise (· ≤ ·)) (x : ℚ) (hne : l ≠ []) (hx : x ∈ l) : x ≤ l.getLast hne := by
  induction l with
  | nil => cases hx
  | cons a tl ih =>
    have hsp := List.pairwise_cons.mp hs
    cases tl with
    | nil => rw [List.mem_singleton] at hx; subst hx; simp
    | cons b rest =>
      rw [List.getLast_cons (by simp)]
      rcases List.mem_cons.mp hx with rfl | hm
      · exact hsp.1 _ (List.getLast_mem _)
      · exact ih hsp.2 (by simp) hm

theorem heights_mass {h : Hist} (hl : h.edges.length = h.counts.length + 1) (hs : h.edges.Pairwise (· ≤ ·)) :
    (heights (h.edges.dropLast.zip h.counts) h.edges).sum = h.counts.sum := by
  obtain ⟨edges, counts⟩ := h
  simp only at hl hs ⊢
  match edges, counts with
  | [], _ => simp at hl
  | [a], [] => rfl
  | [a], _ :: _ => simp at hl
  | a :: b :: rest, counts =>
    rw [heights_sum _ rest a b hs]
    have hall : ∀ p ∈ (a :: b :: rest).dropLast.zip counts,
        (decide (a ≤ p.1) && decide (p.1 ≤ (b :: rest).getLast (by simp))) = true := by
      intro p hp
      have hm := List.dropLast_subset _ (List.of_mem_zip (show (p.1, p.2) ∈ _ from hp)).1
      have hsp := List.pairwise_cons.mp hs
      have h1 : a ≤ p.1 := by
        rcases List.mem_cons.mp hm with h | h
        · rw [h]
        · exact hsp.1 _ h
      have h2 : p.1 ≤ (b :: rest).getLast (by simp) := by
        have hg : (a :: b :: rest).getLast (by simp) = (b :: rest).getLast (by simp) := by simp
        rw [← hg]
        exact le_getLast _ hs _ (by simp) hm
      simp [h1, h2]
    unfold total
    rw [List.filter_eq_self.mpr hall]
    congr 1
    refine List.map_snd_zip ?_
    simp at hl ⊢
    omega

/-! ## Panels -/

theorem plotColumn_ok {c : Column} {h : Hist} (hc : c.hist = some h) (hp : Proper h) :
    ∃ p, plotColumn c = .ok p ∧ Faithful c p := by
  refine ⟨⟨c.name, h.edges, heights (h.edges.dropLast.zip h.counts) h.edges⟩, ?_, rfl, h, hc, rfl, heights_counts hp⟩
  unfold plotColumn
  rw [hc]

theorem drawPanels_ok {cols : List Column} {ks : List ℤ} {ds : List Column} (h : List.Forall₂ (At cols) ks ds)
    (hd : ∀ c ∈ ds, ∃ g, c.hist = some g ∧ Proper g) :
    ∀ k, ks.length ≤ k → ∃ panels, drawPanels cols ks k = .ok panels ∧ List.Forall₂ Faithful ds panels := by
  induction h with
  | nil => intro k _; exact ⟨[], by cases k <;> rfl, .nil⟩
  | @cons i c ks ds hi _ ih =>
    intro k hk
    cases k with
    | zero => simp at hk
    | succ k =>
      obtain ⟨g, hg, hp⟩ := hd c List.mem_cons_self
      obtain ⟨p, hpc, hf⟩ := plotColumn_ok hg hp
      obtain ⟨ps, hps, hfs⟩ := ih (fun c hm => hd c (List.mem_cons_of_mem _ hm)) k (by simpa using hk)
      refine ⟨p :: ps, ?_, .cons hf hfs⟩
      rw [drawPanels, pick_at.mpr hi]
      show (do let p ← plotColumn c; _) = _
      rw [hpc]
      show (do let more ← drawPanels cols ks k; _) = _
      rw [hps]
      rfl

theorem gridRows_le (n c : ℕ) (hc : 1 ≤ c) : n ≤ gridRows n c * c := by
  unfold gridRows
  have h1 := Nat.div_add_mod (n + c - 1) c
  have h2 := Nat.mod_lt (n + c - 1) hc
  have h3 : c * ((n + c - 1) / c) = (n + c - 1) / c * c := Nat.mul_comm _ _
  omega

theorem gridRows_lt (n c : ℕ) (hc : 1 ≤ c) : gridRows n c * c < n + c := by
  unfold gridRows
  have h1 := Nat.div_mul_le_self (n + c - 1) c
  omega

theorem drawFigure_ok (gc : ℕ → ℕ) (hgc : ∀ n, 1 ≤ n → 1 ≤ gc n) {cols : List Column} {ks : List ℤ} {ds : List Column}
    (h : List.Forall₂ (At cols) ks ds) (hd : ∀ c ∈ ds, ∃ g, c.hist = some g ∧ Proper g) (hne : ds ≠ []) :
    ∃ f, drawFigure gc cols ks = .ok f ∧ f.rows = gridRows ds.length (gc ds.length) ∧ f.cols = gc ds.length ∧
      Draws (some f) ds := by
  have hlen := h.length_eq
  have hpos : 1 ≤ ks.length := by rw [hlen]; exact List.length_pos_iff.mpr hne
  have hle := gridRows_le ks.length (gc ks.length) (hgc _ hpos)
  obtain ⟨ps, hps, hfs⟩ := drawPanels_ok h hd _ hle
  have hpl : ps.length = ks.length := by rw [hlen]; exact hfs.length_eq.symm
  refine ⟨⟨gridRows ks.length (gc ks.length), gc ks.length,
    axes ps ks.length (gridRows ks.length (gc ks.length) * gc ks.length)⟩, ?_, ?_⟩
  · rw [drawFigure, hps]; rfl
  refine ⟨by rw [hlen], by rw [hlen], hne, ?_, ps, hfs, ?_⟩
  · rw [← hlen]; exact hle
  · rw [← hlen]
    unfold axes
    simp only
    rw [Nat.min_eq_left hle, hpl, Nat.sub_self]
    simp

theorem plot_core (gc : ℕ → ℕ) (hgc : ∀ n, 1 ≤ n → 1 ≤ gc n) (lower : String → String) {cols : List Column}
    {names inds : Arg} {is : List ℤ} {cs : List Column} (hca : checkArgs names inds = .ok ())
    (hi : indsToGraph lower cols names inds = .ok is) (h : List.Forall₂ (At cols) is cs) (hr : ∀ c ∈ cs, Ready c) :
    ∃ f, plotHistograms gc lower cols names inds = .ok f ∧ Draws f (cs.filter fun c => decide (Numeric c)) := by
  obtain ⟨ks, hk, hf⟩ := filterInds_ok h fun c hm => (hr c hm).1
  by_cases hne : (cs.filter fun c => decide (Numeric c)) = []
  · refine ⟨none, ?_, hne⟩
    rw [hne] at hf
    have : ks = [] := by cases hf; rfl
    subst this
    rw [plotHistograms, hca, hi]
    show (do let kept ← filterInds cols is; _) = _
    rw [hk]
    rfl
  · have hd : ∀ c ∈ cs.filter (fun c => decide (Numeric c)), ∃ g, c.hist = some g ∧ Proper g := by
      intro c hm
      have hm' := List.mem_filter.mp hm
      exact (hr c hm'.1).2 (by simpa using hm'.2)
    obtain ⟨f, hfig, _, _, hD⟩ := drawFigure_ok gc hgc hf hd hne
    refine ⟨some f, ?_, hD⟩
    have hke : ks.isEmpty = false := by
      cases ks with
      | nil => cases hf' : (cs.filter fun c => decide (Numeric c)) with
        | nil => exact absurd hf' hne
        | cons _ _ => rw [hf'] at hf; cases hf
      | cons _ _ => rfl
    rw [plotHistograms, hca, hi]
    show (do let kept ← filterInds cols is; _) = _
    rw [hk]
    show (if ks.isEmpty = true then _ else _) = _
    rw [hke]
    show (do let f ← drawFigure gc cols ks; _) = _
    rw [hfig]
    rfl

/-! ## Names -/

theorem forall₂_range (cols : List Column) :
    List.Forall₂ (At cols) ((List.range cols.length).map fun i : ℕ => (i : ℤ)) cols := by
  rw [List.forall₂_iff_get]
  refine ⟨by simp, ?_⟩
  intro i h1 h2
  refine Or.inl ⟨i, by simp, ?_⟩
  simp at h2 ⊢

theorem mem_called (lower : String → String) (cols : List Column) (s : String) (i : ℕ) :
    i ∈ SchemaSpec.positions (SchemaSpec.names lower (cols.map Column.name)) (.str (lower s)) ↔
      ∃ c, cols[i]? = some c ∧ Called lower s c := by
  rw [Schema.mem_positions]
  unfold SchemaSpec.names
  rw [List.getElem?_map, List.getElem?_map]
  cases hc : cols[i]? with
  | none => simp
  | some c =>
    simp only [Option.map_some, Option.some.injEq, exists_eq_left']
    unfold Called
    cases hn : c.name with
    | str t => simp [SchemaSpec.folded]
    | int n => simp [SchemaSpec.folded]

theorem forall₂_filter_range (cols : List Column) (p : Column → Bool) (q : ℕ → Bool)
    (h : ∀ i c, cols[i]? = some c → q i = p c) :
    List.Forall₂ (At cols) (((List.range cols.length).filter q).map fun i : ℕ => (i : ℤ)) (cols.filter p) := by
  suffices H : ∀ (pre post : List Column), cols = pre ++ post →
      List.Forall₂ (At cols) (((List.range' pre.length post.length).filter q).map fun i : ℕ => (i : ℤ)) (post.filter p) by
    have := H [] cols rfl
    rw [List.range_eq_range']
    exact this
  intro pre post
  induction post generalizing pre with
  | nil => intro _; simp
  | cons c post ih =>
    intro hc
    have hgc : cols[pre.length]? = some c := by rw [hc]; simp
    have := ih (pre ++ [c]) (by rw [hc]; simp)
    rw [List.length_append, List.length_singleton] at this
    rw [List.length_cons, List.range'_succ]
    by_cases hp : p c = true
    · rw [List.filter_cons_of_pos (by rw [h _ _ hgc]; exact hp), List.filter_cons_of_pos hp, List.map_cons]
      exact .cons (Or.inl ⟨_, rfl, hgc⟩) this
    · rw [List.filter_cons_of_neg (by rw [h _ _ hgc]; exact hp), List.filter_cons_of_neg hp]
      exact this

theorem schema_get (lower : String → String) (cols : List Column) (s : String) :
    List.Forall₂ (At cols)
      ((PyDict.getD (Schema.schemaOf lower (cols.map Column.name)) (.str (lower s)) []).map fun i : ℕ => (i : ℤ))
      (cols.filter fun c => decide (Called lower s c)) := by
  rw [(Schema.schemaOf_spec lower (cols.map Column.name)).get]
  have hl : (SchemaSpec.names lower (cols.map Column.name)).length = cols.length := by simp [SchemaSpec.names]
  have := forall₂_filter_range cols (fun c => decide (Called lower s c))
    (fun i => decide ((SchemaSpec.names lower (cols.map Column.name))[i]? = some (.str (lower s)))) (by
      intro i c hc
      have h := mem_called lower cols s i
      rw [Schema.mem_positions, hc] at h
      simp only [Option.some.injEq, exists_eq_left'] at h
      exact decide_eq_decide.mpr h)
  unfold SchemaSpec.positions
  rw [hl]
  exact this

theorem schema_has (lower : String → String) (cols : List Column) (s : String) :
    PyDict.has (Schema.schemaOf lower (cols.map Column.name)) (.str (lower s)) = true ↔ ∃ c ∈ cols, Called lower s c := by
  rw [PyDict.has_iff, (Schema.schemaOf_spec lower (cols.map Column.name)).keys, List.mem_iff_getElem?]
  constructor
  · rintro ⟨i, hi⟩
    obtain ⟨c, hc, hC⟩ := (mem_called lower cols s i).mp (Schema.mem_positions.mpr hi)
    exact ⟨c, List.mem_of_getElem? hc, hC⟩
  · rintro ⟨c, hc, hC⟩
    obtain ⟨i, hi⟩ := List.mem_iff_getElem?.mp hc
    exact ⟨i, Schema.mem_positions.mp ((mem_called lower cols s i).mpr ⟨c, hi, hC⟩)⟩

theorem namedInds_ok (lower : String → String) (cols : List Column) (ss : List String)
    (h : ∀ s ∈ ss, ∃ c ∈ cols, Called lower s c) :
    ∃ is, namedInds lower (Schema.schemaOf lower (cols.map Column.name)) (ss.map Elem.text) = .ok is ∧
      List.Forall₂ (At cols) is (ss.flatMap fun s => cols.filter fun c => decide (Called lower s c)) := by
  induction ss with
  | nil => exact ⟨[], rfl, by simp⟩
  | cons s ss ih =>
    obtain ⟨is, hi, hf⟩ := ih fun s hs => h s (List.mem_cons_of_mem _ hs)
    have hh := (schema_has lower cols s).mpr (h s List.mem_cons_self)
    refine ⟨(PyDict.getD (Schema.schemaOf lower (cols.map Column.name)) (.str (lower s)) []).map (fun i : ℕ => (i : ℤ)) ++ is, ?_, ?_⟩
    · rw [List.map_cons, namedInds]
      show (if PyDict.has (Schema.schemaOf lower (cols.map Column.name)) (Schema.Key.str (lower s)) = true then _ else _) = _
      rw [if_pos hh, hi]
      rfl
    · rw [List.flatMap_cons]
      exact List.rel_append (schema_get lower cols s) hf

theorem namedInds_err (lower : String → String) (cols : List Column) (ss : List String) {s : String} (hs : s ∈ ss)
    (h : ¬∃ c ∈ cols, Called lower s c) :
    namedInds lower (Schema.schemaOf lower (cols.map Column.name)) (ss.map Elem.text) = .error .valueError := by
  induction ss with
  | nil => cases hs
  | cons t ss ih =>
    rw [List.map_cons, namedInds]
    show (if PyDict.has (Schema.schemaOf lower (cols.map Column.name)) (Schema.Key.str (lower t)) = true then _ else _) = _
    by_cases ht : ∃ c ∈ cols, Called lower t c
    · rw [if_pos ((schema_has lower cols t).mpr ht)]
      rcases List.mem_cons.mp hs with rfl | hm
      · exact absurd ht h
      · rw [ih hm]; rfl
    · rw [if_neg (fun hh => ht ((schema_has lower cols t).mp hh))]

end Verif.Plot
