import Mathlib.Data.Nat.Sqrt
import Mathlib.Data.List.Dedup
import Verif.Lemmas.Plot
import Verif.Lemmas.PlotMissing

/-!
# C90: plots show what the profile holds
-/

namespace Verif.Props.Plot

open Verif Verif.Plot Verif.Spec.Plot

/-! ## Histograms -/

theorem gridCols_pos (n : ℕ) (hn : 1 ≤ n) : 1 ≤ gridCols n := by
  unfold gridCols
  split_ifs
  · exact Nat.sqrt_pos.mpr hn
  · omega

/-- With no columns given, the figure shows every column of numbers once, in the order of the profile. -/
theorem C90_all (gc : ℕ → ℕ) (hgc : ∀ n, 1 ≤ n → 1 ≤ gc n) (lower : String → String) (cols : List Column)
    (hr : ∀ c ∈ cols, Ready c) (names inds : Arg) (hn : names = .absent ∨ names = .list [])
    (hi : inds = .absent ∨ inds = .list []) :
    ∃ f, plotHistograms gc lower cols names inds = .ok f ∧ Draws f (cols.filter fun c => decide (Numeric c)) := by
  refine plot_core gc hgc lower (is := (List.range cols.length).map fun i : ℕ => (i : ℤ)) ?_ ?_ (forall₂_range cols) hr
  · rcases hn with rfl | rfl <;> rcases hi with rfl | rfl <;> rfl
  · rcases hn with rfl | rfl <;> rcases hi with rfl | rfl <;> rfl

/-- With names given, the figure shows the columns of numbers called so, name after name. -/
theorem C90_named (gc : ℕ → ℕ) (hgc : ∀ n, 1 ≤ n → 1 ≤ gc n) (lower : String → String) (cols : List Column)
    (ss : List String) (hne : ss ≠ []) (hs : ∀ s ∈ ss, ∃ c ∈ cols, Called lower s c)
    (hr : ∀ s ∈ ss, ∀ c ∈ cols, Called lower s c → Ready c) (inds : Arg) (hi : inds = .absent ∨ inds = .list []) :
    ∃ f, plotHistograms gc lower cols (.list (ss.map Elem.text)) inds = .ok f ∧
      Draws f ((ss.flatMap fun s => cols.filter fun c => decide (Called lower s c)).filter fun c => decide (Numeric c)) := by
  obtain ⟨is, h1, h2⟩ := namedInds_ok lower cols ss hs
  have htruth : inds.truth = false := by rcases hi with rfl | rfl <;> rfl
  have htn : (Arg.list (ss.map Elem.text)).truth = true := by
    cases ss with
    | nil => exact absurd rfl hne
    | cons _ _ => rfl
  refine plot_core gc hgc lower (is := is) ?_ ?_ h2 ?_
  · have ha : (ss.map Elem.text).all Elem.isText = true := by
      rw [List.all_eq_true]
      intro x hx
      obtain ⟨s, _, rfl⟩ := List.mem_map.mp hx
      rfl
    have hl : listOf Elem.isInt inds = true := by rcases hi with rfl | rfl <;> rfl
    unfold checkArgs
    rw [htn, htruth, hl]
    show (if _ then _ else if !(ss.map Elem.text).all Elem.isText then _ else _) = _
    rw [ha]
    rfl
  · unfold indsToGraph
    rw [htruth, htn]
    exact h1
  · intro c hc
    obtain ⟨s, hs', hm⟩ := List.mem_flatMap.mp hc
    have := List.mem_filter.mp hm
    exact hr s hs' c this.1 (by simpa using this.2)

/-- With indices given, the figure shows the columns of numbers among them, as often as they are given. -/
theorem C90_inds (gc : ℕ → ℕ) (hgc : ∀ n, 1 ≤ n → 1 ≤ gc n) (lower : String → String) (cols : List Column)
    (is : List ℤ) (cs : List Column) (hne : is ≠ []) (h : List.Forall₂ (At cols) is cs) (hr : ∀ c ∈ cs, Ready c)
    (names : Arg) (hn : names = .absent ∨ names = .list []) :
    ∃ f, plotHistograms gc lower cols names (.list (is.map Elem.int)) = .ok f ∧
      Draws f (cs.filter fun c => decide (Numeric c)) := by
  have htn : names.truth = false := by rcases hn with rfl | rfl <;> rfl
  have hti : (Arg.list (is.map Elem.int)).truth = true := by
    cases is with
    | nil => exact absurd rfl hne
    | cons _ _ => rfl
  refine plot_core gc hgc lower (is := is) ?_ ?_ h hr
  · have ha : (is.map Elem.int).all Elem.isInt = true := by
      rw [List.all_eq_true]
      intro x hx
      obtain ⟨s, _, rfl⟩ := List.mem_map.mp hx
      rfl
    have hl : listOf Elem.isText names = true := by rcases hn with rfl | rfl <;> rfl
    unfold checkArgs
    rw [htn, hti, hl]
    show (if !(is.map Elem.int).all Elem.isInt then _ else _) = _
    rw [ha]
    rfl
  · unfold indsToGraph
    rw [hti]
    show Except.ok ((is.map Elem.int).map Elem.toInt) = _
    rw [List.map_map]
    have : Elem.toInt ∘ Elem.int = id := rfl
    rw [this, List.map_id]

/-- A small profile: two columns of numbers around one of text. -/
def sample : List Column :=
  [⟨.str "Age", true, some "int", some ⟨[0, 1, 3], [4, 2]⟩⟩, ⟨.str "who", true, some "string", none⟩,
   ⟨.str "age", true, some "float", some ⟨[2, 5], [6]⟩⟩]

/-- Lower case of the names used here. -/
def low (s : String) : String := if s = "Age" ∨ s = "AGE" then "age" else s

theorem sample_ready : ∀ c ∈ sample, Ready c := by
  intro c hc
  rcases List.mem_cons.mp hc with rfl | hc
  · exact ⟨rfl, fun _ => ⟨_, rfl, rfl, by decide +kernel⟩⟩
  rcases List.mem_cons.mp hc with rfl | hc
  · exact ⟨rfl, fun h => absurd h (by decide +kernel)⟩
  rcases List.mem_cons.mp hc with rfl | hc
  · exact ⟨rfl, fun _ => ⟨_, rfl, rfl, by decide +kernel⟩⟩
  · cases hc

example : ∃ f, plotHistograms gridCols low sample .absent .absent = .ok f ∧
    Draws f (sample.filter fun c => decide (Numeric c)) :=
  C90_all gridCols gridCols_pos low sample sample_ready
    _ _ (.inl rfl) (.inl rfl)

example : (sample.filter fun c => decide (Numeric c)).map Column.name = [.str "Age", .str "age"] := by decide +kernel

example : ((["AGE"].flatMap fun s => sample.filter fun c => decide (Called low s c)).filter fun c => decide (Numeric c)).map
    Column.name = [.str "Age", .str "age"] := by decide +kernel

example : ∃ f, plotHistograms (fun n => n) low sample (.list (["AGE"].map Elem.text)) .absent = .ok f ∧
    Draws f ((["AGE"].flatMap fun s => sample.filter fun c => decide (Called low s c)).filter fun c => decide (Numeric c)) :=
  C90_named (fun n => n) (fun _ h => h) low sample ["AGE"] (by simp)
    (fun s hs => by rw [List.mem_singleton] at hs; subst hs; exact ⟨_, List.mem_cons_self, "Age", rfl, by decide +kernel⟩)
    (fun _ _ c hc _ => sample_ready c hc) _ (.inl rfl)

example : List.Forall₂ (At sample) [-1, 0] [⟨.str "age", true, some "float", some ⟨[2, 5], [6]⟩⟩,
    ⟨.str "Age", true, some "int", some ⟨[0, 1, 3], [4, 2]⟩⟩] :=
  .cons (.inr ⟨2, by decide, by decide, rfl⟩) (.cons (.inl ⟨0, rfl, rfl⟩) .nil)

/-- A name which no column bears is refused. -/
theorem C90_unknown (gc : ℕ → ℕ) (lower : String → String) (cols : List Column) (ss : List String) {s : String}
    (hs : s ∈ ss) (h : ¬∃ c ∈ cols, Called lower s c) (inds : Arg) :
    plotHistograms gc lower cols (.list (ss.map Elem.text)) inds = .error .valueError := by
  have htn : (Arg.list (ss.map Elem.text)).truth = true := by
    cases ss with
    | nil => cases hs
    | cons _ _ => rfl
  rw [plotHistograms]
  cases hc : checkArgs (.list (ss.map Elem.text)) inds with
  | error e =>
    have : e = .valueError := by
      unfold checkArgs at hc
      split_ifs at hc <;> cases hc <;> rfl
    rw [this]; rfl
  | ok u =>
    have hti : inds.truth = false := by
      unfold checkArgs at hc
      rw [htn] at hc
      cases hi : inds.truth with
      | false => rfl
      | true => rw [hi] at hc; cases hc
    show (do let all ← indsToGraph lower cols _ inds; _) = _
    have : indsToGraph lower cols (.list (ss.map Elem.text)) inds = .error .valueError := by
      unfold indsToGraph
      rw [hti, htn]
      exact namedInds_err lower cols ss hs h
    rw [this]
    rfl

example : ¬∃ c ∈ sample, Called low "height" c := by decide +kernel

/-- Names and indices together, or anything but a list of texts for the names or a list of integers for the indices,
are refused. -/
theorem C90_refused (gc : ℕ → ℕ) (lower : String → String) (cols : List Column) (names inds : Arg)
    (h : (names.truth = true ∧ inds.truth = true) ∨ (∃ b, names = .strange b) ∨ (∃ b, inds = .strange b) ∨
      (∃ l, names = .list l ∧ ∃ x ∈ l, ∀ s, x ≠ .text s) ∨ (∃ l, inds = .list l ∧ ∃ x ∈ l, ∀ n, x ≠ .int n)) :
    plotHistograms gc lower cols names inds = .error .valueError := by
  have hc : checkArgs names inds = .error .valueError := by
    unfold checkArgs
    split_ifs with h1 h2 h3
    · rfl
    · rfl
    · rfl
    · exfalso
      rcases h with ⟨e1, e2⟩ | ⟨b, rfl⟩ | ⟨b, rfl⟩ | ⟨l, rfl, x, hx, hn⟩ | ⟨l, rfl, x, hx, hn⟩
      · rw [e1, e2] at h1; exact h1 rfl
      · exact h2 rfl
      · exact h3 rfl
      · apply h2
        show (!l.all Elem.isText) = true
        rw [Bool.not_eq_true', List.all_eq_false]
        refine ⟨x, hx, ?_⟩
        cases x with
        | text s => exact absurd rfl (hn s)
        | int n => simp [Elem.isText]
        | other => simp [Elem.isText]
      · apply h3
        show (!l.all Elem.isInt) = true
        rw [Bool.not_eq_true', List.all_eq_false]
        refine ⟨x, hx, ?_⟩
        cases x with
        | text s => simp [Elem.isInt]
        | int n => exact absurd rfl (hn n)
        | other => simp [Elem.isInt]
  rw [plotHistograms, hc]
  rfl

example : (Arg.list [.int 3]).truth = true ∧ (Arg.list [.text "a"]).truth = true := ⟨rfl, rfl⟩

/-- The documentation lets a column be named by an integer, and tables without header have such names: they are refused. -/
theorem C90_integers_fails : ∃ cols : List Column, (∀ c ∈ cols, Ready c ∧ Numeric c) ∧ (∃ c ∈ cols, c.name = .int 0) ∧
    ∀ gc lower inds, plotHistograms gc lower cols (.list [.int 0]) inds = .error .valueError := by
  refine ⟨[⟨.int 0, true, some "int", some ⟨[0, 1], [1]⟩⟩], ?_, ⟨_, List.mem_cons_self, rfl⟩, ?_⟩
  · intro c hc
    rw [List.mem_singleton] at hc
    subst hc
    exact ⟨⟨rfl, fun _ => ⟨_, rfl, rfl, by decide +kernel⟩⟩, .inl rfl⟩
  · intro gc lower inds
    exact C90_refused gc lower _ _ _ (.inr (.inr (.inr (.inl ⟨_, rfl, _, List.mem_cons_self, by simp⟩))))

/-- The columns are not put into the order of the profile, although the code means to sort them. -/
theorem C90_order_fails : ∃ (cols : List Column) (is : List ℤ), (∀ c ∈ cols, Ready c ∧ Numeric c) ∧
    ∃ f, plotHistograms gridCols id cols .absent (.list (is.map Elem.int)) = .ok f ∧ Draws f cols.reverse ∧ ¬Draws f cols := by
  let a : Column := ⟨.str "a", true, some "int", some ⟨[0, 1], [1]⟩⟩
  let b : Column := ⟨.str "b", true, some "int", some ⟨[0, 1], [1]⟩⟩
  have hab : ∀ c ∈ [a, b], Ready c ∧ Numeric c := by
    intro c hc
    rcases List.mem_cons.mp hc with rfl | hc
    · exact ⟨⟨rfl, fun _ => ⟨_, rfl, rfl, by decide +kernel⟩⟩, .inl rfl⟩
    · rw [List.mem_singleton] at hc
      subst hc
      exact ⟨⟨rfl, fun _ => ⟨_, rfl, rfl, by decide +kernel⟩⟩, .inl rfl⟩
  refine ⟨[a, b], [1, 0], hab, ?_⟩
  obtain ⟨f, hf, hd⟩ := C90_inds gridCols gridCols_pos id [a, b] [1, 0] [b, a]
    (by simp) (.cons (.inl ⟨1, rfl, rfl⟩) (.cons (.inl ⟨0, rfl, rfl⟩) .nil))
    (fun c hc => (hab c (by simp at hc ⊢; tauto)).1) .absent (.inl rfl)
  have e : ([b, a].filter fun c => decide (Numeric c)) = [b, a] := rfl
  rw [e] at hd
  refine ⟨f, hf, hd, ?_⟩
  cases f with
  | none => cases hd
  | some f =>
    rintro ⟨_, _, ps, h2, h3⟩
    obtain ⟨_, _, qs, k2, k3⟩ := hd
    rw [h3] at k3
    cases h2 with
    | cons hp hps => cases k2 with
      | cons hq hqs =>
        cases hps with
        | cons hp' hps' => cases hqs with
          | cons hq' hqs' =>
            simp only [List.map_cons, List.cons_append, List.cons.injEq, Cell.shown.injEq] at k3
            have := hp.1
            rw [k3.1, hq.1] at this
            exact absurd (Schema.Key.str.inj this) (by decide)

/-- Every figure is a grid filled in order: as many panels as chosen columns, each other axis turned off, with the least
number of grid columns whose square has room for them and no row left empty. -/
theorem C90_grid (lower : String → String) (cols : List Column) (names inds : Arg) (f : Figure)
    (h : plotHistograms gridCols lower cols names inds = .ok (some f)) :
    ∃ panels : List Panel, panels ≠ [] ∧
      f.cells = panels.map Cell.shown ++ List.replicate (f.rows * f.cols - panels.length) Cell.off ∧
      panels.length ≤ f.rows * f.cols ∧ f.rows * f.cols < panels.length + f.cols ∧
      panels.length ≤ f.cols * f.cols ∧ (f.cols - 1) * (f.cols - 1) < panels.length := by
  rw [plotHistograms] at h
  cases hc : checkArgs names inds with
  | error e => rw [hc] at h; cases h
  | ok u =>
    rw [hc] at h
    replace h : (do let all ← indsToGraph lower cols names inds; let kept ← filterInds cols all
                    if kept.isEmpty then .ok none else do let f ← drawFigure gridCols cols kept; .ok (some f)) =
        (Except.ok (some f) : Except Err (Option Figure)) := h
    cases hi : indsToGraph lower cols names inds with
    | error e => rw [hi] at h; cases h
    | ok all =>
      rw [hi] at h
      replace h : (do let kept ← filterInds cols all
                      if kept.isEmpty then .ok none else do let f ← drawFigure gridCols cols kept; .ok (some f)) =
          (Except.ok (some f) : Except Err (Option Figure)) := h
      cases hk : filterInds cols all with
      | error e => rw [hk] at h; cases h
      | ok kept =>
        rw [hk] at h
        replace h : (if kept.isEmpty then .ok none else do let f ← drawFigure gridCols cols kept; .ok (some f)) =
          (Except.ok (some f) : Except Err (Option Figure)) := h
        cases kept with
        | nil => cases h
        | cons i rest =>
          replace h : (do let f ← drawFigure gridCols cols (i :: rest); .ok (some f)) =
            (Except.ok (some f) : Except Err (Option Figure)) := h
          generalize hks : i :: rest = ks at h
          have hpos : 1 ≤ ks.length := by rw [← hks]; simp
          have hlen : ∀ (l : List ℤ) (k : ℕ) (ps : List Panel), l.length ≤ k → drawPanels cols l k = .ok ps →
              ps.length = l.length := by
            intro l
            induction l with
            | nil => intro k ps _ hp; cases k <;> cases hp <;> rfl
            | cons j l ih =>
              intro k ps hk hp
              cases k with
              | zero => simp at hk
              | succ k =>
                rw [drawPanels] at hp
                cases h1 : pick cols j with
                | error e => rw [h1] at hp; cases hp
                | ok c =>
                  rw [h1] at hp
                  replace hp : (do let p ← plotColumn c; let more ← drawPanels cols l k; .ok (p :: more)) =
                    (Except.ok ps : Except Err (List Panel)) := hp
                  cases h2 : plotColumn c with
                  | error e => rw [h2] at hp; cases hp
                  | ok p =>
                    rw [h2] at hp
                    replace hp : (do let more ← drawPanels cols l k; .ok (p :: more)) =
                      (Except.ok ps : Except Err (List Panel)) := hp
                    cases h3 : drawPanels cols l k with
                    | error e => rw [h3] at hp; cases hp
                    | ok more =>
                      rw [h3] at hp
                      cases hp
                      simp [ih k more (by simpa using hk) h3]
          have hg1 : ks.length ≤ gridCols ks.length * gridCols ks.length := by
            unfold gridCols
            split_ifs with hs
            · omega
            · exact (Nat.sqrt_lt.mp (Nat.lt_succ_self _)).le
          have hg2 : (gridCols ks.length - 1) * (gridCols ks.length - 1) < ks.length := by
            unfold gridCols
            split_ifs with hs
            · have hsq : 1 ≤ ks.length.sqrt := by rw [Nat.one_le_iff_ne_zero]; intro h0; rw [h0] at hs; omega
              conv_rhs => rw [← hs]
              exact Nat.mul_self_lt_mul_self (by omega)
            · have := Nat.sqrt_le ks.length
              simp only [Nat.add_sub_cancel]
              omega
          have hg0 : 1 ≤ gridCols ks.length := by
            rw [Nat.one_le_iff_ne_zero]
            intro h0
            rw [h0] at hg1
            omega
          have hle := gridRows_le ks.length (gridCols ks.length) hg0
          have hlt := gridRows_lt ks.length (gridCols ks.length) hg0
          rw [drawFigure] at h
          cases hd : drawPanels cols ks (gridRows ks.length (gridCols ks.length) * gridCols ks.length) with
          | error e => rw [hd] at h; cases h
          | ok ps =>
            rw [hd] at h
            cases h
            have hpl := hlen _ _ _ hle hd
            refine ⟨ps, ?_, ?_, ?_, ?_, ?_, ?_⟩
            · intro hnil
              rw [hnil] at hpl
              simp only [List.length_nil] at hpl
              omega
            · unfold axes
              simp only
              rw [Nat.min_eq_left hle, hpl, Nat.sub_self]
              simp
            · rw [hpl]; exact hle
            · rw [hpl]; exact hlt
            · rw [hpl]; exact hg1
            · rw [hpl]; exact hg2

/-- A column of numbers without a histogram is refused. -/
theorem C90_nodata (c : Column) (h : c.hist = none) : plotColumn c = .error .valueError := by
  unfold plotColumn; rw [h]

/-- The panel of a histogram with bins of positive width has a bar for each bin, as high as its count. -/
theorem C90_bars (c : Column) (h : Hist) (hc : c.hist = some h) (hl : h.edges.length = h.counts.length + 1)
    (hs : h.edges.Pairwise (· < ·)) :
    ∃ p, plotColumn c = .ok p ∧ p.title = c.name ∧ p.edges = h.edges ∧ p.bars = h.counts := by
  obtain ⟨p, hp, ht, g, hg, he, hb⟩ := plotColumn_ok hc ⟨hl, hs⟩
  rw [hc] at hg
  cases hg
  exact ⟨p, hp, ht, he, hb⟩

/-- Even when bins have no width, no count is lost. -/
theorem C90_mass (c : Column) (h : Hist) (hc : c.hist = some h) (hl : h.edges.length = h.counts.length + 1)
    (hs : h.edges.Pairwise (· ≤ ·)) : ∃ p, plotColumn c = .ok p ∧ p.bars.sum = h.counts.sum := by
  refine ⟨⟨c.name, h.edges, heights (h.edges.dropLast.zip h.counts) h.edges⟩, ?_, heights_mass hl hs⟩
  unfold plotColumn
  rw [hc]

/-- A bin without width loses its bar to a neighbour. -/
theorem C90_bars_fails : ∃ (c : Column) (h : Hist) (p : Panel), c.hist = some h ∧ h.edges.length = h.counts.length + 1 ∧
    h.edges.Pairwise (· ≤ ·) ∧ plotColumn c = .ok p ∧ p.bars ≠ h.counts :=
  ⟨⟨.str "a", true, some "int", some ⟨[0, 0, 1], [3, 4]⟩⟩, ⟨[0, 0, 1], [3, 4]⟩, _, rfl, rfl, by decide +kernel, rfl,
    by decide +kernel⟩

/-! ## Missing values -/

/-- Without columns there is no plot of missing values. -/
theorem C90_missing_none (colors : List String) (order : List ℤ → List ℤ) : plotMissing colors order [] = .ok none := rfl

/-- The plot of missing values marks, for each column and null value, exactly the rows holding it – if and only if no row
holding it stands alone between others. -/
theorem C90_missing_partial (colors : List String) (hc : 2 ≤ colors.length) (order : List ℤ → List ℤ) (ho : Sorts order)
    (cols : List NullColumn) (hne : cols ≠ []) (hf : ∀ c ∈ cols, Filled c) :
    ∃ m, plotMissing colors order cols = .ok (some m) ∧
      (∀ i t r, Marks m.rects i t r → ∃ c rows, cols[i]? = some c ∧ (t, rows) ∈ c.nulls) ∧
      (∀ i c t rows, cols[i]? = some c → (t, rows) ∈ c.nulls →
        ((∀ r, Marks m.rects i t r ↔ r ∈ rows) ↔ ¬∃ r, Lonely rows r)) ∧
      (∀ (i : ℕ) (r : ℤ), (∃ q ∈ m.rects, q.label = none ∧ Inside q ((i : ℚ) + 1 / 2) r) ↔
        ∃ c, cols[i]? = some c ∧ 0 ≤ r ∧ r < c.sampleSize) ∧
      m.ticks.length = cols.length ∧
      (∀ (i : ℕ) (c : NullColumn), cols[i]? = some c → m.ticks[i]? = some ((i : ℚ) + 1 / 2, "\"" ++ c.name ++ "\"")) := by
  have hp : colors.drop 1 ≠ [] := by
    intro h
    rw [List.drop_eq_nil_iff] at h
    omega
  have horder : ∀ c ∈ cols, ∀ p ∈ c.nulls, order p.2 ≠ [] := by
    intro c hm p hp' h
    obtain ⟨x, hx⟩ := List.exists_mem_of_ne_nil _ ((hf c hm).2 p hp')
    have := ((ho p.2).1 x).mpr hx
    rw [h] at this
    cases this
  obtain ⟨rects, hr, _, _, hM, hG⟩ := drawColumns_ok hp cols 0 [] List.nodup_nil horder
  have hst : stateOf (colors.drop 1) [] = ⟨[], colors.drop 1⟩ := by simp [stateOf, table]
  rw [hst] at hr
  have hie : cols.isEmpty = false := by
    cases cols with
    | nil => exact absurd rfl hne
    | cons _ _ => rfl
  refine ⟨⟨rects, cols.zipIdx.map fun p => ((1 / 2 : ℚ) + p.2, "\"" ++ p.1.name ++ "\""), legendOf rects []⟩, ?_, ?_, ?_, ?_, ?_, ?_⟩
  · unfold plotMissing
    rw [hie]
    show (do let x ← drawColumns (colors.drop 1) order 0 cols ⟨[], colors.drop 1⟩; _) = _
    rw [hr]
    rfl
  · intro i t r h
    obtain ⟨c, rows, bs, _, h1, h2, _⟩ := (hM i t r).mp h
    exact ⟨c, rows, h1, h2⟩
  · intro i c t rows hi hrows
    have hcm : c ∈ cols := List.mem_of_getElem? hi
    obtain ⟨bs, hb, _⟩ := bars_ok (horder c hcm (t, rows) hrows)
    have hmark : ∀ r, Marks rects i t r ↔ hit bs r := by
      intro r
      rw [hM]
      constructor
      · rintro ⟨c', rows', bs', _, h1, h2, h3, h4⟩
        rw [Nat.sub_zero, hi] at h1
        cases h1
        have hwf := (hf c hcm).1
        have e1 := PyDict.get?_of_mem hwf hrows
        have e2 := PyDict.get?_of_mem hwf h2
        rw [e1] at e2
        cases e2
        rw [hb] at h3
        cases h3
        exact h4
      · intro h
        exact ⟨c, rows, bs, Nat.zero_le _, by rw [Nat.sub_zero]; exact hi, hrows, hb, h⟩
    have hl : (∃ r, Lonely rows r) ↔ ∃ r, Lonely (order rows) r := by
      have hm := (ho rows).1
      unfold Lonely
      simp only [hm]
    rw [hl, ← bars_iff (ho rows).2 hb]
    have hm := (ho rows).1
    simp only [hmark, hm]
  · intro i r
    have hmem : ∀ q, (q ∈ rects ∧ q.label = none) ↔ ∃ j c, cols[j]? = some c ∧ q = ground j c.sampleSize := by
      intro q
      have : q ∈ rects.filter (fun r => r.label.isNone) ↔ q ∈ rects ∧ q.label = none := by
        rw [List.mem_filter, Option.isNone_iff_eq_none]
      rw [← this, hG, List.mem_map]
      constructor
      · rintro ⟨⟨c, j⟩, hcj, rfl⟩
        exact ⟨j, c, List.mem_zipIdx_iff_getElem?.mp hcj, rfl⟩
      · rintro ⟨j, c, hj, rfl⟩
        exact ⟨(c, j), List.mem_zipIdx_iff_getElem?.mpr hj, rfl⟩
    have hin : ∀ (j : ℕ) (n : ℕ), Inside (ground j n) ((i : ℚ) + 1 / 2) (r : ℤ) ↔ j = i ∧ 0 ≤ r ∧ r < n := by
      intro j n
      have := inside_rect i j "blue" "" ⟨0, n⟩ r
      have e : Inside (rectOf j "blue" "" ⟨0, n⟩) ((i : ℚ) + 1 / 2) r ↔ Inside (ground j n) ((i : ℚ) + 1 / 2) r := by
        unfold Inside rectOf ground
        simp only [Int.cast_zero, Int.cast_natCast]
        have : (0 : ℚ) - 1 / 2 = -1 / 2 := by norm_num
        rw [this]
      rw [← e, this]
      unfold covers
      simp only
      constructor
      · rintro ⟨h1, h2 | h2⟩
        · exact ⟨h1, by omega, by omega⟩
        · omega
      · rintro ⟨h1, h2, h3⟩
        exact ⟨h1, Or.inl ⟨h2, by omega⟩⟩
    constructor
    · rintro ⟨q, hq, hl, hI⟩
      obtain ⟨j, c, hj, rfl⟩ := (hmem q).mp ⟨hq, hl⟩
      obtain ⟨rfl, h1, h2⟩ := (hin j c.sampleSize).mp hI
      exact ⟨c, hj, h1, h2⟩
    · rintro ⟨c, hi, h1, h2⟩
      obtain ⟨hq, hl⟩ := (hmem _).mpr ⟨i, c, hi, rfl⟩
      exact ⟨_, hq, hl, (hin i c.sampleSize).mpr ⟨rfl, h1, h2⟩⟩
  · simp
  · intro i c hi
    simp only
    rw [List.getElem?_map, List.getElem?_zipIdx, hi]
    simp [add_comm]

/-- Rows 0, 5 and 10 miss: row 5 is not marked, rows 1 to 4 are. -/
theorem C90_missing_fails : ∃ (cols : List NullColumn) (m : Missing), (∀ c ∈ cols, Filled c) ∧
    plotMissing ["a", "b"] id cols = .ok (some m) ∧ cols.map NullColumn.nulls = [[("nan", [0, 5, 10])]] ∧
    (¬Marks m.rects 0 "nan" 5) ∧ (∀ r : ℤ, 1 ≤ r → r ≤ 4 → Marks m.rects 0 "nan" r) := by
  refine ⟨[⟨"x", 11, [("nan", [0, 5, 10])]⟩], _, ?_, rfl, rfl, by decide +kernel, ?_⟩
  · intro c hc
    rw [List.mem_singleton] at hc
    subst hc
    exact ⟨by decide +kernel, by decide +kernel⟩
  · intro r h1 h2
    have : r = 1 ∨ r = 2 ∨ r = 3 ∨ r = 4 := by omega
    rcases this with rfl | rfl | rfl | rfl <;> decide +kernel

/-- A sorting of rows without repetition exists. -/
theorem sorts_exists : ∃ order, Sorts order := by
  refine ⟨fun l => l.dedup.mergeSort (fun a b => decide (a ≤ b)), fun l => ⟨fun x => ?_, ?_⟩⟩
  · rw [List.mem_mergeSort, List.mem_dedup]
  · have h1 : (l.dedup.mergeSort (fun a b => decide (a ≤ b))).Pairwise (fun a b => decide (a ≤ b) = true) :=
      List.pairwise_mergeSort (by intro a b c; simp; omega) (by intro a b; simp; omega) _
    have h2 : (l.dedup.mergeSort (fun a b => decide (a ≤ b))).Nodup := (List.mergeSort_perm _ _).nodup_iff.mpr (List.nodup_dedup l)
    refine (h1.and h2).imp ?_
    rintro a b ⟨hab, hne⟩
    simp at hab
    omega

example : ¬∃ r, Lonely [0, 4, 5, 9] r := by
  rintro ⟨r, h1, h2, h3, ⟨a, h4, h5⟩, b, h6, h7⟩
  simp at h1 h2 h3 h4 h6
  omega

/-- Each null value has one colour on the whole figure, the palette being used in order and again from its start, and
different null values have different colours as long as it lasts; the legend lists each of them once, with its colour. -/
theorem C90_colors (colors : List String) (hc : 2 ≤ colors.length) (order : List ℤ → List ℤ) (ho : Sorts order)
    (cols : List NullColumn) (hne : cols ≠ []) (hf : ∀ c ∈ cols, Filled c) :
    ∃ m, plotMissing colors order cols = .ok (some m) ∧
      (∀ q ∈ m.rects, ∀ l, q.label = some l → ∃ k t, (kinds cols)[k]? = some t ∧ l = "\"" ++ t ++ "\"" ∧
        (colors.drop 1)[k % (colors.length - 1)]? = some q.color) ∧
      PyDict.keys m.legend = (kinds cols).map (fun t => "\"" ++ t ++ "\"") ∧
      (∀ k t, (kinds cols)[k]? = some t →
        PyDict.get? m.legend ("\"" ++ t ++ "\"") = (colors.drop 1)[k % (colors.length - 1)]?) ∧
      ((colors.drop 1).Nodup → (kinds cols).length < colors.length → (PyDict.values m.legend).Nodup) := by
  have hp : colors.drop 1 ≠ [] := by
    intro h
    rw [List.drop_eq_nil_iff] at h
    omega
  have horder : ∀ c ∈ cols, ∀ p ∈ c.nulls, order p.2 ≠ [] := by
    intro c hm p hp' h
    obtain ⟨x, hx⟩ := List.exists_mem_of_ne_nil _ ((hf c hm).2 p hp')
    have := ((ho p.2).1 x).mpr hx
    rw [h] at this
    cases this
  obtain ⟨rects, hr, hK, hL, _, _⟩ := drawColumns_ok hp cols 0 [] List.nodup_nil horder
  have hst : stateOf (colors.drop 1) [] = ⟨[], colors.drop 1⟩ := by simp [stateOf, table]
  have htb : table (colors.drop 1) quoted [] = [] := rfl
  have hkinds : (cols.flatMap fun c => PyDict.keys c.nulls).foldl note [] = kinds cols := rfl
  rw [hst] at hr
  rw [htb, hkinds] at hL
  rw [hkinds] at hK
  have hnd : (kinds cols).Nodup := by rw [← hkinds]; exact foldl_nodup _ List.nodup_nil
  have hlen : (colors.drop 1).length = colors.length - 1 := by simp
  have hcol : ∀ k, (colors.drop 1)[k % (colors.length - 1)]? = some (colorAt (colors.drop 1) k) := by
    intro k
    have hlt : k % (colors.length - 1) < (colors.drop 1).length := by rw [hlen]; exact Nat.mod_lt _ (by omega)
    unfold colorAt
    rw [hlen, List.getD_eq_getElem?_getD, List.getElem?_eq_getElem hlt]
    rfl
  have hie : cols.isEmpty = false := by
    cases cols with
    | nil => exact absurd rfl hne
    | cons _ _ => rfl
  refine ⟨⟨rects, cols.zipIdx.map fun p => ((1 / 2 : ℚ) + p.2, "\"" ++ p.1.name ++ "\""), legendOf rects []⟩, ?_, ?_, ?_, ?_, ?_⟩
  · unfold plotMissing
    rw [hie]
    show (do let x ← drawColumns (colors.drop 1) order 0 cols ⟨[], colors.drop 1⟩; _) = _
    rw [hr]
    rfl
  · intro q hq l hl
    obtain ⟨k, t, h1, h2, h3⟩ := hK q hq l hl
    exact ⟨k, t, h1, h2, by rw [hcol, h3]⟩
  · simp only
    rw [hL, keys_table]
    rfl
  · intro k t hk
    simp only
    rw [hL, hcol]
    exact get_table _ quoted_inj hnd hk
  · intro hn hlt
    simp only
    rw [hL]
    unfold PyDict.values table
    rw [List.map_map]
    have e : (Prod.snd ∘ fun p : String × ℕ => (quoted p.1, colorAt (colors.drop 1) p.2)) =
      colorAt (colors.drop 1) ∘ Prod.snd := rfl
    rw [e, ← List.map_map, List.zipIdx_map_snd]
    rw [List.nodup_map_iff_inj_on (List.nodup_range')]
    intro a ha b hb hab
    have ha' : a < colors.length - 1 := by have := List.mem_range'_1.mp ha; omega
    have hb' : b < colors.length - 1 := by have := List.mem_range'_1.mp hb; omega
    have h1 := hcol a
    have h2 := hcol b
    rw [Nat.mod_eq_of_lt ha'] at h1
    rw [Nat.mod_eq_of_lt hb', ← hab, ← h1] at h2
    exact (List.getElem?_inj (by rw [hlen]; exact ha') hn).mp (h2 ▸ rfl)

example : kinds [⟨"a", 3, [("nan", [0]), ("", [2])]⟩, ⟨"b", 3, [("", [1]), ("None", [0, 1])]⟩] = ["nan", "", "None"] := by
  decide +kernel

example : ∀ c ∈ [(⟨"a", 3, [("nan", [0]), ("", [2])]⟩ : NullColumn)], Filled c := by
  intro c hc
  rw [List.mem_singleton] at hc
  subst hc
  exact ⟨by decide +kernel, by decide +kernel⟩

/-- With a style of a single colour, a profile with any missing value cannot be plotted. -/
theorem C90_onecolor_fails (colors : List String) (hc : colors.length ≤ 1) (order : List ℤ → List ℤ) (c : NullColumn)
    (cs : List NullColumn) (h : c.nulls ≠ []) : plotMissing colors order (c :: cs) = .error .indexError := by
  have hd : colors.drop 1 = [] := List.drop_eq_nil_iff.mpr hc
  unfold plotMissing
  rw [hd]
  cases hn : c.nulls with
  | nil => exact absurd hn h
  | cons p rest =>
    show (do let x ← drawColumns [] order 0 (c :: cs) ⟨[], []⟩; _) = _
    rw [drawColumns, hn]
    rfl

end Verif.Props.Plot
