import Verif.Model.CharLabels
import Verif.Spec.CharLabels
import Verif.Lemmas.CharProcess

/-!
# Lemmas about labels of characters
-/

namespace Verif.CharLabels

open Verif Verif.CharProcess

variable {α L K : Type}

/-! ### Labelled text is split like text of labelled characters -/

/-- The parameters for labelled characters. -/
def lift (p : Params α) (d : L) : Params (α × L) :=
  { maxLen := p.maxLen, sep := p.sep.map fun c => (c, d), split := p.split, atMax := p.atMax, brk := fun c => p.brk c.1 }

/-- A state for labelled characters, seen as a state with labels. -/
def view (p : Params α) (pad d : L) (st : St (α × L) Unit) : St α L where
  done := st.done.map (List.map fun x => Spec.CharLabels.row p.maxLen pad x.1)
  cur := st.cur.map fun x => Spec.CharLabels.row p.maxLen pad x.1
  flat := st.flat.map (List.map (·.1))
  len := st.len
  ents := (st.pending (lift p d)).map (·.2)
  fc := st.fc
  nfc := st.nfc

theorem map_intercalate {β : Type} (f : α → β) (sep : List α) (xs : List (List α)) :
    (List.intercalate sep xs).map f = List.intercalate (sep.map f) (xs.map (List.map f)) := by
  induction xs with
  | nil => rfl
  | cons x xs ih =>
    cases xs with
    | nil => simp [List.intercalate, List.intersperse]
    | cons y ys =>
      simp only [List.intercalate, List.intersperse, List.flatten_cons, List.map_append, List.map_cons] at ih ⊢
      rw [ih]

theorem findBreak_map (p : Params α) (d : L) (z : List (α × L)) (n : ℕ) :
    findBreak p.brk (z.map (·.1)) n = findBreak (lift p d).brk z n := by
  induction n with
  | zero => rfl
  | succ n ih =>
    rw [findBreak, findBreak, ih]
    have : ((z.map (·.1))[n + 1]?).any p.brk = (z[n + 1]?).any (lift p d).brk := by
      rw [List.getElem?_map]
      cases z[n + 1]? <;> rfl
    rw [this]

theorem lift_sep (p : Params α) (d : L) : (lift p d).sep.length = p.sep.length := by simp [lift]

theorem lift_sep_fst (p : Params α) (d : L) : (lift p d).sep.map (·.1) = p.sep := by
  simp only [lift, List.map_map]
  exact List.map_id _

theorem lift_sep_snd (p : Params α) (d : L) : (lift p d).sep.map (·.2) = List.replicate p.sep.length d := by
  simp only [lift, List.map_map]
  exact List.map_const'

theorem view_pending (p : Params α) (pad d : L) (st : St (α × L) Unit) :
    (st.pending (lift p d)).map (·.1) = List.intercalate p.sep (view p pad d st).flat := by
  unfold St.pending view
  rw [map_intercalate, lift_sep_fst]

theorem view_emit (p : Params α) (pad d : L) (st : St (α × L) Unit) (hl : st.len = (st.pending (lift p d)).length) :
    emit p pad (view p pad d st) = view p pad d (emit (lift p d) () st) := by
  unfold emit view
  simp only [List.map_append, List.map_cons, List.map_nil, St.mk.injEq, true_and]
  refine ⟨?_, ?_⟩
  · congr 2
    refine Prod.ext ?_ ?_
    · exact (view_pending p pad d st).symm
    · simp only [Spec.CharLabels.row]
      rw [hl]
      rfl
  · simp [St.pending, List.intercalate]

theorem view_step (p : Params α) (hsep : p.sep ≠ []) (hm : p.sep.length < p.maxLen) (pad d : L) (st : St (α × L) Unit)
    (hi : Inv (lift p d) st) (z : List (α × L)) (u : List Unit) :
    step p pad d (view p pad d st) (z.map (·.1)) (z.map (·.2)) =
      (view p pad d (step (lift p d) () () st z u).1, (step (lift p d) () () st z u).2) := by
  have hplain : p.plain (view p pad d st).fc (view p pad d st).nfc = (lift p d).plain st.fc st.nfc := rfl
  have hs : 0 < p.sep.length := List.length_pos_iff.mpr hsep
  unfold step
  rw [hplain]
  by_cases hp : (lift p d).plain st.fc st.nfc = true
  · rw [if_pos hp, if_pos hp]
    have hcut : plainCut p (view p pad d st) (z.map (·.1)) = plainCut (lift p d) st z := by
      unfold plainCut
      rw [findBreak_map p d, List.length_map]
      rfl
    unfold plainStep
    dsimp only
    rw [hcut]
    refine Prod.ext ?_ rfl
    unfold view
    simp only [List.map_append, List.map_cons, List.map_nil, St.mk.injEq, true_and, and_true, St.pending]
    congr 2
    refine Prod.ext ?_ ?_
    · simp [Spec.CharLabels.row, List.map_take]
    · simp only [Spec.CharLabels.row, List.map_take, List.length_take, List.length_map]
      congr 2
      omega
  · rw [if_neg hp, if_neg hp]
    obtain ⟨o1, o2, o3, o4, o5, o6⟩ := opened_len (p := lift p d) () hi
    have hvo : opened p d (view p pad d st) =
        { view p pad d st with
          len := (opened (lift p d) () st).len
          ents := (view p pad d st).ents ++ (if st.flat = [] then [] else List.replicate p.sep.length d) } := by
      unfold opened
      by_cases hf : st.flat = []
      · have : st.len = 0 := hi.len_zero hf
        rw [if_neg (by simp [view, this]), if_neg (by omega)]
        simp [hf, view]
      · have := hi.len_pos hf
        rw [if_pos (by simpa [view] using this), if_pos this]
        simp [hf, view, lift_sep]
    have hadd : ∀ n, 0 < n → n ≤ (lift p d).maxLen - (opened (lift p d) () st).len →
        emitIfFull p pad (addPiece (opened p d (view p pad d st)) (z.map (·.1)) (z.map (·.2)) n) =
          view p pad d (emitIfFull (lift p d) () (addPiece (opened (lift p d) () st) z u n)) := by
      intro n hn hn2
      have hnew : addPiece (opened p d (view p pad d st)) (z.map (·.1)) (z.map (·.2)) n =
          view p pad d (addPiece (opened (lift p d) () st) z u n) := by
        rw [hvo]
        unfold addPiece
        simp only [if_neg (show ¬ n = 0 by omega)]
        unfold view
        simp only [o2, o3, o4, o5, o6, List.map_append, List.map_cons, List.map_nil, List.map_take, List.length_take,
          List.length_map, St.mk.injEq, true_and, and_true]
        unfold St.pending
        by_cases hf : st.flat = []
        · simp [hf, List.intercalate, List.map_take]
        · rw [if_neg hf, intercalate_append _ _ _ hf]
          simp [lift_sep_snd, List.map_take]
      rw [hnew]
      unfold emitIfFull
      rw [lift_sep]
      have hmax : (lift p d).maxLen = p.maxLen := rfl
      rw [hmax]
      have hvl : (view p pad d (addPiece (opened (lift p d) () st) z u n)).len =
        (addPiece (opened (lift p d) () st) z u n).len := rfl
      rw [hvl]
      by_cases hfull : p.maxLen - p.sep.length ≤ (addPiece (opened (lift p d) () st) z u n).len
      · rw [if_pos hfull, if_pos hfull]
        apply view_emit
        unfold addPiece
        rw [if_neg (by omega)]
        unfold St.pending
        simp only [o2, o1]
        by_cases hf : st.flat = []
        · simp [hf, List.intercalate, hi.len_zero hf]
        · rw [if_neg hf, intercalate_append _ _ _ hf, hi.len]
          simp [St.pending, Nat.add_assoc]
      · rw [if_neg hfull, if_neg hfull]
    have hroom : 0 < (lift p d).maxLen - (opened (lift p d) () st).len := by
      rw [o1, show (lift p d).maxLen = p.maxLen from rfl]
      by_cases hf : st.flat = []
      · rw [hi.len_zero hf]; simp [hf]; omega
      · have := (hi.room hf).2
        rw [lift_sep, show (lift p d).maxLen = p.maxLen from rfl] at this
        rw [if_neg hf, lift_sep]; omega
    have holen : (opened p d (view p pad d st)).len = (opened (lift p d) () st).len := by rw [hvo]
    have hbl := findBreak_le (lift p d).brk z ((lift p d).maxLen - (opened (lift p d) () st).len)
    unfold flatStep
    dsimp only
    rw [holen, findBreak_map p d, List.length_map, show p.maxLen = (lift p d).maxLen from rfl,
      show p.atMax = (lift p d).atMax from rfl]
    split_ifs with h1 h2 h3
    · refine Prod.ext ?_ rfl
      dsimp only
      have hf : st.flat ≠ [] := by
        intro hf
        rw [o1, hi.len_zero hf] at h3
        simp [hf] at h3
      rw [← view_emit]
      · congr 1
        rw [hvo, o1, if_neg hf, if_neg hf]
        unfold view
        simp only [o2, o3, o4, o5, o6, lift_sep, St.mk.injEq, true_and, and_true]
        unfold dropEnd St.pending
        rw [if_neg (by omega)]
        simp [o2]
      · simp only [St.pending, o2, o1, if_neg hf]
        have := hi.len
        unfold St.pending at this
        omega
    · exact Prod.ext (hadd _ hroom (Nat.le_refl _)) rfl
    · exact Prod.ext (hadd _ (by omega) hbl) rfl
    · exact Prod.ext (hadd _ hroom (Nat.le_refl _)) rfl

theorem view_yield (p : Params α) (pad d : L) (size : ℕ) (st : St (α × L) Unit) :
    yieldBatch size (view p pad d st) = view p pad d (yieldBatch size st) := by
  unfold yieldBatch
  have : (view p pad d st).cur.length = st.cur.length := by simp [view]
  rw [this]
  split_ifs
  · simp [view, St.pending]
  · rfl

theorem inv_step {p : Params α} (hm : p.sep.length < p.maxLen) (pad dflt : L) {st : St α L} (hi : Inv p st) {r : List α}
    (hr : r ≠ []) (labs : List L) : Inv p (step p pad dflt st r labs).1 := by
  cases hp : p.plain st.fc st.nfc with
  | true => exact (plain_round (by omega) pad dflt hi hr labs hp).2.2.2.2
  | false => exact (flat_round hm pad dflt hi hr labs hp).1

theorem view_place (p : Params α) (hsep : p.sep ≠ []) (hm : p.sep.length < p.maxLen) (pad d : L) (size fuel : ℕ)
    (st : St (α × L) Unit) (hi : Inv (lift p d) st) (z : List (α × L)) (u : List Unit) :
    place p pad d size fuel (view p pad d st) (z.map (·.1)) (z.map (·.2)) =
      (place (lift p d) () () size fuel st z u).map (view p pad d) := by
  have hm' : (lift p d).sep.length < (lift p d).maxLen := by rw [lift_sep]; exact hm
  induction fuel generalizing st z u with
  | zero =>
    cases z with
    | nil => rfl
    | cons c z => rfl
  | succ fuel ih =>
    cases z with
    | nil => rfl
    | cons c z =>
      have := view_step p hsep hm pad d st hi (c :: z) u
      rw [List.map_cons, List.map_cons] at this ⊢
      rw [place, place]
      rw [this]
      dsimp only
      rw [view_yield]
      have hih := ih _ (inv_yield size (inv_step hm' () () hi (r := c :: z) (by simp) u))
        ((c :: z).drop (step (lift p d) () () st (c :: z) u).2) (u.drop (step (lift p d) () () st (c :: z) u).2)
      rw [List.map_drop, List.map_drop] at hih
      exact hih

theorem view_placeAll (p : Params α) (hsep : p.sep ≠ []) (hm : p.sep.length < p.maxLen) (pad d : L) (size : ℕ)
    (st : St (α × L) Unit) (hi : Inv (lift p d) st) (data : List (List (α × L))) :
    placeAll p pad d size (view p pad d st) (data.map fun z => (z.map (·.1), z.map (·.2))) =
      (placeAll (lift p d) () () size st (data.map fun z => (z, []))).map (view p pad d) := by
  have hm' : (lift p d).sep.length < (lift p d).maxLen := by rw [lift_sep]; exact hm
  induction data generalizing st with
  | nil => rfl
  | cons z zs ih =>
    rw [List.map_cons, List.map_cons, placeAll, placeAll, List.length_map, view_place p hsep hm pad d size _ st hi z []]
    by_cases hz : z = []
    · subst hz
      rw [place_empty]
      exact ih st hi
    · obtain ⟨st1, h1, h2, -⟩ := place_text hm' () () size st z [] hi hz
      rw [h1]
      exact ih st1 h2

theorem view_flush (p : Params α) (pad d : L) (st : St (α × L) Unit) (hi : Inv (lift p d) st) :
    flush p pad (view p pad d st) = view p pad d (flush (lift p d) () st) := by
  unfold flush
  have : (view p pad d st).flat = [] ↔ st.flat = [] := by simp [view]
  simp only [this]
  split_ifs
  · rfl
  · exact view_emit p pad d st hi.len

/-- Text with labels is split as labelled characters are. -/
theorem process_labelled (p : Params α) (hsep : p.sep ≠ []) (pad d : L) (size : ℕ) (data : List (List (α × L))) :
    process p pad d size (data.map fun z => (z.map (·.1), z.map (·.2))) =
      (process (lift p d) () () size (data.map fun z => (z, []))).map
        (List.map (List.map fun x => Spec.CharLabels.row p.maxLen pad x.1)) := by
  unfold process
  rw [lift_sep, show (lift p d).maxLen = p.maxLen from rfl]
  split_ifs with hm
  · rfl
  · have hm' : (lift p d).sep.length < (lift p d).maxLen := by rw [lift_sep]; exact Nat.lt_of_not_le hm
    have := view_placeAll p hsep (by omega) pad d size St.init (inv_init _) data
    have h0 : view p pad d St.init = St.init := by
      simp [view, St.init, St.pending, List.intercalate]
    rw [h0] at this
    obtain ⟨fin, h1, h2, -⟩ := placeAll_some hm' () () size St.init (data.map fun z => (z, [])) (inv_init _)
    rw [this, h1]
    simp only [Option.map_some, Except.map]
    rw [view_flush p pad d fin h2]
    have hc : (view p pad d (flush (lift p d) () fin)).cur = [] ↔ (flush (lift p d) () fin).cur = [] := by simp [view]
    simp only [hc]
    split_ifs
    · rfl
    · simp [view]

/-! ### Painting -/

theorem sliceIndex_nonneg (n : ℕ) (i : ℤ) (h : 0 ≤ i) : sliceIndex n i = min i.toNat n := by
  unfold sliceIndex
  rw [if_neg (by omega)]

theorem paint_length (buf : List L) (a b : ℤ) (l : L) : (paint buf a b l).length = buf.length := by
  unfold paint
  dsimp only
  split_ifs with h
  · have hb : sliceIndex buf.length b ≤ buf.length := by
      unfold sliceIndex
      split_ifs with hb
      · omega
      · omega
    simp
    omega
  · rfl

theorem paint_get (buf : List L) (a b : ℤ) (ha : 0 ≤ a) (hb : 0 ≤ b) (l : L) (i : ℕ) (h : i < buf.length) :
    (paint buf a b l)[i]? = if a ≤ (i : ℤ) ∧ (i : ℤ) < b then some l else buf[i]? := by
  unfold paint
  dsimp only
  rw [sliceIndex_nonneg _ _ ha, sliceIndex_nonneg _ _ hb]
  split_ifs with h1 h2 h2
  · rw [List.getElem?_append_left (by simp; omega), List.getElem?_append_right (by simp; omega)]
    rw [List.getElem?_replicate, if_pos (by simp; omega)]
  · by_cases h3 : (i : ℤ) < a
    · rw [List.append_assoc, List.getElem?_append_left (by simp; omega), List.getElem?_take_of_lt (by omega)]
    · rw [List.getElem?_append_right (by simp; omega), List.getElem?_drop]
      congr 1
      simp
      omega
  · omega
  · rfl

/-- A character is covered by an entity. -/
def covers (i : ℕ) (e : ℤ × ℤ × K) : Bool := decide (e.1 ≤ (i : ℤ) ∧ (i : ℤ) < e.2.1)

theorem labelAt_eq (dflt : K) (es : List (ℤ × ℤ × K)) (i : ℕ) :
    Spec.CharLabels.labelAt dflt es i = ((es.reverse.find? (covers i)).map (·.2.2)).getD dflt := by
  unfold Spec.CharLabels.labelAt
  change (match es.reverse.find? (covers i) with | some e => e.2.2 | none => dflt) = _
  cases es.reverse.find? (covers i) <;> rfl

theorem paintAll_get (mapping : K → Option L) (f : K → L) (buf : List L) (es : List (ℤ × ℤ × K))
    (hm : ∀ e ∈ es, mapping e.2.2 = some (f e.2.2)) (hn : ∀ e ∈ es, 0 ≤ e.1 ∧ 0 ≤ e.2.1) :
    ∃ out, paintAll mapping buf es = .ok out ∧ out.length = buf.length ∧
      ∀ i, i < buf.length →
        out[i]? = match es.reverse.find? (covers i) with
          | some e => some (f e.2.2)
          | none => buf[i]? := by
  induction es generalizing buf with
  | nil => exact ⟨buf, rfl, rfl, fun i _ => rfl⟩
  | cons e es ih =>
    obtain ⟨a, b, k⟩ := e
    have h1 := hm (a, b, k) (by simp)
    have h2 := hn (a, b, k) (by simp)
    dsimp only at h1 h2
    obtain ⟨out, g1, g2, g3⟩ := ih (paint buf a b (f k)) (fun e he => hm e (by simp [he])) fun e he => hn e (by simp [he])
    refine ⟨out, by rw [paintAll, h1]; exact g1, by rw [g2, paint_length], fun i hi => ?_⟩
    rw [g3 i (by rw [paint_length]; exact hi), List.reverse_cons, List.find?_append]
    cases hf : es.reverse.find? (covers i) with
    | some e => rfl
    | none =>
      rw [paint_get buf a b h2.1 h2.2 (f k) i hi]
      by_cases hc : a ≤ (i : ℤ) ∧ (i : ℤ) < b
      · rw [if_pos hc]
        simp [covers, hc]
      · rw [if_neg hc]
        simp [covers, hc]

theorem labelBuffer_ok (mapping : K → Option L) (f : K → L) (dflt : K) (text : List α) (es : List (ℤ × ℤ × K))
    (hd : mapping dflt = some (f dflt)) (hm : ∀ e ∈ es, mapping e.2.2 = some (f e.2.2))
    (hn : ∀ e ∈ es, 0 ≤ e.1 ∧ 0 ≤ e.2.1) :
    labelBuffer mapping dflt text.length es = .ok ((Spec.CharLabels.labelled f dflt text es).map (·.2)) := by
  unfold labelBuffer
  rw [hd]
  obtain ⟨out, g1, g2, g3⟩ := paintAll_get mapping f (List.replicate text.length (f dflt)) es hm hn
  dsimp only
  rw [g1]
  congr 1
  apply List.ext_getElem?
  intro i
  rw [List.length_replicate] at g2 g3
  by_cases hi : i < text.length
  · rw [g3 i hi]
    unfold Spec.CharLabels.labelled
    rw [List.map_map, List.getElem?_map, List.getElem?_zipIdx, List.getElem?_eq_getElem hi]
    simp only [Option.map_some, Function.comp, labelAt_eq, Nat.zero_add]
    cases es.reverse.find? (covers i) with
    | some e => rfl
    | none => simp [hi]
  · rw [List.getElem?_eq_none (by omega), List.getElem?_eq_none (by simp [Spec.CharLabels.labelled]; omega)]

theorem labelled_fst (f : K → L) (dflt : K) (text : List α) (es : List (ℤ × ℤ × K)) :
    (Spec.CharLabels.labelled f dflt text es).map (·.1) = text := by
  unfold Spec.CharLabels.labelled
  rw [List.map_map]
  exact List.zipIdx_map_fst 0 text

/-! ### Cells in a row -/

theorem labelAt_append_left (dflt : K) (A B : List (ℤ × ℤ × K)) (i : ℕ) (h : ∀ e ∈ B, covers i e = false) :
    Spec.CharLabels.labelAt dflt (A ++ B) i = Spec.CharLabels.labelAt dflt A i := by
  rw [labelAt_eq, labelAt_eq, List.reverse_append, List.find?_append, List.find?_eq_none.mpr]
  · rfl
  · intro e he
    simp [h e (by simpa using he)]

theorem labelAt_append_right (dflt : K) (A B : List (ℤ × ℤ × K)) (i : ℕ) (h : ∀ e ∈ A, covers i e = false) :
    Spec.CharLabels.labelAt dflt (A ++ B) i = Spec.CharLabels.labelAt dflt B i := by
  have hn : A.reverse.find? (covers i) = none := by
    rw [List.find?_eq_none]
    intro e he
    simp [h e (by simpa using he)]
  rw [labelAt_eq, labelAt_eq, List.reverse_append, List.find?_append, hn]
  cases B.reverse.find? (covers i) <;> rfl

theorem convertLoop_start [DecidableEq K] (dflt padName : K) (s textLen start : ℕ) (data : List (List α × K)) :
    ∀ e ∈ convertLoop dflt padName s textLen start data, (start : ℤ) ≤ e.1 := by
  induction data generalizing start with
  | nil => simp [convertLoop]
  | cons d ds ih =>
    obtain ⟨x, k⟩ := d
    intro e he
    rw [convertLoop, List.mem_append, List.mem_append] at he
    rcases he with (he | he) | he
    · split_ifs at he with h
      · rw [List.mem_singleton] at he; rw [he]
      · exact nomatch he
    · split_ifs at he with h
      · rw [List.mem_singleton] at he; rw [he]; simp
      · exact nomatch he
    · have := ih _ e he
      push_cast at this
      omega

theorem intercalate_cons (sep x y : List α) (ys : List (List α)) :
    List.intercalate sep (x :: y :: ys) = x ++ sep ++ List.intercalate sep (y :: ys) := by
  simp [List.intercalate, List.intersperse, List.append_assoc]

theorem intercalate_last (sep : List α) (xs : List (List α)) (x : List α) (h : xs.getLast? = some x) (hx : x ≠ []) :
    List.intercalate sep xs ≠ [] := by
  induction xs with
  | nil => exact nomatch h
  | cons y ys ih =>
    cases ys with
    | nil =>
      obtain rfl : y = x := by simpa using h
      simpa [List.intercalate, List.intersperse] using hx
    | cons z zs =>
      rw [intercalate_cons]
      have := ih (by simpa using h)
      simp [this]

theorem zipIdx_labels (t : List α) (k : K) (g : ℕ → K) (start : ℕ) (h : ∀ i, start ≤ i → i < start + t.length → g i = k) :
    (t.zipIdx start).map (fun x => (x.1, g x.2)) = t.map fun c => (c, k) := by
  apply List.ext_getElem?
  intro i
  rw [List.getElem?_map, List.getElem?_zipIdx, List.getElem?_map]
  cases hi : t[i]? with
  | none => rfl
  | some c =>
    have : i < t.length := (List.getElem?_eq_some_iff.mp hi).1
    simp only [Option.map_some]
    rw [h (start + i) (by omega) (by omega)]

theorem convertLoop_labels [DecidableEq K] (dflt padName : K) (sep : List α) (data : List (List α × K)) (start : ℕ)
    (hlast : data.length ≤ 1 ∨ ∃ x, data.getLast? = some x ∧ x.1 ≠ []) :
    ((List.intercalate sep (data.map (·.1))).zipIdx start).map (fun x => (x.1, Spec.CharLabels.labelAt dflt
      (convertLoop dflt padName sep.length (start + (List.intercalate sep (data.map (·.1))).length) start data) x.2)) =
      Spec.CharLabels.joined padName sep data := by
  induction data generalizing start with
  | nil => rfl
  | cons d ds ih =>
    obtain ⟨x, k⟩ := d
    cases ds with
    | nil =>
      have ht : List.intercalate sep ([(x, k)].map (·.1)) = x := by simp [List.intercalate]
      rw [ht, Spec.CharLabels.joined]
      refine zipIdx_labels x k _ start fun i h1 h2 => ?_
      rw [convertLoop, convertLoop, if_neg (show ¬ start + x.length + sep.length < start + x.length by omega)]
      simp only [List.append_nil]
      rw [labelAt_eq]
      by_cases hk : k = dflt
      · simp [hk]
      · rw [if_pos hk]
        have : covers i ((start : ℤ), ((start + x.length : ℕ) : ℤ), k) = true := by
          simp only [covers, decide_eq_true_eq]
          omega
        simp only [List.reverse_cons, List.reverse_nil, List.nil_append, List.find?_cons, this]
        rfl
    | cons d' ds =>
      have hl : ∃ y, (d' :: ds).getLast? = some y ∧ y.1 ≠ [] := by
        rcases hlast with h | ⟨y, h1, h2⟩
        · simp at h
        · exact ⟨y, by simpa using h1, h2⟩
      have hne : List.intercalate sep ((d' :: ds).map (·.1)) ≠ [] := by
        obtain ⟨y, h1, h2⟩ := hl
        exact intercalate_last sep _ y.1 (by rw [List.getLast?_map, h1]; rfl) h2
      have hpos : 0 < (List.intercalate sep ((d' :: ds).map (·.1))).length := List.length_pos_iff.mpr hne
      have hih := ih (start + x.length + sep.length) (.inr hl)
      have ht : List.intercalate sep (((x, k) :: d' :: ds).map (·.1)) =
          x ++ sep ++ List.intercalate sep ((d' :: ds).map (·.1)) := by
        simp only [List.map_cons]
        rw [intercalate_cons]
      have hjoin : Spec.CharLabels.joined padName sep ((x, k) :: d' :: ds) =
          x.map (fun c => (c, k)) ++ sep.map (fun c => (c, padName)) ++ Spec.CharLabels.joined padName sep (d' :: ds) := by
        rw [Spec.CharLabels.joined]
        simp
      have hlen : start + (x ++ sep ++ List.intercalate sep ((d' :: ds).map (·.1))).length =
          start + x.length + sep.length + (List.intercalate sep ((d' :: ds).map (·.1))).length := by
        simp only [List.length_append]
        omega
      rw [ht, hjoin, hlen, ← hih, List.zipIdx_append, List.zipIdx_append, List.map_append, List.map_append]
      obtain ⟨A, hA⟩ : ∃ A, A = (if k ≠ dflt then [((start : ℤ), ((start + x.length : ℕ) : ℤ), k)] else []) ++
        [(((start + x.length : ℕ) : ℤ), ((start + x.length + sep.length : ℕ) : ℤ), padName)] := ⟨_, rfl⟩
      obtain ⟨B, hB⟩ : ∃ B, B = convertLoop dflt padName sep.length
        (start + x.length + sep.length + (List.intercalate sep ((d' :: ds).map (·.1))).length)
        (start + x.length + sep.length) (d' :: ds) := ⟨_, rfl⟩
      have hloop : convertLoop dflt padName sep.length
        (start + x.length + sep.length + (List.intercalate sep ((d' :: ds).map (·.1))).length) start ((x, k) :: d' :: ds) =
          A ++ B := by
        rw [convertLoop, if_pos (show start + x.length + sep.length < start + x.length + sep.length +
          (List.intercalate sep ((d' :: ds).map (·.1))).length by omega), hA, hB]
      have hBs : ∀ e ∈ B, ((start + x.length + sep.length : ℕ) : ℤ) ≤ e.1 := by
        rw [hB]; exact convertLoop_start _ _ _ _ _ _
      have hleft : ∀ i, i < start + x.length + sep.length →
          Spec.CharLabels.labelAt dflt (A ++ B) i = Spec.CharLabels.labelAt dflt A i := by
        intro i hi
        refine labelAt_append_left _ _ _ _ fun e he => ?_
        have := hBs e he
        simp only [covers, decide_eq_false_iff_not]
        omega
      have hright : ∀ i, start + x.length + sep.length ≤ i →
          Spec.CharLabels.labelAt dflt (A ++ B) i = Spec.CharLabels.labelAt dflt B i := by
        intro i hi
        refine labelAt_append_right _ _ _ _ fun e he => ?_
        rw [hA] at he
        simp only [covers, decide_eq_false_iff_not]
        rcases List.mem_append.mp he with he | he
        · split_ifs at he
          · rw [List.mem_singleton] at he; rw [he]; dsimp only; omega
          · exact nomatch he
        · rw [List.mem_singleton] at he; rw [he]; dsimp only; omega
      rw [hloop]
      congr 1
      · congr 1
        · refine zipIdx_labels x k _ start fun i h1 h2 => ?_
          rw [hleft i (by omega), labelAt_eq, hA]
          have hc2 : covers i (((start + x.length : ℕ) : ℤ), ((start + x.length + sep.length : ℕ) : ℤ), padName) = false := by
            simp only [covers, decide_eq_false_iff_not]; omega
          rw [List.reverse_append, List.reverse_singleton, List.singleton_append, List.find?_cons, hc2]
          by_cases hk : k = dflt
          · simp [hk]
          · rw [if_pos hk]
            have hc1 : covers i ((start : ℤ), ((start + x.length : ℕ) : ℤ), k) = true := by
              simp only [covers, decide_eq_true_eq]; omega
            simp only [List.reverse_singleton, List.find?_cons, hc1]
            rfl
        · refine zipIdx_labels sep padName _ _ fun i h1 h2 => ?_
          rw [hleft i (by omega), labelAt_eq, hA]
          have hc2 : covers i (((start + x.length : ℕ) : ℤ), ((start + x.length + sep.length : ℕ) : ℤ), padName) = true := by
            simp only [covers, decide_eq_true_eq]; omega
          rw [List.reverse_append, List.reverse_singleton, List.singleton_append, List.find?_cons, hc2]
          rfl
      · rw [List.length_append, ← Nat.add_assoc, ← hB]
        apply List.map_congr_left
        intro y hy
        have := List.le_snd_of_mem_zipIdx hy
        rw [hright y.2 this]

end Verif.CharLabels
