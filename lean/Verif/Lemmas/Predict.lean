import Verif.Model.Predict
import Verif.Spec.Predict
import Verif.Props.CharProcess
import Verif.Props.Postprocess

/-!
# Lemmas about the predictions of a labeler
-/

namespace Verif.Predict

open Verif Verif.Spec.Predict Verif.Spec.Postprocess Verif.CharProcess

variable {V : Type}

theorem labelWith_same {α P : Type} (p : CharProcess.Params α) (size s : ℕ) (zero : List P) (net : List (List α) → List (List P))
    (texts : List (List α)) : labelWith p size s zero net texts (texts.map List.length) = label p size s zero net texts := rfl

theorem stripped_clean {s : List Char} (h : Clean s) : stripped s = s := by
  unfold stripped
  have : s.reverse.dropWhile (fun c => c == Char.ofNat 0) = s.reverse := by
    cases hr : s.reverse with
    | nil => rfl
    | cons c cs =>
      rw [List.dropWhile_cons_of_neg]
      intro hc
      apply h
      rw [List.getLast?_eq_head?_reverse, hr, List.head?_cons, eq_of_beq hc]
  rw [this, List.reverse_reverse]

/-! ### Data -/

theorem rowMajor_flatten {A : Type} {w : ℕ} {rows : List (List A)} (h : ∀ row ∈ rows, row.length = w) : RowMajor w rows rows.flatten := by
  induction rows with
  | nil => exact ⟨by simp, fun r row hr => by simp at hr⟩
  | cons x xs ih =>
    have hx := h x (by simp)
    obtain ⟨i1, i2⟩ := ih fun row hr => h row (by simp [hr])
    refine ⟨by rw [List.flatten_cons, List.length_append, i1, hx, List.length_cons, Nat.succ_mul, Nat.add_comm], ?_⟩
    intro r row hr c hc
    rw [List.flatten_cons]
    cases r with
    | zero =>
      rw [List.getElem?_cons_zero] at hr
      injection hr with hr
      subst hr
      rw [Nat.zero_mul, Nat.zero_add, List.getElem?_append_left (by omega)]
    | succ r =>
      rw [List.getElem?_cons_succ] at hr
      rw [List.getElem?_append_right (by rw [hx, Nat.succ_mul]; omega), ← i2 r row hr c hc]
      congr 1
      rw [hx, Nat.succ_mul]
      omega

/-- Neither texts nor numbers are opened. -/
theorem common_scalar {x : Obj V} (h : x.parts = none) (xs : List (Obj V)) : common (x :: xs) = none := by
  unfold common
  simp only [h]

theorem nested_stop {xs : List (Obj V)} (h : common xs = none) (fuel : ℕ) (shape : List ℕ) : nested fuel shape xs = ⟨shape, xs⟩ := by
  cases fuel with
  | zero => rfl
  | succ n => unfold nested; rw [h]

theorem common_rows {w : ℕ} {rows : List (List (Obj V))} (hne : rows ≠ []) (h : ∀ row ∈ rows, row.length = w) :
    common (rows.map .seq) = some w := by
  match rows, hne with
  | x :: xs, _ =>
    have hx := h x (by simp)
    unfold common
    simp only [List.map_cons, Obj.parts, hx]
    rw [if_pos]
    rw [List.all_eq_true]
    intro z hz
    rw [← List.map_cons (f := Obj.seq)] at hz
    obtain ⟨y, hy, rfl⟩ := List.mem_map.1 hz
    simp [Obj.parts, h y hy]

theorem opened_rows (rows : List (List (Obj V))) : opened (rows.map .seq) = rows.flatten := by
  unfold opened
  rw [List.flatMap_map]
  simp [Obj.parts, List.flatMap_def]

theorem common_ragged {rows : List (List (Obj V))} {a b : List (Obj V)} (ha : a ∈ rows) (hb : b ∈ rows) (hab : a.length ≠ b.length) :
    common (rows.map .seq) = none := by
  match rows, ha with
  | x :: xs, ha =>
    unfold common
    simp only [List.map_cons, Obj.parts]
    rw [if_neg]
    rw [List.all_eq_true]
    intro hall
    have key : ∀ y ∈ x :: xs, y.length = x.length := by
      intro y hy
      have := hall (.seq y) (by rw [← List.map_cons (f := Obj.seq)]; exact List.mem_map_of_mem hy)
      simpa [Obj.parts] using this
    exact hab ((key a ha).trans (key b hb).symm)

/-! ### Texts -/

/-- The predictions of a network that looks at every character by itself. -/
theorem labelWith_charwise {L : Labeler V} (hm : L.params.sep.length < L.params.maxLen) (hsep : L.sepLen = L.params.sep.length)
    {size : ℕ} (hs : 0 < size) {f : Char → ℕ} (hn : Charwise f L.net) (data : List (Obj V)) :
    labelWith L.params size L.sepLen L.zero L.net (data.map L.str) (data.map fun x => (L.str x).length) =
      .ok (data.map fun x => (L.str x).map f) := by
  have : (data.map fun x => (L.str x).length) = (data.map L.str).map List.length := by rw [List.map_map]; rfl
  rw [this, labelWith_same, hsep, C55_charwise hm hs L.zero hn, List.map_map]
  rfl

theorem labelWith_clean {L : Labeler V} {size : ℕ} {data : List (Obj V)} (hc : ∀ x ∈ data, Clean (L.str x)) :
    labelWith L.params size L.sepLen L.zero L.net (data.map fun x => stripped (L.str x)) (data.map fun x => (L.str x).length) =
      labelWith L.params size L.sepLen L.zero L.net (data.map L.str) (data.map fun x => (L.str x).length) := by
  congr 1
  exact List.map_congr_left fun x hx => stripped_clean (hc x hx)

/-- Any network gives as many labels as there are characters. -/
theorem labelWith_any {L : Labeler V} (hm : L.params.sep.length < L.params.maxLen) (hsep : L.sepLen = L.params.sep.length)
    {size : ℕ} (hs : 0 < size) (hn : Rows L.net) (data : List (Obj V)) :
    ∃ preds, labelWith L.params size L.sepLen L.zero L.net (data.map L.str) (data.map fun x => (L.str x).length) = .ok preds ∧
      preds.map List.length = data.map fun x => (L.str x).length := by
  have : (data.map fun x => (L.str x).length) = (data.map L.str).map List.length := by rw [List.map_map]; rfl
  obtain ⟨_, _, res, h1, _, _, _, h5⟩ := C55_label hm hs L.zero hn (data.map L.str)
  refine ⟨res, ?_, by rw [h5, this]⟩
  rw [this, labelWith_same, hsep, h1]

theorem mapM_map_ok {A B C : Type} {f : A → Except Err B} {xs : List A} {ys : List B} (h : xs.mapM f = .ok ys) (g : B → C) (k : A → C)
    (hg : ∀ x y, f x = .ok y → g y = k x) : ys.map g = xs.map k := by
  have := Postprocess.mapM_forall₂ h
  clear h
  induction this with
  | nil => rfl
  | cons h1 _ ih => rw [List.map_cons, List.map_cons, hg _ _ h1, ih]

/-- The entities of runs are inside. -/
theorem inside_runs {K : Type} {ignore : ℕ → Bool} {sample : List ℕ} {runs : List (ℕ × ℕ × ℕ)} (h : IsRuns ignore sample runs)
    {mapping : List (K × ℕ)} {ents : List (ℕ × ℕ × K)}
    (he : List.Forall₂ (fun r e => e.1 = r.1 ∧ e.2.1 = r.2.1 ∧ (e.2.2, r.2.2) ∈ mapping) runs ents) : Inside sample.length ents := by
  have h1 : ∀ r ∈ runs, r.1 < r.2.1 ∧ r.2.1 ≤ sample.length := by
    intro r hr
    obtain ⟨a, b, _⟩ := h.run r hr
    refine ⟨a, ?_⟩
    have := b (r.2.1 - 1) (by omega) (by omega)
    obtain ⟨hlt, _⟩ := List.getElem?_eq_some_iff.1 this
    omega
  have h2 := h.sorted
  clear h
  induction he with
  | nil => exact ⟨by simp, .nil⟩
  | @cons r e rs es hre hrest ih =>
    obtain ⟨i1, i2⟩ := ih (fun r hr => h1 r (by simp [hr])) (List.pairwise_cons.1 h2).2
    refine ⟨?_, ?_⟩
    · intro e' he'
      rcases List.mem_cons.1 he' with rfl | he'
      · have := h1 r (by simp)
        rw [hre.1, hre.2.1]; exact this
      · exact i1 e' he'
    · refine List.pairwise_cons.2 ⟨fun e' he' => ?_, i2⟩
      obtain ⟨i, hi, rfl⟩ := List.mem_iff_getElem.1 he'
      have hl := hrest.length_eq
      have := List.forall₂_iff_get.1 hrest
      have h3 := this.2 i (by omega) hi
      simp only [List.get_eq_getElem] at h3
      rw [h3.1, hre.2.1]
      exact (List.pairwise_cons.1 h2).1 _ (List.getElem_mem _)

/-! ### Cells -/

theorem cellLabels_spec {L : Labeler V} (hc : ∀ i l, l ≠ [] → L.choice i l ∈ l) (d p : ℕ) (preds : List (List ℕ)) :
    List.Forall₂ (fun x l => IsCellLabel d p x l) preds (cellLabels L d p (preds.map List.length) preds) := by
  unfold cellLabels
  rw [List.forall₂_iff_get]
  refine ⟨by simp, fun i h1 h2 => ?_⟩
  simp only [List.get_eq_getElem, List.getElem_mapIdx, List.getElem_zip, List.getElem_map]
  have := Postprocess.C59_label (L.choice i) (hc i) d p preds[i] preds[i].length
  rwa [List.take_length] at this

end Verif.Predict
