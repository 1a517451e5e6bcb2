import Mathlib.Data.Rat.Lemmas
import Mathlib.Algebra.Order.Field.Rat
import Mathlib.Algebra.Order.Field.Basic
import Mathlib.Data.Finset.Card
import Verif.Props.TableMerge

/-!
# C18 — duplicate, unique and null row statistics
-/

namespace Verif.Table

open Verif Verif.Schema Verif.Nulls Verif.SchemaSpec Verif.NullsSpec

variable {σ η : Type}

theorem foldl_min_const {α : Type} (f : α → ℕ) (n : ℕ) (l : List α) (h : ∀ x ∈ l, f x = n) :
    l.foldl (fun m x => min m (f x)) n = n := by
  induction l with
  | nil => rfl
  | cons x l ih =>
    rw [List.foldl_cons, h x (by simp), Nat.min_self]
    exact ih fun y hy => h y (by simp [hy])

/-- **Null rows**: after any history of updates and merges, the numbers of rows with some null and with only nulls are
those of the sampled rows, and the ratios are taken over the number of sampled rows. -/
theorem C18_null_rows (env : Env σ η) (hl : Idem env.lower) (hset : ∀ l, (env.setOrder l).Perm l) (isn : String → Bool)
    (hisn : ∀ p j, env.isNull p j = isn) (h : Hist) (hf : h.Fair) (hs : h.Sensible) (t : TableProf σ η)
    (ht : run env h = .ok t) (he : t.opts.enabled = true) (hn : t.opts.nulls = true) :
    ∃ rows, Sampled env.lower h rows ∧
      t.hasNull = rows.countP (fun row => row.any isn) ∧ t.isNull = rows.countP (fun row => row.all isn) ∧
      nullRatio t.hasNull t = some ((rows.countP (fun row => row.any isn) : ℚ) / rows.length) ∧
      nullRatio t.isNull t = some ((rows.countP (fun row => row.all isn) : ℚ) / rows.length) := by
  obtain ⟨V, r, hi⟩ := tinv_run env hl hset isn hisn (fun _ _ _ => True)
    ⟨fun _ _ _ _ => trivial, fun _ _ _ _ _ _ _ => trivial, fun _ _ _ _ _ _ _ _ _ => trivial⟩ h hf hs t ht
  obtain ⟨h1, h2⟩ := hi.nulls he hn
  have e : ∀ f : List String → Bool, V.countP (fun v => f v.2) = (V.map Prod.snd).countP f := by
    intro f
    rw [List.countP_map]
    rfl
  have h1' : t.hasNull = (V.map Prod.snd).countP (fun row => row.any isn) := h1.trans (e fun row => row.any isn)
  have h2' : t.isNull = (V.map Prod.snd).countP (fun row => row.all isn) := h2.trans (e fun row => row.all isn)
  have hsize : ∀ c ∈ t.cols, c.base.sampleSize = V.length := by
    intro c hc
    obtain ⟨p, hp⟩ := List.mem_iff_getElem?.1 hc
    exact (hi.base p c hp).1.inv.sampleSize.trans (by simp [cellsOf])
  have hmin : minColSamples t = V.length := by
    unfold minColSamples
    by_cases h0 : h.names = []
    · have : t.cols = [] := List.length_eq_zero_iff.1 (by rw [hi.len, h0]; rfl)
      rw [this, (hi.unfed h0).1]
      rfl
    · cases hc : t.cols with
      | nil =>
        have := hi.len
        rw [hc] at this
        exact absurd (List.length_eq_zero_iff.1 this.symm) h0
      | cons c cs =>
        simp only
        rw [hc] at hsize
        rw [hsize c (by simp)]
        exact foldl_min_const (fun c : Col σ => c.base.sampleSize) _ cs fun d hd => hsize d (by simp [hd])
  have hratio : ∀ k : ℕ, k ≤ V.length → nullRatio k t = some ((k : ℚ) / (V.map Prod.snd).length) := by
    intro k hk
    unfold nullRatio
    rw [if_neg (by simp [he, hn]), hmin, List.length_map]
    split_ifs with h0
    · rw [h0]; simp
    · rfl
  refine ⟨V.map Prod.snd, hi.sampled, h1', h2', ?_, ?_⟩
  · rw [hratio _ (by rw [h1]; exact List.countP_le_length), h1']
  · rw [hratio _ (by rw [h2]; exact List.countP_le_length), h2']

/-- With complete samples these are the counts over all rows ever given. -/
theorem C18_null_rows_whole (env : Env σ η) (hl : Idem env.lower) (hset : ∀ l, (env.setOrder l).Perm l)
    (isn : String → Bool) (hisn : ∀ p j, env.isNull p j = isn) (h : Hist) (hf : h.Fair) (hs : h.Sensible) (hw : h.Whole)
    (t : TableProf σ η) (ht : run env h = .ok t) (he : t.opts.enabled = true) (hn : t.opts.nulls = true) :
    t.hasNull = (h.table env.lower).countP (fun row => row.any isn) ∧
    t.isNull = (h.table env.lower).countP (fun row => row.all isn) := by
  obtain ⟨rows, h1, h2, h3, _⟩ := C18_null_rows env hl hset isn hisn h hf hs t ht he hn
  rw [C20_whole_table env.lower h hw rows h1] at h2 h3
  exact ⟨h2, h3⟩

/-- **Distinct rows**: with full hashing, and a row hash without collisions on the rows seen, the profile knows the
number of distinct rows: duplicates and the unique ratio follow, whatever the batches and merges. -/
theorem C18_unique (env : Env σ η) (hl : Idem env.lower) (hset : ∀ l, (env.setOrder l).Perm l) (isn : String → Bool)
    (hisn : ∀ p j, env.isNull p j = isn) (h : Hist) (hf : h.Fair) (hs : h.Sensible) (t : TableProf σ η)
    (ht : run env h = .ok t) (he : t.opts.enabled = true) (hu : t.opts.unique = true) (hh : t.opts.hashing = .full)
    (hinj : ∀ x ∈ h.rows, ∀ y ∈ h.rows, env.hash x = env.hash y → x = y) :
    t.total = h.rows.length ∧
    duplicates env.hll t = some ((h.rows.length : ℤ) - h.rows.toFinset.card) ∧
    uniqueRatio env.hll t = some ((h.rows.toFinset.card : ℚ) / h.rows.length) ∧
    (∀ q, uniqueRatio env.hll t = some q → 0 ≤ q ∧ q ≤ 1) := by
  obtain ⟨V, r, hi⟩ := tinv_run env hl hset isn hisn (fun _ _ _ => True)
    ⟨fun _ _ _ _ => trivial, fun _ _ _ _ _ _ _ => trivial, fun _ _ _ _ _ _ _ _ _ => trivial⟩ h hf hs t ht
  obtain ⟨hs', h1, h2⟩ := hi.rows hh
  obtain ⟨h3, h4⟩ := h2 he hu
  have hcard : hs'.length = h.rows.toFinset.card := by
    have h5 : hs'.toFinset = h.rows.toFinset.image env.hash := by
      ext x
      simp [h4]
    have h6 : (h.rows.toFinset.image env.hash).card = h.rows.toFinset.card :=
      Finset.card_image_of_injOn (by
        intro x hx y hy hxy
        exact hinj x (by simpa using hx) y (by simpa using hy) hxy)
    rw [← h6, ← h5, List.toFinset_card_of_nodup h3]
  have hle : h.rows.toFinset.card ≤ h.rows.length := h.rows.toFinset_card_le
  have hr : uniqueRatio env.hll t = some ((h.rows.toFinset.card : ℚ) / h.rows.length) := by
    unfold uniqueRatio
    rw [if_neg (by simp [he, hu]), hi.total, h1]
    split_ifs with h0
    · rw [h0]; simp
    · simp only [hcard]
  refine ⟨hi.total, ?_, hr, ?_⟩
  · unfold duplicates
    rw [if_neg (by simp [he, hu]), hi.total, h1]
    simp only [hcard]
  · intro q hq
    rw [hr] at hq
    cases hq
    constructor
    · positivity
    · exact div_le_one_of_le₀ (by exact_mod_cast hle) (by positivity)

/-! ## Concrete cases, and what does not hold -/

-- four rows, three distinct, in two batches with clashing labels and a merge
example : (run toyEnv (.merge (.update (.update (.new ⟨true, true, true, .full⟩) none
      (toyUpd [.str "a", .str "b"] [(0, ["x", "y"]), (1, ["", ""])])) none (toyUpd [.str "a", .str "b"] [(0, ["x", "y"])]))
      (.update (.new ⟨true, true, true, .full⟩) none (toyUpd [.str "a", .str "b"] [(0, ["z", ""])])))).map
      (fun t => (t.total, t.hasNull, t.isNull, duplicates toyEnv.hll t, uniqueRatio toyEnv.hll t)) =
    .ok (4, 2, 1, some 1, some (3 / 4)) := by decide +kernel

/-- A toy row hash sensitive to the order of the columns. -/
def orderedEnv : Env (List String) ℕ := { toyEnv with hash := fun r => r.foldl (fun n s => 10 * n + s.length) 0 }

/-- **Counterexample**: the same row, given once with the columns swapped, counts as two distinct rows. -/
theorem C18_swapped_columns_fails :
    (run orderedEnv (.update (.update (.new ⟨true, true, true, .full⟩) none (toyUpd [.str "a", .str "b"] [(0, ["x", "yy"])]))
      none (toyUpd [.str "b", .str "a"] [(0, ["yy", "x"])]))).map (fun t => uniqueRatio orderedEnv.hll t) = .ok (some 1) ∧
    (Hist.update (.update (.new ⟨true, true, true, .full⟩) none (toyUpd [.str "a", .str "b"] [(0, ["x", "yy"])]))
      none (toyUpd [.str "b", .str "a"] [(0, ["yy", "x"])])).table id = [["x", "yy"], ["x", "yy"]] := by
  constructor <;> decide +kernel

/-- A batch profiled with a minimum of one true sample. -/
def minUpd (ns : List Key) (rows : List (ℤ × List String)) : Upd := { toyUpd ns rows with minTrue := 1 }

/-- **Counterexample**: with a minimum number of true samples, a third batch whose labels do not clash is looked up
under the shift left over from the second batch, and its null rows are missed. -/
theorem C18_min_true_fails :
    (run toyEnv (.update (.update (.update (.new ⟨true, true, true, .full⟩) none
      (minUpd [.str "a"] [(0, ["x"]), (1, [""])])) none (minUpd [.str "a"] [(0, ["x"]), (1, [""])])) none
      (minUpd [.str "a"] [(100, ["x"]), (101, [""])]))).map (fun t => (t.hasNull, t.cols.map fun c => c.base.nullCount)) =
    .ok (2, [3]) := by decide +kernel

end Verif.Table
