import Verif.Spec.Seed
import Verif.Props.Shuffle
import Verif.Lemmas.PyDict
import Mathlib.Data.Finset.Card
import Mathlib.Data.Nat.ModEq
import Mathlib.Data.List.Rotate

/-!
# C96: a seed makes sampling reproducible

With a seed, set by `set_seed` or in the environment, the rows that are sampled, all counts of rows and the displayed values of an
update do not depend on anything but the data; merges and unstructured text take the values they display from another generator.
-/

namespace Verif.Props.Seed

open Verif Verif.Nulls Verif.Seed Verif.Spec.Seed

variable {G R : Type} (lib : Lib G R) (isNull : String → Bool) (setOrder : List ℤ → List ℤ)

/-! ## Which seed -/

/-- `set_seed` takes nothing, integers from zero on and truth values, and refuses everything else without effect. -/
theorem C96_set_seed (w : World G R) (a : Arg) :
    (∀ n : ℕ, a = .int n → ∃ w', setSeed w a = .ok w' ∧ InForce w' n) ∧
    (a = .none → ∃ w', setSeed w a = .ok w' ∧ ∀ n, InForce w' n ↔ w.env = some (some (n : ℤ))) ∧
    (∀ b, a = .bool b → ∃ w', setSeed w a = .ok w' ∧ InForce w' (if b then 1 else 0)) ∧
    ((a = .other ∨ ∃ z, z < 0 ∧ a = .int z) → setSeed w a = .error .valueError) := by
  refine ⟨?_, ?_, ?_, ?_⟩
  · rintro n rfl
    refine ⟨{ w with setting := some n }, ?_, .inl rfl⟩
    rw [setSeed, if_neg (by omega), Int.toNat_natCast]
  · rintro rfl
    exact ⟨{ w with setting := none }, rfl, fun n => by simp [InForce]⟩
  · rintro b rfl
    exact ⟨_, rfl, .inl rfl⟩
  · rintro (rfl | ⟨z, hz, rfl⟩)
    · rfl
    · rw [setSeed, if_pos hz]

/-- There is one seed in force at most. -/
theorem C96_one_seed (w : World G R) (m n : ℕ) (hm : InForce w m) (hn : InForce w n) : m = n := by
  rcases hm with h | ⟨h, h'⟩ <;> rcases hn with g | ⟨g, g'⟩
  · rw [h] at g; cases g; rfl
  · rw [h] at g; cases g
  · rw [h] at g; cases g
  · rw [h'] at g'; simp only [Option.some.injEq] at g'; omega

/-- With a seed in force every generator starts from it, there is no warning, and it stays in force. -/
theorem C96_generator (w : World G R) (n : ℕ) (h : InForce w n) :
    (getRng lib w).1 = lib.seeded n ∧ (getRng lib w).2.1 = false ∧ InForce (getRng lib w).2.2 n ∧
      (getRng lib w).2.2.shared = w.shared := by
  rcases h with h | ⟨h, h'⟩
  · rw [getRng, h]; exact ⟨rfl, rfl, .inl h, rfl⟩
  · rw [getRng, h, h']
    dsimp only
    rw [if_neg (by omega), Int.toNat_natCast]
    exact ⟨rfl, rfl, .inr ⟨rfl, rfl⟩, rfl⟩

/-- Without one, a new generator of the system is used, and a variable that is set to something else is warned about. -/
theorem C96_unseeded (w : World G R) (h : ∀ n, ¬ InForce w n) :
    (getRng lib w).1 = w.entropy w.used ∧ ((getRng lib w).2.1 = true ↔ w.env ≠ none) ∧ (getRng lib w).2.2.used = w.used + 1 := by
  cases hs : w.setting with
  | some n => exact absurd (.inl hs) (h n)
  | none =>
    rw [getRng, hs]
    dsimp only
    cases he : w.env with
    | none => simp
    | some o =>
      cases o with
      | none => simp
      | some z =>
        dsimp only
        by_cases hz : z < 0
        · rw [if_pos hz]; simp
        · exact absurd (.inr ⟨hs, by rw [he, Int.toNat_of_nonneg (by omega)]⟩) (h z.toNat)

/-! ## Reproducibility -/

/-- The positions that are sampled depend on the seed and the size of the batch only. -/
theorem C96_positions (w w' : World G R) (n : ℕ) (h : InForce w n) (h' : InForce w' n) (t t' : Table) (hr : t.rows = t'.rows)
    (hs : t.sampleSize = t'.sampleSize) (hm : t.minTrue = t'.minTrue) : (positions lib w t).1 = (positions lib w' t').1 := by
  simp only [positions, (C96_generator lib w n h).1, (C96_generator lib w' n h').1, hr, hs, hm]

theorem positions_inForce {w : World G R} {n : ℕ} (h : InForce w n) (t : Table) :
    InForce (positions lib w t).2 n ∧ (positions lib w t).2.shared = w.shared := by
  rw [positions]; exact (C96_generator lib w n h).2.2

theorem updateCol_same {w w' : World G R} {n : ℕ} (h : InForce w n) (h' : InForce w' n) (t : Table) (chunks : List (List ℕ))
    (old old' : Col) (ho : old.stats = old'.stats) (col : List Cell) :
    (updateCol lib isNull setOrder t chunks w old col).1 = (updateCol lib isNull setOrder t chunks w' old' col).1 ∧
      InForce (updateCol lib isNull setOrder t chunks w old col).2 n ∧
      InForce (updateCol lib isNull setOrder t chunks w' old' col).2 n ∧
      (updateCol lib isNull setOrder t chunks w old col).2.shared = w.shared := by
  have hg := C96_generator lib w n h
  have hg' := C96_generator lib w' n h'
  rw [updateCol, updateCol, ho]
  cases clean isNull setOrder col t.sampleSize t.minTrue true chunks with
  | error e => exact ⟨rfl, h, h', rfl⟩
  | ok r =>
    obtain ⟨values, base⟩ := r
    dsimp only
    cases updateBase old'.stats base with
    | error e => exact ⟨rfl, hg.2.2.1, hg'.2.2.1, hg.2.2.2⟩
    | ok s =>
      dsimp only
      rw [hg.1, hg'.1]
      exact ⟨rfl, hg.2.2.1, hg'.2.2.1, hg.2.2.2⟩

theorem updateCols_same {n : ℕ} (t : Table) (chunks : List (List ℕ)) :
    ∀ (cols : List (List Cell)) (cs cs' : List Col) (w w' : World G R), InForce w n → InForce w' n →
      cs.map Col.stats = cs'.map Col.stats →
    (updateCols lib isNull setOrder t chunks w (cs.zip cols)).1 = (updateCols lib isNull setOrder t chunks w' (cs'.zip cols)).1 ∧
      InForce (updateCols lib isNull setOrder t chunks w (cs.zip cols)).2 n ∧
      InForce (updateCols lib isNull setOrder t chunks w' (cs'.zip cols)).2 n ∧
      (updateCols lib isNull setOrder t chunks w (cs.zip cols)).2.shared = w.shared
  | [], cs, cs', w, w', h, h', _ => by simp only [List.zip_nil_right]; exact ⟨rfl, h, h', rfl⟩
  | col :: cols, [], [], w, w', h, h', _ => ⟨rfl, h, h', rfl⟩
  | col :: cols, [], c' :: cs', w, w', h, h', he => by cases he
  | col :: cols, c :: cs, [], w, w', h, h', he => by cases he
  | col :: cols, c :: cs, c' :: cs', w, w', h, h', he => by
    rw [List.map_cons, List.map_cons, List.cons.injEq] at he
    obtain ⟨h1, h2, h3, h4⟩ := updateCol_same lib isNull setOrder h h' t chunks c c' he.1 col
    rw [List.zip_cons_cons, List.zip_cons_cons, updateCols, updateCols]
    rcases hr : updateCol lib isNull setOrder t chunks w c col with ⟨r, w1⟩
    rcases hr' : updateCol lib isNull setOrder t chunks w' c' col with ⟨r', w1'⟩
    rw [hr, hr'] at h1
    rw [hr] at h2 h4
    rw [hr'] at h3
    dsimp only at h1 h2 h3 h4
    subst h1
    cases r with
    | error e => exact ⟨rfl, h2, h3, h4⟩
    | ok d =>
      obtain ⟨g1, g2, g3, g4⟩ := updateCols_same t chunks cols cs cs' w1 w1' h2 h3 he.2
      dsimp only
      rcases hq : updateCols lib isNull setOrder t chunks w1 (cs.zip cols) with ⟨q, w2⟩
      rcases hq' : updateCols lib isNull setOrder t chunks w1' (cs'.zip cols) with ⟨q', w2'⟩
      rw [hq, hq'] at g1
      rw [hq] at g2 g4
      rw [hq'] at g3
      dsimp only at g1 g2 g3 g4
      subst g1
      cases q with
      | error e => exact ⟨rfl, g2, g3, g4.trans h4⟩
      | ok ds => exact ⟨rfl, g2, g3, g4.trans h4⟩

theorem update_same {n : ℕ} (t : Table) (cs cs' : List Col) (w w' : World G R) (h : InForce w n) (h' : InForce w' n)
    (he : cs.map Col.stats = cs'.map Col.stats) :
    (update lib isNull setOrder t w cs).1 = (update lib isNull setOrder t w' cs').1 ∧
      InForce (update lib isNull setOrder t w cs).2 n ∧ InForce (update lib isNull setOrder t w' cs').2 n ∧
      (update lib isNull setOrder t w cs).2.shared = w.shared := by
  have hp := C96_positions lib w w' n h h' t t rfl rfl rfl
  have hw := positions_inForce lib h t
  have hw' := positions_inForce lib h' t
  rw [update, update]
  by_cases hz : t.rows = 0
  · rw [if_pos hz, if_pos hz]
    exact ⟨rfl, (C96_generator lib w n h).2.2.1, (C96_generator lib w' n h').2.2.1, (C96_generator lib w n h).2.2.2⟩
  · rw [if_neg hz, if_neg hz, ← hp]
    cases Chunks.partition (positions lib w t).1 t.sampleSize with
    | error e => exact ⟨rfl, hw.1, hw'.1, hw.2⟩
    | ok chunks =>
      obtain ⟨g1, g2, g3, g4⟩ := updateCols_same lib isNull setOrder t chunks t.cols cs cs' _ _ hw.1 hw'.1 he
      exact ⟨g1, g2, g3, g4.trans hw.2⟩

theorem mergeSample_world (w : World G R) (a b : List String) {n : ℕ} (h : InForce w n) : InForce (mergeSample lib w a b).2 n := h

theorem mergeCols_same {n : ℕ} : ∀ (ps qs : List (Col × Col)) (w w' : World G R), InForce w n → InForce w' n →
      (ps.map fun x => (x.1.stats, x.2.stats)) = (qs.map fun x => (x.1.stats, x.2.stats)) →
    statistics (mergeCols lib w ps).1 = statistics (mergeCols lib w' qs).1 ∧ InForce (mergeCols lib w ps).2 n ∧
      InForce (mergeCols lib w' qs).2 n
  | [], [], w, w', h, h', _ => ⟨rfl, h, h'⟩
  | [], q :: qs, w, w', h, h', he => by cases he
  | p :: ps, [], w, w', h, h', he => by cases he
  | (a, b) :: ps, (a', b') :: qs, w, w', h, h', he => by
    rw [List.map_cons, List.map_cons, List.cons.injEq, Prod.mk.injEq] at he
    obtain ⟨⟨ha, hb⟩, he⟩ := he
    dsimp only at ha hb
    rw [mergeCols, mergeCols, ha, hb]
    cases mergeState a'.stats b'.stats with
    | error e => exact ⟨rfl, h, h'⟩
    | ok s =>
      dsimp only
      obtain ⟨g1, g2, g3⟩ := mergeCols_same ps qs (mergeSample lib w a.sample b.sample).2 (mergeSample lib w' a'.sample b'.sample).2
        h h' he
      rcases hq : mergeCols lib (mergeSample lib w a.sample b.sample).2 ps with ⟨q, w2⟩
      rcases hq' : mergeCols lib (mergeSample lib w' a'.sample b'.sample).2 qs with ⟨q', w2'⟩
      rw [hq, hq'] at g1
      rw [hq] at g2
      rw [hq'] at g3
      dsimp only at g1 g2 g3
      cases q with
      | error e =>
        cases q' with
        | error e' => exact ⟨g1, g2, g3⟩
        | ok ds' => cases g1
      | ok ds =>
        cases q' with
        | error e' => cases g1
        | ok ds' =>
          refine ⟨?_, g2, g3⟩
          have : ds.map Col.stats = ds'.map Col.stats := by simpa [statistics, Except.map] using g1
          simp [statistics, Except.map, this]

theorem zip_stats {cs cs' ds ds' : List Col} (h : cs.map Col.stats = cs'.map Col.stats) (g : ds.map Col.stats = ds'.map Col.stats) :
    ((cs.zip ds).map fun x => (x.1.stats, x.2.stats)) = ((cs'.zip ds').map fun x => (x.1.stats, x.2.stats)) := by
  have : ∀ l m : List Col, ((l.zip m).map fun x => (x.1.stats, x.2.stats)) = (l.map Col.stats).zip (m.map Col.stats) := by
    intro l m; rw [List.zip_map]; rfl
  rw [this, this, h, g]

theorem run_same {n : ℕ} : ∀ (p : Prog) (w w' : World G R), InForce w n → InForce w' n →
    statistics (Seed.run lib isNull setOrder p w).1 = statistics (Seed.run lib isNull setOrder p w').1 ∧
      InForce (Seed.run lib isNull setOrder p w).2 n ∧ InForce (Seed.run lib isNull setOrder p w').2 n
  | .new k, w, w', h, h' => ⟨rfl, h, h'⟩
  | .update p t, w, w', h, h' => by
    obtain ⟨h1, h2, h3⟩ := run_same p w w' h h'
    rw [Seed.run, Seed.run]
    rcases hr : run lib isNull setOrder p w with ⟨r, w1⟩
    rcases hr' : run lib isNull setOrder p w' with ⟨r', w1'⟩
    rw [hr, hr'] at h1
    rw [hr] at h2
    rw [hr'] at h3
    dsimp only at h1 h2 h3
    cases r with
    | error e =>
      cases r' with
      | error e' => exact ⟨h1, h2, h3⟩
      | ok cs' => cases h1
    | ok cs =>
      cases r' with
      | error e' => cases h1
      | ok cs' =>
        have : cs.map Col.stats = cs'.map Col.stats := by simpa [statistics, Except.map] using h1
        obtain ⟨g1, g2, g3, -⟩ := update_same lib isNull setOrder t cs cs' w1 w1' h2 h3 this
        exact ⟨by dsimp only; rw [g1], g2, g3⟩
  | .merge p q, w, w', h, h' => by
    obtain ⟨h1, h2, h3⟩ := run_same p w w' h h'
    rw [Seed.run, Seed.run]
    rcases hr : run lib isNull setOrder p w with ⟨r, w1⟩
    rcases hr' : run lib isNull setOrder p w' with ⟨r', w1'⟩
    rw [hr, hr'] at h1
    rw [hr] at h2
    rw [hr'] at h3
    dsimp only at h1 h2 h3
    cases r with
    | error e =>
      cases r' with
      | error e' => exact ⟨h1, h2, h3⟩
      | ok cs' => cases h1
    | ok cs =>
      cases r' with
      | error e' => cases h1
      | ok cs' =>
        have hcs : cs.map Col.stats = cs'.map Col.stats := by simpa [statistics, Except.map] using h1
        obtain ⟨k1, k2, k3⟩ := run_same q w1 w1' h2 h3
        dsimp only
        rcases hq : run lib isNull setOrder q w1 with ⟨s, w2⟩
        rcases hq' : run lib isNull setOrder q w1' with ⟨s', w2'⟩
        rw [hq, hq'] at k1
        rw [hq] at k2
        rw [hq'] at k3
        dsimp only at k1 k2 k3
        cases s with
        | error e =>
          cases s' with
          | error e' => exact ⟨k1, k2, k3⟩
          | ok ds' => cases k1
        | ok ds =>
          cases s' with
          | error e' => cases k1
          | ok ds' =>
            have hds : ds.map Col.stats = ds'.map Col.stats := by simpa [statistics, Except.map] using k1
            exact mergeCols_same lib _ _ w2 w2' k2 k3 (zip_stats hcs hds)

/-- With the same seed in force, any sequence of updates and merges gives the same counts, nulls and positions of nulls, or fails
in the same way: whatever the system, the shared generators and the number of generators used before. -/
theorem C96_statistics (w w' : World G R) (n : ℕ) (h : InForce w n) (h' : InForce w' n) (p : Prog) :
    statistics (Seed.run lib isNull setOrder p w).1 = statistics (Seed.run lib isNull setOrder p w').1 :=
  (run_same lib isNull setOrder p w w' h h').1

/-- After an update the displayed values are the same, too. -/
theorem C96_updated (w w' : World G R) (n : ℕ) (h : InForce w n) (h' : InForce w' n) (p : Prog) (t : Table) :
    (Seed.run lib isNull setOrder (.update p t) w).1 = (Seed.run lib isNull setOrder (.update p t) w').1 := by
  obtain ⟨h1, h2, h3⟩ := run_same lib isNull setOrder p w w' h h'
  rw [Seed.run, Seed.run]
  rcases hr : run lib isNull setOrder p w with ⟨r, w1⟩
  rcases hr' : run lib isNull setOrder p w' with ⟨r', w1'⟩
  rw [hr, hr'] at h1
  rw [hr] at h2
  rw [hr'] at h3
  dsimp only at h1 h2 h3
  cases r with
  | error e =>
    cases r' with
    | error e' => cases h1; rfl
    | ok cs' => cases h1
  | ok cs =>
    cases r' with
    | error e' => cases h1
    | ok cs' =>
      have : cs.map Col.stats = cs'.map Col.stats := by simpa [statistics, Except.map] using h1
      exact (update_same lib isNull setOrder t cs cs' w1 w1' h2 h3 this).1

theorem mergeCols_shared : ∀ (ps : List (Col × Col)) (w w' : World G R), w.shared = w'.shared →
    (mergeCols lib w ps).1 = (mergeCols lib w' ps).1 ∧ (mergeCols lib w ps).2.shared = (mergeCols lib w' ps).2.shared
  | [], w, w', h => ⟨rfl, h⟩
  | (a, b) :: ps, w, w', h => by
    have e1 : (mergeSample lib w a.sample b.sample).1 = (mergeSample lib w' a.sample b.sample).1 := by
      rw [mergeSample, mergeSample, h]
    have e2 : (mergeSample lib w a.sample b.sample).2.shared = (mergeSample lib w' a.sample b.sample).2.shared := by
      rw [mergeSample, mergeSample, h]
    obtain ⟨g1, g2⟩ := mergeCols_shared ps _ _ e2
    rw [mergeCols, mergeCols]
    cases mergeState a.stats b.stats with
    | error e => exact ⟨rfl, h⟩
    | ok s =>
      dsimp only
      rw [e1]
      rcases hq : mergeCols lib (mergeSample lib w a.sample b.sample).2 ps with ⟨q, w2⟩
      rcases hq' : mergeCols lib (mergeSample lib w' a.sample b.sample).2 ps with ⟨q', w2'⟩
      rw [hq, hq'] at g1 g2
      dsimp only at g1 g2
      subst g1
      cases q with
      | error e => exact ⟨rfl, g2⟩
      | ok cs => exact ⟨rfl, g2⟩

theorem run_shared {n : ℕ} : ∀ (p : Prog) (w w' : World G R), InForce w n → InForce w' n → w.shared = w'.shared →
    (Seed.run lib isNull setOrder p w).1 = (Seed.run lib isNull setOrder p w').1 ∧
      (Seed.run lib isNull setOrder p w).2.shared = (Seed.run lib isNull setOrder p w').2.shared
  | .new k, w, w', _, _, hs => ⟨rfl, hs⟩
  | .update p t, w, w', h, h', hs => by
    obtain ⟨-, h2, h3⟩ := run_same lib isNull setOrder p w w' h h'
    obtain ⟨k1, k2⟩ := run_shared p w w' h h' hs
    rw [Seed.run, Seed.run]
    rcases hr : Seed.run lib isNull setOrder p w with ⟨r, w1⟩
    rcases hr' : Seed.run lib isNull setOrder p w' with ⟨r', w1'⟩
    rw [hr, hr'] at k1 k2
    rw [hr] at h2
    rw [hr'] at h3
    dsimp only at k1 k2 h2 h3
    subst k1
    cases r with
    | error e => exact ⟨rfl, k2⟩
    | ok cs =>
      obtain ⟨g1, -, -, g4⟩ := update_same lib isNull setOrder t cs cs w1 w1' h2 h3 rfl
      obtain ⟨-, -, -, g4'⟩ := update_same lib isNull setOrder t cs cs w1' w1 h3 h2 rfl
      exact ⟨g1, by dsimp only; rw [g4, g4', k2]⟩
  | .merge p q, w, w', h, h', hs => by
    obtain ⟨-, h2, h3⟩ := run_same lib isNull setOrder p w w' h h'
    obtain ⟨k1, k2⟩ := run_shared p w w' h h' hs
    rw [Seed.run, Seed.run]
    rcases hr : Seed.run lib isNull setOrder p w with ⟨r, w1⟩
    rcases hr' : Seed.run lib isNull setOrder p w' with ⟨r', w1'⟩
    rw [hr, hr'] at k1 k2
    rw [hr] at h2
    rw [hr'] at h3
    dsimp only at k1 k2 h2 h3
    subst k1
    cases r with
    | error e => exact ⟨rfl, k2⟩
    | ok cs =>
      obtain ⟨m1, m2⟩ := run_shared q w1 w1' h2 h3 k2
      dsimp only
      rcases hq : Seed.run lib isNull setOrder q w1 with ⟨s, w2⟩
      rcases hq' : Seed.run lib isNull setOrder q w1' with ⟨s', w2'⟩
      rw [hq, hq'] at m1 m2
      dsimp only at m1 m2
      subst m1
      cases s with
      | error e => exact ⟨rfl, m2⟩
      | ok ds => exact mergeCols_shared lib _ w2 w2' m2

/-- If the shared generators are in the same state, too (`random.seed`), everything is the same. -/
theorem C96_everything (w w' : World G R) (n : ℕ) (h : InForce w n) (h' : InForce w' n) (hs : w.shared = w'.shared) (p : Prog) :
    (Seed.run lib isNull setOrder p w).1 = (Seed.run lib isNull setOrder p w').1 :=
  (run_shared lib isNull setOrder p w w' h h' hs).1

/-- Lines sampled from a file depend on the seed and the file only. -/
theorem C96_lines (w w' : World G R) (n : ℕ) (h : InForce w n) (h' : InForce w' n) (header : Option ℕ) (k : ℕ)
    (lines : List (List Char)) : sampleLines lib w header k lines = sampleLines lib w' header k lines := by
  rw [sampleLines, sampleLines, (C96_generator lib w n h).1, (C96_generator lib w' n h').1]

/-! ## Sampling stays what it is -/

theorem drawList_length (hl : Lawful lib) (n c : ℕ) : ∀ (inds : List ℕ) (j : ℕ) (g : G),
    (drawList lib n c inds j g).length = (inds.map fun i => min c (n - c * i)).sum
  | [], _, _ => rfl
  | ind :: rest, j, g => by
    rw [drawList, List.length_append, hl.integers_length, drawList_length hl n c rest, List.length_range', List.map_cons, List.sum_cons]

theorem draws_valid (hl : Lawful lib) (g : G) (n : ℕ) : Shuffle.ValidDraws n (draws lib g n n) := by
  intro j hj
  have e : max ((n + n - 1) / n) 1 = 1 := by
    have : (n + n - 1) / n < 2 := by rw [Nat.div_lt_iff_lt_mul (by omega)]; omega
    omega
  have hlen := hl.integers_length g (List.range' 0 n) n
  rw [List.length_range'] at hlen
  have key : draws lib g n n j = (lib.integers g (List.range' 0 n) n).1[j]'(by omega) := by
    rw [draws, e]
    simp [drawList, List.getD_eq_getElem?_getD, hlen, hj]
  rw [key]
  exact hl.integers_range g (List.range' 0 n) n j j _ (by simp [hj]) (List.getElem?_eq_getElem (by omega)) hj

theorem shuffle_one (n : ℕ) (hn : 0 < n) (d : ℕ → ℕ) : (Shuffle.shuffleInChunks n n d).headD [] = (Shuffle.shuffleInChunks n n d).flatten := by
  have e : max ((n + n - 1) / n) 1 = 1 := by
    have : (n + n - 1) / n < 2 := by rw [Nat.div_lt_iff_lt_mul (by omega)]; omega
    omega
  rw [Shuffle.shuffleInChunks, if_neg (by omega), e]
  simp [Shuffle.outer]

/-- The sampled positions are different rows of the batch, as many as asked for if there are enough; they come in order. -/
theorem C96_sampled (hl : Lawful lib) (w : World G R) (t : Table) (ht : t.minTrue = 0) :
    (positions lib w t).1.Nodup ∧ (positions lib w t).1.length = min t.sampleSize t.rows ∧
      (∀ i ∈ (positions lib w t).1, i < t.rows) ∧ (positions lib w t).1.Pairwise (· ≤ ·) := by
  rw [positions, sharedIds]
  dsimp only
  rw [if_pos ht]
  by_cases hn : t.rows = 0
  · rw [hn]; simp [Shuffle.shuffleInChunks]
  have hperm := Shuffle.C26_permutation t.rows t.rows _ (by omega) (draws_valid lib hl (getRng lib w).1 t.rows)
  rw [shuffle_one t.rows (by omega)]
  generalize (Shuffle.shuffleInChunks t.rows t.rows (draws lib (getRng lib w).1 t.rows t.rows)).flatten = ids at hperm
  have hs := List.perm_insertionSort (· ≤ ·) (ids.take t.sampleSize)
  refine ⟨?_, ?_, ?_, ?_⟩
  · rw [hs.nodup_iff]
    exact (hperm.nodup_iff.2 List.nodup_range).sublist (List.take_sublist _ _)
  · rw [hs.length_eq, List.length_take, hperm.length_eq, List.length_range]
  · intro i hi
    have := hperm.mem_iff.1 (List.mem_of_mem_take (hs.mem_iff.1 hi))
    simpa using this
  · exact List.pairwise_insertionSort _ _

/-- With a seed, a smaller sample of a batch is part of a larger one. -/
theorem C96_nested (w w' : World G R) (n : ℕ) (h : InForce w n) (h' : InForce w' n) (t t' : Table) (hr : t.rows = t'.rows)
    (hm : t.minTrue = 0) (hm' : t'.minTrue = 0) (hs : t.sampleSize ≤ t'.sampleSize) :
    ∀ i ∈ (positions lib w t).1, i ∈ (positions lib w' t').1 := by
  intro i hi
  rw [positions, sharedIds] at hi ⊢
  dsimp only at hi ⊢
  rw [if_pos hm, (List.perm_insertionSort _ _).mem_iff, (C96_generator lib w n h).1] at hi
  rw [if_pos hm', (List.perm_insertionSort _ _).mem_iff, (C96_generator lib w' n h').1, ← hr]
  exact (List.take_subset_take_left _ hs) hi

theorem foldl_distinct (l : List String) : ∀ s : List String, s.Nodup →
    (l.foldl (fun s x => if x ∈ s then s else s ++ [x]) s).Nodup ∧
      ∀ y, y ∈ l.foldl (fun s x => if x ∈ s then s else s ++ [x]) s ↔ y ∈ s ∨ y ∈ l := by
  induction l with
  | nil => intro s hs; exact ⟨hs, by simp⟩
  | cons x l ih =>
    intro s hs
    rw [List.foldl_cons]
    by_cases hx : x ∈ s
    · rw [if_pos hx]
      refine ⟨(ih s hs).1, fun y => ?_⟩
      rw [(ih s hs).2 y, List.mem_cons]
      constructor
      · rintro (h | h)
        · exact .inl h
        · exact .inr (.inr h)
      · rintro (h | rfl | h)
        · exact .inl h
        · exact .inl hx
        · exact .inr h
    · rw [if_neg hx]
      have hs' : (s ++ [x]).Nodup := by
        rw [List.nodup_append]
        refine ⟨hs, by simp, ?_⟩
        intro a ha b hb
        simp at hb
        subst hb
        rintro rfl
        exact hx ha
      refine ⟨(ih _ hs').1, fun y => ?_⟩
      rw [(ih _ hs').2 y]
      simp only [List.mem_append, List.mem_cons, List.not_mem_nil, or_false]
      exact or_assoc

/-- The values displayed for a merged column are different values of the two columns: five, or all if there are fewer. -/
theorem C96_merged_sample (hl : Lawful lib) (w : World G R) (a b : List String) :
    (mergeSample lib w a b).1.Nodup ∧ (∀ x ∈ (mergeSample lib w a b).1, x ∈ a ∨ x ∈ b) ∧
      (mergeSample lib w a b).1.length = min (a ++ b).toFinset.card 5 := by
  have hd := foldl_distinct (a ++ b) [] List.nodup_nil
  have hn : (distinct (a ++ b)).Nodup := hd.1
  have hmem : ∀ y, y ∈ distinct (a ++ b) ↔ y ∈ a ∨ y ∈ b := by intro y; rw [distinct, hd.2 y]; simp
  have hcard : (a ++ b).toFinset.card = (distinct (a ++ b)).length := by
    rw [← List.toFinset_card_of_nodup hn]
    congr 1
    ext y
    rw [List.mem_toFinset, List.mem_toFinset, hmem, List.mem_append]
  rw [mergeSample]
  dsimp only
  generalize distinct (a ++ b) = all at hn hmem hcard
  have hk : min all.length 5 ≤ all.length := Nat.min_le_left _ _
  have h1 := hl.sample_length w.shared _ _ hk
  have h2 := hl.sample_distinct w.shared _ _ hk
  have h3 := hl.sample_range w.shared _ _ hk
  generalize (lib.sample w.shared all.length (min all.length 5)).1 = idx at h1 h2 h3
  have hlen : ∀ l : List ℕ, (∀ i ∈ l, i < all.length) → (l.filterMap fun i => all[i]?).length = l.length := by
    intro l
    induction l with
    | nil => intro _; rfl
    | cons i l ih =>
      intro hi
      have hi0 := hi i (by simp)
      rw [List.filterMap_cons, List.getElem?_eq_getElem hi0]
      simp [ih fun j hj => hi j (by simp [hj])]
  refine ⟨?_, ?_, ?_⟩
  · refine List.Nodup.filterMap ?_ h2
    intro i j x hi hj
    rw [Option.mem_def] at hi hj
    obtain ⟨hi0, hi1⟩ := List.getElem?_eq_some_iff.1 hi
    obtain ⟨hj0, hj1⟩ := List.getElem?_eq_some_iff.1 hj
    exact (List.Nodup.getElem_inj_iff hn).1 (hi1.trans hj1.symm)
  · intro x hx
    rw [List.mem_filterMap] at hx
    obtain ⟨i, -, hi⟩ := hx
    exact (hmem x).1 (List.mem_of_getElem? hi)
  · rw [hlen idx h3, h1, hcard]

/-- The values displayed after an update are values of the column that are not null: five, or all if there are fewer. -/
theorem C96_updated_sample (hl : Lawful lib) (t : Table) (chunks : List (List ℕ)) (w w' : World G R) (old new : Col) (col : List Cell)
    (h : updateCol lib isNull setOrder t chunks w old col = (.ok new, w')) :
    ∃ values base, clean isNull setOrder col t.sampleSize t.minTrue true chunks = .ok (values, base) ∧
      new.sample.Subperm values ∧ new.sample.length = min values.length 5 ∧ updateBase old.stats base = .ok new.stats := by
  rw [updateCol] at h
  cases hc : clean isNull setOrder col t.sampleSize t.minTrue true chunks with
  | error e => rw [hc] at h; simp at h
  | ok r =>
    obtain ⟨values, base⟩ := r
    rw [hc] at h
    dsimp only at h
    cases hu : updateBase old.stats base with
    | error e => rw [hu] at h; simp at h
    | ok s =>
      rw [hu] at h
      simp only [Prod.mk.injEq, Except.ok.injEq] at h
      obtain ⟨rfl, -⟩ := h
      exact ⟨values, base, rfl, hl.choice_from _ _ _ (Nat.min_le_left _ _), hl.choice_length _ _ _ (Nat.min_le_left _ _), hu⟩

/-! ## Cases -/

/-- Generators that count: seeds are states, integers are the lowest ones shifted by the state, samples begin at the state. -/
def counting : Lib ℕ ℕ where
  seeded n := n
  integers g lows n := (lows.map fun a => a + g % (n - a), g + 1)
  choice g l k := (l.rotate g).take k
  round _ _ := (.stop, 0)
  sample r n k := ((List.range k).map fun i => (i + r) % n, r + 1)

example : Lawful counting where
  integers_length g lows n := by simp [counting]
  integers_range g lows n i a b ha hb hn := by
    simp only [counting, List.getElem?_map, ha, Option.map_some, Option.some.injEq] at hb
    have := Nat.mod_lt g (show n - a > 0 by omega)
    omega
  choice_length g l k hk := by simp [counting, hk]
  choice_from g l k _ := (List.take_sublist _ _).subperm.trans (List.rotate_perm l g).subperm
  sample_length r n k _ := by simp [counting]
  sample_distinct r n k hk := by
    show ((List.range k).map fun i => (i + r) % n).Nodup
    refine List.Nodup.map_on ?_ List.nodup_range
    intro i hi j hj h
    simp only [List.mem_range] at hi hj
    have h1 : i ≡ j [MOD n] := Nat.ModEq.add_right_cancel' r h
    rw [Nat.ModEq, Nat.mod_eq_of_lt (by omega), Nat.mod_eq_of_lt (by omega)] at h1
    exact h1
  sample_range r n k hk i hi := by
    simp only [counting, List.mem_map, List.mem_range] at hi
    obtain ⟨j, hj, rfl⟩ := hi
    exact Nat.mod_lt _ (by omega)

/-- A seed was set; the system and the shared generators are in the given state. -/
def world (seed : Option ℕ) (env : Option (Option ℤ)) (shared system : ℕ) : World ℕ ℕ := ⟨seed, env, fun i => system + i, 0, shared⟩

/-- A column of six cells, one of them null. -/
def six : Table := ⟨6, [[(0, "a"), (1, "b"), (2, ""), (3, "c"), (4, "d"), (5, "e")]], 4, 0⟩

/-- What is displayed and how many nulls were found. -/
def shown (r : Except Err (List Col)) : Option (List (List String × ℕ)) := r.toOption.map fun cs => cs.map fun c => (c.sample, c.stats.nullCount)

example : shown (Seed.run counting (· == "") id (.update (.new 1) six) (world (some 2) none 0 0)).1 = some [(["e", "c", "d"], 1)] := by
  decide +kernel

example : shown (Seed.run counting (· == "") id (.update (.new 1) six) (world none (some (some 2)) 7 5)).1 = some [(["e", "c", "d"], 1)] := by
  decide +kernel

example : InForce (world (some 2) none 0 0) 2 ∧ InForce (world none (some (some 2)) 7 5) 2 := ⟨.inl rfl, .inr ⟨rfl, rfl⟩⟩

/-- Without a seed the rows that are sampled, and even the number of nulls, depend on the system. -/
theorem C96_unseeded_fails : ∃ w w' : World ℕ ℕ, w.setting = none ∧ w'.setting = none ∧ w.env = w'.env ∧ w.shared = w'.shared ∧
    shown (Seed.run counting (· == "") id (.update (.new 1) six) w).1 ≠ shown (Seed.run counting (· == "") id (.update (.new 1) six) w').1 :=
  ⟨world none none 0 0, world none none 0 3, rfl, rfl, rfl, rfl, by decide +kernel⟩

/-- The values displayed after a merge are not reproducible: they come from the shared generator. -/
theorem C96_merge_fails : ∃ w w' : World ℕ ℕ, InForce w 2 ∧ InForce w' 2 ∧
    shown (Seed.run counting (· == "") id (.merge (.update (.new 1) six) (.update (.new 1) six)) w).1 ≠
      shown (Seed.run counting (· == "") id (.merge (.update (.new 1) six) (.update (.new 1) six)) w').1 :=
  ⟨world (some 2) none 0 0, world (some 2) none 1 0, .inl rfl, .inl rfl, by decide +kernel⟩

/-- Neither are the rows sampled of a Parquet file and the displayed lines of unstructured text. -/
theorem C96_shared_fails : ∃ w w' : World ℕ ℕ, InForce w 2 ∧ InForce w' 2 ∧
    sampleRows counting w 2 [10, 20, 30] ≠ sampleRows counting w' 2 [10, 20, 30] ∧
      sampleText counting w ["x", "y"] ≠ sampleText counting w' ["x", "y"] :=
  ⟨world (some 2) none 0 0, world (some 2) none 1 0, .inl rfl, .inl rfl, by decide +kernel, by decide +kernel⟩

/-- A seed repeats the sample: every batch of as many rows is sampled at the same positions, so that what is at the others is never
seen. -/
theorem C96_repeats_fails : ∃ (w : World ℕ ℕ), InForce w 2 ∧ ∀ t : Table, t.rows = 6 → t.sampleSize = 4 → t.minTrue = 0 →
    (positions counting w t).1 = [2, 3, 4, 5] ∧ (positions counting (positions counting w t).2 t).1 = [2, 3, 4, 5] := by
  refine ⟨world (some 2) none 0 0, .inl rfl, ?_⟩
  rintro ⟨r, c, s, m⟩ rfl rfl rfl
  have h : ∀ c, (positions counting (world (some 2) none 0 0) ⟨6, c, 4, 0⟩).1 = [2, 3, 4, 5] := by
    intro c
    show (positions counting (world (some 2) none 0 0) ⟨6, [], 4, 0⟩).1 = [2, 3, 4, 5]
    decide +kernel
  exact ⟨h c, h c⟩

end Verif.Props.Seed
