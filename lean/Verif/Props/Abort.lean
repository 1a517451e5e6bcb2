import Verif.Lemmas.Abort

/-!
# C111: what an update that raises leaves behind

For all profiles, batches and exceptions at any step.
-/

namespace Verif.Props.Abort

open Verif Verif.Abort Verif.Spec.Abort

variable {β : Type}

/-- An update that is refused, or that warns that there are no data, changes nothing. -/
theorem C111_refused (o : Opts) (raises : Stage → Bool) (p : Prof β) (i : Input β)
    (h : (update o raises p i).2 = .warned ∨ ∃ e, (update o raises p i).2 = .refused e) : (update o raises p i).1 = p := by
  cases i with
  | other => rfl
  | badMin => rfl
  | batch b =>
    unfold update at h ⊢
    by_cases hr : b.rows = 0
    · simp [hr]
    · by_cases hf : fits p b.names = true
      · exfalso
        simp only [hr, hf, if_false, Bool.not_true, Bool.false_eq_true] at h
        generalize perform raises b (setUp o p b.names) (stages o b.names) = x at h
        obtain ⟨q, _ | _⟩ := x <;> simp at h
      · simp [hr, hf]

/-- Which updates are refused. -/
theorem C111_outcome (o : Opts) (raises : Stage → Bool) (p : Prof β) (b : Batch β) (hb : Proper b) :
    ((update o raises p (.batch b)).2 = .refused .valueError ↔ ¬ (p.cols = [] ∨ b.names.Perm (p.cols.map Prod.fst))) ∧
    ((update o raises p (.batch b)).2 = .done ↔
      (p.cols = [] ∨ b.names.Perm (p.cols.map Prod.fst)) ∧ ∀ s ∈ order o b.names, s ≠ .total → raises s = false) ∧
    ((update o raises p (.batch b)).2 = .failed ↔
      (p.cols = [] ∨ b.names.Perm (p.cols.map Prod.fst)) ∧ ∃ s ∈ order o b.names, s ≠ .total ∧ raises s = true) := by
  obtain ⟨h0, hn, hr⟩ := hb
  have hiff : fits p b.names = true ↔ (p.cols = [] ∨ b.names.Perm (p.cols.map Prod.fst)) := ⟨perm_of_fits hn h0, fits_of⟩
  by_cases hf : fits p b.names = true
  · rw [update_eq o raises p b hr hf]
    have hd := all_done_iff raises (order o b.names)
    have hex : (∃ s ∈ order o b.names, s ≠ .total ∧ raises s = true) ↔ ¬ doneOf raises (order o b.names) = order o b.names := by
      rw [hd]
      push Not
      simp
    rw [hex, ← hd, ← hiff]
    by_cases h : doneOf raises (order o b.names) = order o b.names <;> simp [h, hf]
  · have e : update o raises p (.batch b) = (p, .refused .valueError) := by simp [update, hr, hf]
    rw [e, ← hiff]
    simp [hf]

/-- An update that is not refused, whether or not it raises: each part gets the batch exactly if the work reached it. -/
theorem C111_exact (o : Opts) (raises : Stage → Bool) (p : Prof β) (b : Batch β) (hb : Proper b)
    (hf : p.cols = [] ∨ b.names.Perm (p.cols.map Prod.fst)) :
    let q := (update o raises p (.batch b)).1
    let reached := Reached raises (order o b.names)
    q.cols.map Prod.fst = (columnsBefore o p b.names).map Prod.fst ∧
    (∀ x ∈ columnsBefore o p b.names, ∃ c, (x.1, c) ∈ q.cols ∧ Gets (reached (.clean x.1)) x.2.counted c.counted b.data ∧
      ∀ k l, x.2.parts[k]? = some l → ∃ l', c.parts[k]? = some l' ∧ Gets (reached (.part x.1 k)) l l' b.data) ∧
    Gets (reached .corr) p.corr q.corr b.data ∧
    ((reached .total → q.total = p.total + b.rows) ∧ (¬ reached .total → q.total = p.total)) ∧
    Gets (reached .rows) p.rowStats q.rowStats b.data ∧ Gets (reached .nullRep) p.nullRep q.nullRep b.data ∧
    ((∀ s ∈ order o b.names, s ≠ .total → raises s = false) → q.fileType = some b.data) ∧
    ((∃ s ∈ order o b.names, s ≠ .total ∧ raises s = true) → q.fileType = p.fileType) := by
  intro q reached
  obtain ⟨h0, hn, hr⟩ := hb
  have hq : q = { (doneOf raises (order o b.names)).foldl (effect b) (setUp o p b.names) with fileType := q.fileType } := by
    show (update o raises p (.batch b)).1 = _
    simp only [q]
    rw [update_eq o raises p b hr (fits_of hf)]
    split <;> rfl
  have hs : setUp o p b.names = { p with cols := columnsBefore o p b.names } := by
    unfold setUp columnsBefore
    obtain ⟨cols, _, _, _, _, _⟩ := p
    cases cols <;> simp
  rw [hs, foldl_effect] at hq
  have hc : q.cols = (columnsBefore o p b.names).map fun x => (x.1, after b.data (doneOf raises (order o b.names)) x.1 x.2) := by
    rw [hq]
  have gr := fun s l => gets_replicate (β := β) raises o hn s l b.data
  refine ⟨by rw [hc]; simp [Function.comp_def], ?_, by rw [hq]; exact gr _ _, ?_, by rw [hq]; exact gr _ _, by rw [hq]; exact gr _ _, ?_, ?_⟩
  · intro x hx
    refine ⟨after b.data (doneOf raises (order o b.names)) x.1 x.2, by rw [hc]; exact List.mem_map.mpr ⟨x, hx, rfl⟩, gr _ _, ?_⟩
    intro k l hl
    refine ⟨_, ?_, gr (.part x.1 k) l⟩
    simp [after, List.getElem?_mapIdx, hl]
  · obtain ⟨a, c⟩ := count_doneOf raises o hn .total
    rw [hq]
    exact ⟨fun h => by simp [a h], fun h => by simp [c h]⟩
  · intro h
    have := (all_done_iff raises (order o b.names)).mpr h
    simp only [q]
    rw [update_eq o raises p b hr (fits_of hf), if_pos this]
  · rintro ⟨s, hs', ht, hx⟩
    have : ¬ doneOf raises (order o b.names) = order o b.names := by
      rw [all_done_iff]
      intro h
      rw [h s hs' ht] at hx
      cases hx
    simp only [q]
    rw [update_eq o raises p b hr (fits_of hf), if_neg this, hs, foldl_effect]

/-- A column is counted if neither its cleaning nor that of a column before it raises, whatever happens later. -/
theorem C111_reached_clean (o : Opts) (raises : Stage → Bool) (pre post : List String) (n : String) (hn : (pre ++ n :: post).Nodup) :
    Reached raises (order o (pre ++ n :: post)) (.clean n) ↔ ∀ m ∈ pre ++ [n], raises (.clean m) = false := by
  have e : ∃ rest, order o (pre ++ n :: post) = pre.map .clean ++ .clean n :: rest := by
    refine ⟨post.map .clean ++ (order o (pre ++ n :: post)).drop (pre ++ n :: post).length, ?_⟩
    have : order o (pre ++ n :: post) = (pre ++ n :: post).map .clean ++
        (order o (pre ++ n :: post)).drop (pre ++ n :: post).length := by
      simp only [order, List.append_assoc]
      rw [List.drop_left' (by simp)]
    generalize (order o (pre ++ n :: post)).drop (pre ++ n :: post).length = r at this ⊢
    rw [this]
    simp
  obtain ⟨rest, e⟩ := e
  constructor
  · rintro ⟨a, c, he, ht⟩ m hm
    have hnd := nodup_order o hn
    rw [e] at he hnd
    have hpre : a = pre.map .clean := by
      have h1 : (pre.map Stage.clean).length = (pre.map Stage.clean ++ Stage.clean n :: rest).idxOf (.clean n) := by
        rw [List.idxOf_append_of_notMem]
        · simp
        · rw [List.nodup_append] at hnd
          exact fun hm => hnd.2.2 _ hm _ (by simp) rfl
      have h2 : a.length = (a ++ Stage.clean n :: c).idxOf (.clean n) := by
        rw [he] at hnd
        rw [List.idxOf_append_of_notMem]
        · simp
        · rw [List.nodup_append] at hnd
          exact fun hm => hnd.2.2 _ hm _ (by simp) rfl
      have hl : a.length = (pre.map Stage.clean).length := by rw [h1, h2, he]
      exact (List.append_inj he.symm hl).1
    refine ht (.clean m) ?_ (by simp)
    rw [hpre]
    simpa using hm
  · intro h
    refine ⟨_, rest, e, ?_⟩
    intro t ht _
    simp only [List.mem_append, List.mem_map, List.mem_singleton] at ht
    rcases ht with ⟨m, hm, rfl⟩ | rfl
    · exact h m (by simp [hm])
    · exact h n (by simp)

/-- Rows are added to the total only after all columns and the matrices. -/
theorem C111_reached_total (o : Opts) (raises : Stage → Bool) (names : List String) (hn : names.Nodup) :
    Reached raises (order o names) .total ↔
      (∀ n ∈ names, raises (.clean n) = false) ∧ (∀ n ∈ names, ∀ k < o.parts, raises (.part n k) = false) ∧
      (o.corr = true → raises .corr = false) ∧ (o.chi2 = true → raises .chi2 = false) := by
  have e : order o names = (names.map (fun n => .clean n) ++ names.flatMap (fun n => (List.range o.parts).map fun k => .part n k) ++
      (if o.corr then [.corr] else []) ++ (if o.chi2 then [.chi2] else [])) ++ .total :: ((if o.rows then [.rows] else []) ++
      (if o.nullRep then [.nullRep] else [])) := by simp [order]
  generalize hpre : (names.map (fun n => Stage.clean n) ++ names.flatMap (fun n => (List.range o.parts).map fun k => .part n k) ++
      (if o.corr then [.corr] else []) ++ (if o.chi2 then [.chi2] else [])) = pre at e
  have hmem : ∀ t, t ∈ pre ↔ (∃ n ∈ names, t = .clean n) ∨ (∃ n ∈ names, ∃ k < o.parts, t = .part n k) ∨ (o.corr = true ∧ t = .corr) ∨
      (o.chi2 = true ∧ t = .chi2) := by
    intro t
    rw [← hpre]
    simp only [List.mem_append, List.mem_map, List.mem_flatMap, List.mem_range, or_assoc]
    cases o.corr <;> cases o.chi2 <;> simp [eq_comm]
  have hnt : Stage.total ∉ pre := by rw [hmem]; simp
  have step : Reached raises (order o names) .total ↔ ∀ t ∈ pre, raises t = false := by
    constructor
    · rintro ⟨a, c, he, ht⟩ t htm
      have hnd := nodup_order o hn
      rw [e] at he hnd
      have ha : a = pre := by
        have h1 : pre.length = (pre ++ Stage.total :: ((if o.rows then [.rows] else []) ++ (if o.nullRep then [.nullRep] else []))).idxOf
            .total := by
          rw [List.idxOf_append_of_notMem hnt]; simp
        have h2 : a.length = (a ++ Stage.total :: c).idxOf .total := by
          rw [he] at hnd
          rw [List.idxOf_append_of_notMem]
          · simp
          · rw [List.nodup_append] at hnd
            exact fun hm => hnd.2.2 _ hm _ (by simp) rfl
        exact (List.append_inj he.symm (by rw [h1, h2, he])).1
      refine ht t (by rw [ha]; simp [htm]) ?_
      rintro rfl
      exact hnt htm
    · intro h
      refine ⟨pre, _, e, ?_⟩
      intro t ht htt
      rcases List.mem_append.mp ht with ht | ht
      · exact h t ht
      · simp at ht; exact absurd ht htt
  rw [step]
  constructor
  · intro h
    exact ⟨fun n hn => h _ ((hmem _).mpr (Or.inl ⟨n, hn, rfl⟩)), fun n hn k hk => h _ ((hmem _).mpr (Or.inr (Or.inl ⟨n, hn, k, hk, rfl⟩))),
      fun hc => h _ ((hmem _).mpr (Or.inr (Or.inr (Or.inl ⟨hc, rfl⟩)))), fun hc => h _ ((hmem _).mpr (Or.inr (Or.inr (Or.inr ⟨hc, rfl⟩))))⟩
  · rintro ⟨h1, h2, h3, h4⟩ t ht
    rcases (hmem t).mp ht with ⟨n, hn, rfl⟩ | ⟨n, hn, k, hk, rfl⟩ | ⟨hc, rfl⟩ | ⟨hc, rfl⟩
    · exact h1 n hn
    · exact h2 n hn k hk
    · exact h3 hc
    · exact h4 hc

/-- A profile all of whose updates ended well or were refused: everything in it describes the batches that were accepted. Missing: updates
that raise in the middle. -/
theorem C111_consistent_partial (o : Opts) (calls : List ((Stage → Bool) × Input β))
    (hc : ∀ c ∈ calls, ∀ b, c.2 = .batch b → b.rows ≠ 0 → Proper b) (hn : NoneFailed o new calls) :
    Agrees o (run o new calls) (accepted o new calls) := by
  have main : ∀ (calls : List ((Stage → Bool) × Input β)) (p : Prof β) (bs : List (Batch β)), Sound o p → Agrees o p bs →
      (p.cols = [] → bs = []) → (∀ c ∈ calls, ∀ b, c.2 = .batch b → b.rows ≠ 0 → Proper b) → NoneFailed o p calls →
      Agrees o (run o p calls) (bs ++ accepted o p calls) := by
    intro calls
    induction calls with
    | nil => intro p bs _ ha _ _ _; simpa [run, accepted] using ha
    | cons c cs ih =>
      rintro p bs hs ha he hc ⟨hf, hn⟩
      obtain ⟨raises, i⟩ := c
      have hs' := sound_update o raises hs i (fun b e hr => (hc (raises, i) (by simp) b e hr).2.1)
      cases ho : (update o raises p i).2 with
      | failed => exact absurd ho hf
      | warned =>
        have e := C111_refused o raises p i (Or.inl ho)
        have := ih p bs hs ha he (fun c hm => hc c (by simp [hm])) (by simpa [e] using hn)
        simpa [run, accepted, ho, e] using this
      | refused x =>
        have e := C111_refused o raises p i (Or.inr ⟨x, ho⟩)
        have := ih p bs hs ha he (fun c hm => hc c (by simp [hm])) (by simpa [e] using hn)
        simpa [run, accepted, ho, e] using this
      | done =>
        cases i with
        | other => simp [update] at ho
        | badMin => simp [update] at ho
        | batch b =>
          have hr : b.rows ≠ 0 := by
            intro h
            simp [update, h] at ho
          have hb := hc (raises, .batch b) (by simp) b rfl hr
          obtain ⟨hfit, hra⟩ := (C111_outcome o raises p b hb).2.1.mp ho
          have hu := update_done o raises hs hb (fits_of hfit) hra
          have hcols : ∀ x ∈ (setUp o p b.names).cols, x.2.counted = bs.map Batch.data ∧
              x.2.parts = List.replicate o.parts (bs.map Batch.data) := by
            unfold setUp
            split
            · rename_i hemp
              have hb0 := he (by simpa using hemp)
              intro x hx
              simp only [List.mem_map] at hx
              obtain ⟨n, _, rfl⟩ := hx
              simp [hb0]
            · exact ha.2.1
          have ha' : Agrees o (update o raises p (.batch b)).1 (bs ++ [b]) := by
            rw [hu]
            obtain ⟨t1, _, t3, t4, t5, _⟩ := ha
            refine ⟨by simp [t1], ?_, ?_, ?_, ?_, by simp⟩
            · intro x hx
              simp only [List.mem_map] at hx
              obtain ⟨y, hy, rfl⟩ := hx
              obtain ⟨u, v⟩ := hcols y hy
              simp [u, v]
            · intro h; simp [grow, h, t3 h]
            · intro h; simp [grow, h, t4 h]
            · intro h; simp [grow, h, t5 h]
          have he' : (update o raises p (.batch b)).1.cols = [] → bs ++ [b] = [] := by
            rw [hu]
            simp only [List.map_eq_nil_iff]
            intro h
            exfalso
            unfold setUp at h
            split at h
            · simp at h; exact hb.1 h
            · rename_i h'; simp [h] at h'
          have := ih _ (bs ++ [b]) hs' ha' he' (fun c hm => hc c (by simp [hm])) hn
          simpa [run, accepted, ho] using this
  have := main calls new [] ⟨by simp [new], by simp [new]⟩ ⟨rfl, by simp [new], by simp [new], by simp [new], by simp [new], rfl⟩
    (fun _ => rfl) hc hn
  simpa using this

/-- What an update left behind is never repaired: all later updates add the same to every part. -/
theorem C111_never_repaired (o : Opts) (bs : List (Batch β)) : ∀ (p : Prof β), Sound o p → p.cols ≠ [] →
    (∀ b ∈ bs, Proper b ∧ b.names.Perm (p.cols.map Prod.fst)) →
    let q := run o p (bs.map fun b => (fun _ => false, .batch b))
    q.cols = p.cols.map (fun x => (x.1, ⟨x.2.counted ++ bs.map Batch.data, x.2.parts.map (· ++ bs.map Batch.data)⟩)) ∧
    q.total = p.total + (bs.map Batch.rows).sum ∧ (o.rows = true → q.rowStats = p.rowStats ++ bs.map Batch.data) := by
  induction bs with
  | nil => intro p _ _ _; simp [run]
  | cons b bs ih =>
    intro p hs hne hb
    obtain ⟨hb1, hb2⟩ := hb b (by simp)
    have hu := update_done o (fun _ => false) hs hb1 (fits_of (Or.inr hb2)) (by simp)
    have hset : setUp o p b.names = p := by
      unfold setUp
      split
      · rename_i h; exact absurd (by simpa using h) hne
      · rfl
    rw [hset] at hu
    have hs' := sound_update o (fun _ => false) hs (.batch b) (fun b' e _ => by cases e; exact hb1.2.1)
    have := ih (update o (fun _ => false) p (.batch b)).1 hs' (by rw [hu]; simpa using hne) (by
      intro b' hb'
      obtain ⟨x, y⟩ := hb b' (by simp [hb'])
      rw [hu]
      exact ⟨x, by simpa [Function.comp_def] using y⟩)
    obtain ⟨h1, h2, h3⟩ := this
    have e : run o p ((b :: bs).map fun b => ((fun _ => false : Stage → Bool), Input.batch b)) =
        run o (update o (fun _ => false) p (.batch b)).1 (bs.map fun b => ((fun _ => false : Stage → Bool), Input.batch b)) := rfl
    intro q
    have hq : q = run o (update o (fun _ => false) p (.batch b)).1 (bs.map fun b => ((fun _ => false : Stage → Bool), Input.batch b)) := e
    refine ⟨?_, ?_, ?_⟩
    · rw [hq, h1, hu]
      simp [Function.comp_def]
    · rw [hq, h2, hu]
      simp [Nat.add_assoc]
    · intro ho
      rw [hq, h3 ho, hu]
      simp [grow, ho]

/-- An update that raised after the columns were cleaned and before the rows were counted, and is tried again: every column counts the
batch twice, the table counts it once. -/
theorem C111_retry (o : Opts) (raises : Stage → Bool) (p : Prof β) (hs : Sound o p) (b : Batch β) (hb : Proper b)
    (hf : p.cols ≠ [] ∧ b.names.Perm (p.cols.map Prod.fst)) (hclean : ∀ n ∈ b.names, raises (.clean n) = false)
    (ht : ¬ Reached raises (order o b.names) .total) :
    let q := run o p [(raises, .batch b), (fun _ => false, .batch b)]
    q.total = p.total + b.rows ∧ ∀ x ∈ p.cols, ∃ c, (x.1, c) ∈ q.cols ∧ c.counted = x.2.counted ++ [b.data, b.data] := by
  intro q
  obtain ⟨hne, hperm⟩ := hf
  have hcb : columnsBefore o p b.names = p.cols := by
    unfold columnsBefore
    cases hc : p.cols with
    | nil => exact absurd hc hne
    | cons c cs => rfl
  obtain ⟨e1, e2, _, e4, _⟩ := C111_exact o raises p b hb (Or.inr hperm)
  rw [hcb] at e1 e2
  have hs' := sound_update o raises hs (.batch b) (fun b' e _ => by cases e; exact hb.2.1)
  have hne' : (update o raises p (.batch b)).1.cols ≠ [] := by
    intro h
    rw [h] at e1
    exact hne (by simpa using e1.symm)
  obtain ⟨r1, r2, _⟩ := C111_never_repaired o [b] (update o raises p (.batch b)).1 hs' hne' (by
    intro b' hb'
    simp only [List.mem_singleton] at hb'
    subst hb'
    exact ⟨hb, by rw [e1]; exact hperm⟩)
  have hq : q = run o (update o raises p (.batch b)).1 ([b].map fun b => ((fun _ => false : Stage → Bool), Input.batch b)) := rfl
  refine ⟨?_, ?_⟩
  · rw [hq, r2, e4.2 ht]
    simp
  · intro x hx
    obtain ⟨c, hc, hg, _⟩ := e2 x hx
    have hmem : x.1 ∈ b.names := hperm.mem_iff.mpr (List.mem_map.mpr ⟨x, hx, rfl⟩)
    obtain ⟨pre, post, hsplit⟩ := List.append_of_mem hmem
    have hreach : Reached raises (order o b.names) (.clean x.1) := by
      rw [hsplit]
      have hnd := hb.2.1
      rw [hsplit] at hnd
      rw [C111_reached_clean o raises pre post x.1 hnd]
      intro m hm
      refine hclean m ?_
      rw [hsplit]
      simp only [List.mem_append, List.mem_singleton] at hm
      rcases hm with hm | rfl <;> simp [*]
    have hcount := hg.1 hreach
    refine ⟨⟨c.counted ++ [b.data], c.parts.map (· ++ [b.data])⟩, ?_, by simp [hcount]⟩
    rw [hq, r1]
    exact List.mem_map.mpr ⟨(x.1, c), hc, rfl⟩

/-- A first update that raises fixes the columns: afterwards only data with the same columns are taken. -/
theorem C111_first (o : Opts) (raises : Stage → Bool) (b b' : Batch β) (hb : Proper b) (hb' : Proper b')
    (hne : ¬ b'.names.Perm b.names) (raises' : Stage → Bool) :
    update o raises' (update o raises new (.batch b)).1 (.batch b') = ((update o raises new (.batch b)).1, .refused .valueError) := by
  obtain ⟨e1, _⟩ := C111_exact o raises new b hb (Or.inl rfl)
  have hk : (update o raises (new : Prof β) (.batch b)).1.cols.map Prod.fst = b.names := by
    rw [e1]; simp [columnsBefore, new, Function.comp_def]
  have href := (C111_outcome o raises' (update o raises new (.batch b)).1 b' hb').1.mpr (by
    rintro (h | h)
    · rw [h] at hk
      exact hb.1 (by simpa using hk.symm)
    · rw [hk] at h
      exact hne h)
  exact Prod.ext (C111_refused o raises' _ _ (Or.inr ⟨_, href⟩)) href

/-- All options on, two profiles per column. -/
def opts : Opts := ⟨2, true, true, true, true⟩

/-- An update that raises changes the profile. -/
theorem C111_fails :
    ¬ ∀ (o : Opts) (raises : Stage → Bool) (p : Prof ℕ) (b : Batch ℕ), Sound o p → Proper b →
      (update o raises p (.batch b)).2 = .failed → (update o raises p (.batch b)).1.cols.map (fun x => x.2.counted) =
        p.cols.map fun x => x.2.counted := by
  intro h
  have hs : Sound opts (run opts (new : Prof ℕ) [(fun _ => false, .batch ⟨["a", "b"], 3, 1⟩)]) :=
    sound_update opts _ ⟨by simp [new], by simp [new]⟩ _ (fun b e _ => by cases e; decide)
  have := h opts (fun s => decide (s = .clean "b")) _ ⟨["a", "b"], 5, 2⟩ hs ⟨by simp, by decide, by simp⟩ (by decide +kernel)
  exact absurd this (by decide +kernel)

/-- A profile with one batch, a second one of which the second column raises, and a third one. -/
def story : Prof ℕ :=
  run opts new [(fun _ => false, .batch ⟨["a", "b"], 3, 1⟩), (fun s => decide (s = .part "b" 1), .batch ⟨["b", "a"], 5, 2⟩),
    (fun _ => false, .batch ⟨["a", "c"], 9, 7⟩), (fun _ => true, .badMin), (fun _ => false, .batch ⟨["a", "b"], 4, 3⟩)]

example : story.total = 7 ∧ story.cols.map (fun x => (x.1, x.2.counted, x.2.parts)) =
    [("a", [1, 2, 3], [[1, 3], [1, 3]]), ("b", [1, 2, 3], [[1, 2, 3], [1, 3]])] ∧ story.rowStats = [1, 3] ∧
    story.fileType = some 3 := by decide +kernel

example : Proper (⟨["a", "b"], 3, 1⟩ : Batch ℕ) ∧ Reached (fun s => decide (s = .part "b" 1)) (order opts ["b", "a"]) (.part "b" 0) ∧
    ¬ Reached (fun s => decide (s = .part "b" 1)) (order opts ["b", "a"]) (.part "a" 0) := by
  refine ⟨⟨by simp, by decide, by simp⟩, ?_, ?_⟩
  · rw [← mem_doneOf]; decide
  · rw [← mem_doneOf]; decide

/-- A history without updates that raise. -/
def calm : List ((Stage → Bool) × Input ℕ) :=
  [(fun _ => false, .batch ⟨["a", "b"], 3, 1⟩), (fun _ => false, .other), (fun _ => false, .batch ⟨["b", "a"], 5, 2⟩),
    (fun _ => false, .batch ⟨["c"], 5, 2⟩)]

example : NoneFailed opts new calm ∧ (accepted opts new calm).map Batch.data = [1, 2] ∧ (run opts new calm).total = 8 := by
  refine ⟨⟨by decide +kernel, by decide +kernel, by decide +kernel, by decide +kernel, trivial⟩, by decide +kernel, by decide +kernel⟩

end Verif.Props.Abort
