import Verif.Lemmas.Categorical
import Mathlib.Data.Nat.Cast.Order.Field

namespace Verif.Categorical

open Verif Verif.CatSpec

variable {K : Type} [DecidableEq K]

/-! ## Dictionary helpers -/

theorem wf_filter (d : PyDict K ℕ) (p : K × ℕ → Bool) (h : PyDict.WF d) : PyDict.WF (d.filter p) := by
  unfold PyDict.WF PyDict.keys at *
  exact h.sublist (List.Sublist.map _ List.filter_sublist)

theorem get?_filter (d : PyDict K ℕ) (p : K × ℕ → Bool) (h : PyDict.WF d) (k : K) (v : ℕ) :
    PyDict.get? (d.filter p) k = some v ↔ PyDict.get? d k = some v ∧ p (k, v) = true := by
  rw [← PyDict.mem_iff_get? (wf_filter d p h), ← PyDict.mem_iff_get? h, List.mem_filter]

variable (est : List K → K → ℕ)

theorem fillFrom_get? (ins : List K) (d1 d2 : PyDict K ℕ) (k : K) :
    PyDict.get? (fillFrom est ins d1 d2) k = match PyDict.get? d2 k with
      | some x => some x
      | none => if k ∈ PyDict.keys d1 then some (est ins k) else none := by
  unfold fillFrom
  generalize PyDict.keys d1 = ks
  induction ks generalizing d2 with
  | nil => cases h : PyDict.get? d2 k <;> simp [h]
  | cons a ks ih =>
    rw [List.foldl_cons, ih]
    by_cases ha : PyDict.has d2 a = true
    · rw [if_pos ha]
      cases hk : PyDict.get? d2 k with
      | some x => rfl
      | none =>
        have hne : k ≠ a := by
          rintro rfl
          simp [PyDict.has, hk] at ha
        simp [hne]
    · rw [if_neg ha, PyDict.get?_set]
      by_cases hak : a = k
      · subst hak
        have : PyDict.get? d2 a = none := by
          cases h : PyDict.get? d2 a with
          | none => rfl
          | some x => simp [PyDict.has, h] at ha
        simp [this]
      · have hne : k ≠ a := fun h => hak h.symm
        simp only [hak, hne, if_false, List.mem_cons, false_or]

theorem fillFrom_wf (ins : List K) (d1 d2 : PyDict K ℕ) (h : PyDict.WF d2) : PyDict.WF (fillFrom est ins d1 d2) := by
  unfold fillFrom
  generalize PyDict.keys d1 = ks
  induction ks generalizing d2 with
  | nil => exact h
  | cons a ks ih =>
    rw [List.foldl_cons]
    apply ih
    split_ifs
    · exact h
    · exact PyDict.WF_set h _ _

theorem fillFrom_keys (ins : List K) (d1 d2 : PyDict K ℕ) (k : K) :
    k ∈ PyDict.keys (fillFrom est ins d1 d2) ↔ k ∈ PyDict.keys d1 ∨ k ∈ PyDict.keys d2 := by
  rw [PyDict.mem_keys_iff, fillFrom_get?]
  cases h : PyDict.get? d2 k with
  | some x =>
    have : k ∈ PyDict.keys d2 := (PyDict.mem_keys_iff _ _).2 ⟨x, h⟩
    simp [this]
  | none =>
    have : k ∉ PyDict.keys d2 := (PyDict.get?_eq_none_iff _ _).1 h
    by_cases hk : k ∈ PyDict.keys d1 <;> simp [this, hk]

theorem dictUpdate_get? (d u : PyDict K ℕ) (hu : PyDict.WF u) (k : K) :
    PyDict.get? (dictUpdate d u) k = match PyDict.get? u k with
      | some x => some x
      | none => PyDict.get? d k := by
  unfold dictUpdate
  induction u generalizing d with
  | nil => simp [PyDict.get?]
  | cons p u ih =>
    obtain ⟨a, v⟩ := p
    have hu' : PyDict.WF u := by
      unfold PyDict.WF PyDict.keys at *
      rw [List.map_cons, List.nodup_cons] at hu
      exact hu.2
    have hna : PyDict.get? u a = none := by
      rw [PyDict.get?_eq_none_iff]
      unfold PyDict.WF PyDict.keys at *
      rw [List.map_cons, List.nodup_cons] at hu
      exact hu.1
    rw [List.foldl_cons, ih _ hu', PyDict.get?_cons, PyDict.get?_set]
    by_cases hak : a = k
    · subst hak; simp [hna]
    · simp [hak]

theorem dictUpdate_wf (d u : PyDict K ℕ) (h : PyDict.WF d) : PyDict.WF (dictUpdate d u) := by
  unfold dictUpdate
  induction u generalizing d with
  | nil => exact h
  | cons p u ih => rw [List.foldl_cons]; exact ih _ (PyDict.WF_set h _ _)

/-! ## Merging -/

/-- The count a side contributes: its recorded one, or the estimate of its sketch. -/
def contrib (ins : List K) (d : PyDict K ℕ) (k : K) : ℕ := (PyDict.get? d k).getD (est ins k)

/-- The entry of the merged dictionary before small ones are dropped. -/
def mergedEntry (ins1 : List K) (d1 missing : PyDict K ℕ) (ins2 : List K) (d2 : PyDict K ℕ) (k : K) : Option ℕ :=
  match PyDict.get? missing k with
  | some x => some x
  | none => if k ∈ PyDict.keys d1 ∨ k ∈ PyDict.keys d2 then some (contrib est ins2 d2 k + contrib est ins1 d1 k)
    else none

theorem merged_get? (ins1 : List K) (d1 missing : PyDict K ℕ) (ins2 : List K) (d2 : PyDict K ℕ)
    (hm : PyDict.WF missing) (k : K) :
    PyDict.get? (dictUpdate (addFlat (fillFrom est ins2 d1 d2)
      (fillFrom est ins1 (fillFrom est ins2 d1 d2) d1)) missing) k = mergedEntry est ins1 d1 missing ins2 d2 k := by
  rw [dictUpdate_get? _ _ hm, mergedEntry]
  cases PyDict.get? missing k with
  | some x => rfl
  | none =>
    dsimp only
    rw [get?_addFlat, fillFrom_get? est ins1]
    simp only [fillFrom_keys]
    rw [fillFrom_get? est ins2]
    unfold contrib
    cases h1 : PyDict.get? d1 k with
    | some x =>
      have m1 : k ∈ PyDict.keys d1 := (PyDict.mem_keys_iff _ _).2 ⟨x, h1⟩
      cases h2 : PyDict.get? d2 k <;> simp [m1]
    | none =>
      have m1 : k ∉ PyDict.keys d1 := (PyDict.get?_eq_none_iff _ _).1 h1
      cases h2 : PyDict.get? d2 k with
      | some y =>
        have m2 : k ∈ PyDict.keys d2 := (PyDict.mem_keys_iff _ _).2 ⟨y, h2⟩
        simp [m2]
      | none =>
        have m2 : k ∉ PyDict.keys d2 := (PyDict.get?_eq_none_iff _ _).1 h2
        simp [m1, m2]

theorem mergeCms_ok (p : ℕ × ℕ) (ins1 : List K) (d1 : PyDict K ℕ) (len1 : ℕ) (missing : PyDict K ℕ)
    (ins2 : List K) (d2 : PyDict K ℕ) (len2 m : ℕ) (h1 : PyDict.WF d1) (h2 : PyDict.WF d2) (hm : PyDict.WF missing) :
    ∃ cats, mergeCms est (some p) p ins1 d1 len1 missing p ins2 d2 len2 m = .ok (ins1 ++ ins2, cats) ∧
      PyDict.WF cats ∧ ∀ k v, PyDict.get? cats k = some v ↔
        mergedEntry est ins1 d1 missing ins2 d2 k = some v ∧ ((len1 : ℚ) + len2) / m ≤ v := by
  have wf : PyDict.WF (dictUpdate (addFlat (fillFrom est ins2 d1 d2)
      (fillFrom est ins1 (fillFrom est ins2 d1 d2) d1)) missing) :=
    dictUpdate_wf _ _ (addFlat_wf _ _ (fillFrom_wf _ _ _ _ h2) (fillFrom_wf _ _ _ _ h1))
  refine ⟨_, if_neg (by simp), wf_filter _ _ wf, ?_⟩
  intro k v
  rw [get?_filter _ _ wf, merged_get? est ins1 d1 missing ins2 d2 hm]
  simp

/-- Sketches of another size are refused. -/
theorem mergeCms_dims {p q r : ℕ × ℕ} (hd : q ≠ p ∨ r ≠ p) (ins1 : List K) (d1 : PyDict K ℕ) (len1 : ℕ) (missing : PyDict K ℕ)
    (ins2 : List K) (d2 : PyDict K ℕ) (len2 m : ℕ) :
    mergeCms est (some p) q ins1 d1 len1 missing r ins2 d2 len2 m = .error .typeError := if_pos hd

/-! ## The loop over a batch -/

/-- What the loop knows after the prefix `p` of the batch. -/
structure LoopInv (c : CmsCat K) (len : ℕ) (p : List K) (h : Hitters K) : Prop where
  wfH : PyDict.WF h.heavy
  wfM : PyDict.WF h.missing
  heavy : ∀ v x, PyDict.get? h.heavy v = some x → p.count v ≤ x ∧ len / c.maxHeavy ≤ x ∧ v ∈ p
  missing : ∀ v x, PyDict.get? h.missing v = some x →
    p.count v + c.inserted.count v ≤ x ∧ (c.sampleSize + len) / c.maxHeavy ≤ x ∧ v ∈ p
  neither : ∀ v ∈ p, PyDict.get? h.heavy v = none → PyDict.get? h.missing v = none →
    p.count v < len / c.maxHeavy ∧ p.count v + c.inserted.count v < (c.sampleSize + len) / c.maxHeavy

theorem hitStep_inv (hest : ∀ l k, l.count k ≤ est l k) (c : CmsCat K) (len : ℕ) (p : List K) (v : K) (h : Hitters K)
    (hi : LoopInv c len p h) : LoopInv c len (p ++ [v]) (hitStep est c len (p ++ [v]) v h) := by
  have e1 := hest (p ++ [v]) v
  have e2 := hest c.inserted v
  have other : ∀ u, u ≠ v → (p ++ [v]).count u = p.count u := by
    intro u hu
    rw [List.count_append, List.count_singleton]
    simp [hu.symm]
  have memo : ∀ u, u ≠ v → (u ∈ p ++ [v] ↔ u ∈ p) := by intro u hu; simp [hu]
  unfold hitStep
  dsimp only
  split_ifs with a b
  · refine ⟨PyDict.WF_set hi.wfH _ _, PyDict.WF_del hi.wfM _, ?_, ?_, ?_⟩
    · intro u x hx
      rw [PyDict.get?_set] at hx
      by_cases hu : u = v
      · subst hu
        simp at hx; subst hx
        exact ⟨e1, a, by simp⟩
      · rw [if_neg (fun e => hu e.symm)] at hx
        rw [other u hu, memo u hu]
        exact hi.heavy u x hx
    · intro u x hx
      rw [PyDict.get?_del hi.wfM _ _] at hx
      by_cases hu : u = v
      · subst hu; simp at hx
      · rw [if_neg (fun e => hu e.symm)] at hx
        rw [other u hu, memo u hu]
        exact hi.missing u x hx
    · intro u hu h1 h2
      rw [PyDict.get?_set] at h1
      rw [PyDict.get?_del hi.wfM _ _] at h2
      by_cases huv : u = v
      · subst huv; simp at h1
      · rw [if_neg (fun e => huv e.symm)] at h1 h2
        rw [other u huv]
        exact hi.neither u ((memo u huv).1 hu) h1 h2
  · refine ⟨PyDict.WF_del hi.wfH _, PyDict.WF_set hi.wfM _ _, ?_, ?_, ?_⟩
    · intro u x hx
      rw [PyDict.get?_del hi.wfH _ _] at hx
      by_cases hu : u = v
      · subst hu; simp at hx
      · rw [if_neg (fun e => hu e.symm)] at hx
        rw [other u hu, memo u hu]
        exact hi.heavy u x hx
    · intro u x hx
      rw [PyDict.get?_set] at hx
      by_cases hu : u = v
      · subst hu
        simp at hx; subst hx
        exact ⟨by omega, b, by simp⟩
      · rw [if_neg (fun e => hu e.symm)] at hx
        rw [other u hu, memo u hu]
        exact hi.missing u x hx
    · intro u hu h1 h2
      rw [PyDict.get?_set] at h2
      rw [PyDict.get?_del hi.wfH _ _] at h1
      by_cases huv : u = v
      · subst huv; simp at h2
      · rw [if_neg (fun e => huv e.symm)] at h1 h2
        rw [other u huv]
        exact hi.neither u ((memo u huv).1 hu) h1 h2
  · refine ⟨hi.wfH, hi.wfM, ?_, ?_, ?_⟩
    · intro u x hx
      obtain ⟨h1, h2, h3⟩ := hi.heavy u x hx
      by_cases hu : u = v
      · subst hu; exact ⟨by omega, h2, by simp⟩
      · rw [other u hu, memo u hu]; exact ⟨h1, h2, h3⟩
    · intro u x hx
      obtain ⟨h1, h2, h3⟩ := hi.missing u x hx
      by_cases hu : u = v
      · subst hu; exact ⟨by omega, h2, by simp⟩
      · rw [other u hu, memo u hu]; exact ⟨h1, h2, h3⟩
    · intro u hu h1 h2
      by_cases huv : u = v
      · subst huv; exact ⟨by omega, by omega⟩
      · rw [other u huv]
        exact hi.neither u ((memo u huv).1 hu) h1 h2

theorem hitLoop_inv (hest : ∀ l k, l.count k ≤ est l k) (c : CmsCat K) (len : ℕ) (p vs : List K) (h : Hitters K)
    (hi : LoopInv c len p h) : LoopInv c len (p ++ vs) (hitLoop est c len p vs h) := by
  induction vs generalizing p h with
  | nil => simpa [hitLoop] using hi
  | cons v vs ih =>
    have := ih (p ++ [v]) _ (hitStep_inv est hest c len p v h hi)
    simpa [hitLoop] using this

/-- With an exact sketch the two dictionaries hold exact counts. -/
structure LoopExact (c : CmsCat K) (len : ℕ) (p : List K) (h : Hitters K) : Prop where
  wfH : PyDict.WF h.heavy
  wfM : PyDict.WF h.missing
  heavy : ∀ v x, PyDict.get? h.heavy v = some x → x = p.count v ∧ len / c.maxHeavy ≤ x
  missing : ∀ v x, PyDict.get? h.missing v = some x →
    x = p.count v + c.inserted.count v ∧ (c.sampleSize + len) / c.maxHeavy ≤ x

theorem hitStep_exact (hest : ∀ l k, est l k = l.count k) (c : CmsCat K) (len : ℕ) (p : List K) (v : K) (h : Hitters K)
    (hi : LoopExact c len p h) : LoopExact c len (p ++ [v]) (hitStep est c len (p ++ [v]) v h) := by
  have other : ∀ u, u ≠ v → (p ++ [v]).count u = p.count u := by
    intro u hu
    rw [List.count_append, List.count_singleton]
    simp [hu.symm]
  have same : (p ++ [v]).count v = p.count v + 1 := by simp
  unfold hitStep
  rw [hest, hest]
  dsimp only
  split_ifs with a b
  · refine ⟨PyDict.WF_set hi.wfH _ _, PyDict.WF_del hi.wfM _, ?_, ?_⟩
    · intro u x hx
      rw [PyDict.get?_set] at hx
      by_cases hu : u = v
      · subst hu
        simp only [if_true, Option.some.injEq] at hx; subst hx
        exact ⟨rfl, a⟩
      · rw [if_neg (fun e => hu e.symm)] at hx
        rw [other u hu]
        exact hi.heavy u x hx
    · intro u x hx
      rw [PyDict.get?_del hi.wfM _ _] at hx
      by_cases hu : u = v
      · subst hu; simp at hx
      · rw [if_neg (fun e => hu e.symm)] at hx
        rw [other u hu]
        exact hi.missing u x hx
  · refine ⟨PyDict.WF_del hi.wfH _, PyDict.WF_set hi.wfM _ _, ?_, ?_⟩
    · intro u x hx
      rw [PyDict.get?_del hi.wfH _ _] at hx
      by_cases hu : u = v
      · subst hu; simp at hx
      · rw [if_neg (fun e => hu e.symm)] at hx
        rw [other u hu]
        exact hi.heavy u x hx
    · intro u x hx
      rw [PyDict.get?_set] at hx
      by_cases hu : u = v
      · subst hu
        simp only [if_true, Option.some.injEq] at hx; subst hx
        exact ⟨rfl, b⟩
      · rw [if_neg (fun e => hu e.symm)] at hx
        rw [other u hu]
        exact hi.missing u x hx
  · refine ⟨hi.wfH, hi.wfM, ?_, ?_⟩
    · intro u x hx
      obtain ⟨h1, h2⟩ := hi.heavy u x hx
      by_cases hu : u = v
      · subst hu; exfalso; omega
      · rw [other u hu]; exact ⟨h1, h2⟩
    · intro u x hx
      obtain ⟨h1, h2⟩ := hi.missing u x hx
      by_cases hu : u = v
      · subst hu; exfalso; omega
      · rw [other u hu]; exact ⟨h1, h2⟩

theorem hitLoop_exact (hest : ∀ l k, est l k = l.count k) (c : CmsCat K) (len : ℕ) (p vs : List K) (h : Hitters K)
    (hi : LoopExact c len p h) : LoopExact c len (p ++ vs) (hitLoop est c len p vs h) := by
  induction vs generalizing p h with
  | nil => simpa [hitLoop] using hi
  | cons v vs ih =>
    have := ih (p ++ [v]) _ (hitStep_exact est hest c len p v h hi)
    simpa [hitLoop] using this

/-! ## The invariant of all histories -/

/-- What a profile in sketch mode guarantees about the data `l`. -/
structure Sk (c : CmsCat K) (l : List K) : Prop where
  ins : c.inserted.Perm l
  size : c.sampleSize = l.length
  wf : PyDict.WF c.cats
  pos : 0 < c.maxHeavy
  lower : ∀ k v, PyDict.get? c.cats k = some v → l.count k ≤ v ∧ (l.length : ℚ) / c.maxHeavy ≤ v
  heavy : ∀ k ∈ l, (l.length : ℚ) / c.maxHeavy ≤ l.count k → ∃ v, PyDict.get? c.cats k = some v

theorem contrib_ge (hest : ∀ l k, l.count k ≤ est l k) (c : CmsCat K) (l : List K) (h : Sk c l) (k : K) :
    l.count k ≤ contrib est c.inserted c.cats k := by
  unfold contrib
  cases hk : PyDict.get? c.cats k with
  | some v => exact (h.lower k v hk).1
  | none =>
    have := hest c.inserted k
    rw [h.ins.count_eq] at this
    simpa using this

theorem div_le_of_rat (a t m : ℕ) (hm : 0 < m) (h : (a : ℚ) / m ≤ t) : a / m ≤ t := by
  rw [div_le_iff₀ (by exact_mod_cast hm)] at h
  have : a ≤ t * m := by exact_mod_cast h
  exact Nat.div_le_of_le_mul (by rw [mul_comm]; exact this)

theorem updateCms_ok (hest : ∀ l k, l.count k ≤ est l k) (c c' : CmsCat K) (l b : List K) (h : Sk c l)
    (hu : updateCms est c b = .ok c') : Sk c' (l ++ b) := by
  unfold updateCms at hu
  by_cases hb : b.length = 0
  · rw [if_pos hb] at hu
    have : b = [] := List.eq_nil_of_length_eq_zero hb
    subst this
    simp only [Except.ok.injEq] at hu
    subst hu; simpa using h
  · rw [if_neg hb] at hu
    cases hp : c.params with
    | none => rw [hp] at hu; simp at hu
    | some p =>
      rw [hp] at hu
      dsimp only at hu
      have li := hitLoop_inv est hest c b.length [] b ⟨[], []⟩
        ⟨PyDict.WF_nil, PyDict.WF_nil, by simp [PyDict.get?], by simp [PyDict.get?], by simp⟩
      rw [List.nil_append] at li
      generalize hitLoop est c b.length [] b ⟨[], []⟩ = hh at li hu
      have hd : c.dims = p := by
        by_contra hne
        rw [mergeCms_dims est (.inr hne)] at hu
        cases hu
      rw [hd] at hu
      obtain ⟨cats, hcats, wf, hget⟩ := mergeCms_ok est p b hh.heavy b.length hh.missing c.inserted c.cats
        c.sampleSize c.maxHeavy li.wfH h.wf li.wfM
      rw [hcats] at hu
      have hc' : c' = { c with inserted := b ++ c.inserted, cats := cats, sampleSize := c.sampleSize + b.length } := by
        rw [← Except.ok.inj hu]
        simp [hp, hd]
      subst hc'
      have hlen : ((b.length : ℚ) + (c.sampleSize : ℚ)) = ((l ++ b).length : ℕ) := by
        rw [h.size, List.length_append]; push_cast; ring
      have hmono : ∀ k, l.count k + b.count k = (l ++ b).count k := fun k => (List.count_append).symm
      have hinsc : ∀ k, c.inserted.count k = l.count k := fun k => h.ins.count_eq k
      -- the merged entry is never too small
      have hlow : ∀ k x, mergedEntry est b hh.heavy hh.missing c.inserted c.cats k = some x →
          (l ++ b).count k ≤ x := by
        intro k x hx
        unfold mergedEntry at hx
        cases hm : PyDict.get? hh.missing k with
        | some y =>
          rw [hm] at hx; simp only [Option.some.injEq] at hx; subst hx
          have := (li.missing k y hm).1
          rw [hinsc] at this; rw [← hmono]; omega
        | none =>
          rw [hm] at hx; dsimp only at hx
          split_ifs at hx
          simp only [Option.some.injEq] at hx; subst hx
          have h1 := contrib_ge est hest c l h k
          have h2 : b.count k ≤ contrib est b hh.heavy k := by
            unfold contrib
            cases hk : PyDict.get? hh.heavy k with
            | some v => exact (li.heavy k v hk).1
            | none => exact hest b k
          rw [← hmono]; omega
      refine ⟨?_, ?_, wf, h.pos, ?_, ?_⟩
      · exact (List.perm_append_comm).trans (h.ins.append_right b)
      · simp [h.size]
      · intro k v hv
        obtain ⟨h1, h2⟩ := (hget k v).1 hv
        rw [hlen] at h2
        exact ⟨hlow k v h1, h2⟩
      · intro k hk hthr
        dsimp only at hthr ⊢
        have hpos := h.pos
        have key : ∃ x, mergedEntry est b hh.heavy hh.missing c.inserted c.cats k = some x := by
          unfold mergedEntry
          cases hm : PyDict.get? hh.missing k with
          | some y => exact ⟨y, rfl⟩
          | none =>
            dsimp only
            by_cases hk1 : k ∈ PyDict.keys hh.heavy ∨ k ∈ PyDict.keys c.cats
            · rw [if_pos hk1]; exact ⟨_, rfl⟩
            · exfalso
              push Not at hk1
              have n1 : PyDict.get? hh.heavy k = none := (PyDict.get?_eq_none_iff _ _).2 hk1.1
              have n2 : PyDict.get? c.cats k = none := (PyDict.get?_eq_none_iff _ _).2 hk1.2
              by_cases hkb : k ∈ b
              · have := (li.neither k hkb n1 hm).2
                have h3 := div_le_of_rat _ _ _ hpos hthr
                rw [← hmono, List.length_append, ← h.size] at h3
                rw [hinsc] at this
                omega
              · have hkl : k ∈ l := by
                  rcases List.mem_append.1 hk with h' | h'
                  · exact h'
                  · exact absurd h' hkb
                have hc0 : b.count k = 0 := List.count_eq_zero.2 hkb
                have hthr' : (l.length : ℚ) / c.maxHeavy ≤ l.count k := by
                  rw [← hmono, hc0, Nat.add_zero] at hthr
                  refine le_trans ?_ hthr
                  apply div_le_div_of_nonneg_right _ (by positivity)
                  rw [List.length_append]; push_cast; linarith [Nat.cast_nonneg (α := ℚ) b.length]
                obtain ⟨v, hv⟩ := h.heavy k hkl hthr'
                rw [n2] at hv; simp at hv
        obtain ⟨x, hx⟩ := key
        refine ⟨x, (hget k x).2 ⟨hx, ?_⟩⟩
        rw [hlen]
        exact hthr.trans (by exact_mod_cast hlow k x hx)

theorem addCms_ok (hest : ∀ l k, l.count k ≤ est l k) (a b c : CmsCat K) (l1 l2 : List K) (h1 : Sk a l1)
    (h2 : Sk b l2) (hc : addCms est a b = .ok c) : Sk c (l1 ++ l2) := by
  unfold addCms at hc
  cases hp : a.params with
  | none => rw [hp] at hc; simp [mergeCms, bind, Except.bind] at hc
  | some p =>
    rw [hp] at hc
    have hda : a.dims = p ∧ b.dims = p := by
      by_contra hne
      rw [mergeCms_dims est (by tauto)] at hc
      cases hc
    rw [hda.1, hda.2] at hc
    obtain ⟨cats, hcats, wf, hget⟩ := mergeCms_ok est p a.inserted a.cats a.sampleSize [] b.inserted b.cats
      b.sampleSize (min a.maxHeavy b.maxHeavy) h1.wf h2.wf PyDict.WF_nil
    rw [hcats] at hc
    have hc' : c = ⟨a.inserted ++ b.inserted, cats, a.sampleSize + b.sampleSize, min a.maxHeavy b.maxHeavy, none, p⟩ := by
      have : (Except.ok ⟨a.inserted ++ b.inserted, cats, a.sampleSize + b.sampleSize,
        min a.maxHeavy b.maxHeavy, none, p⟩ : Except Err (CmsCat K)) = .ok c := hc
      simpa using this.symm
    subst hc'
    have hlen : ((a.sampleSize : ℚ) + (b.sampleSize : ℚ)) = ((l1 ++ l2).length : ℕ) := by
      rw [h1.size, h2.size, List.length_append]; push_cast; rfl
    have hlow : ∀ k x, mergedEntry est a.inserted a.cats [] b.inserted b.cats k = some x →
        (l1 ++ l2).count k ≤ x := by
      intro k x hx
      unfold mergedEntry at hx
      simp only [PyDict.get?_nil] at hx
      split_ifs at hx
      simp only [Option.some.injEq] at hx; subst hx
      have e1 := contrib_ge est hest a l1 h1 k
      have e2 := contrib_ge est hest b l2 h2 k
      rw [List.count_append]; omega
    have hpos : 0 < min a.maxHeavy b.maxHeavy := lt_min h1.pos h2.pos
    refine ⟨h1.ins.append h2.ins, by simp [h1.size, h2.size], wf, hpos, ?_, ?_⟩
    · intro k v hv
      obtain ⟨g1, g2⟩ := (hget k v).1 hv
      rw [hlen] at g2
      exact ⟨hlow k v g1, g2⟩
    · intro k hk hthr
      dsimp only at hthr ⊢
      have key : ∃ x, mergedEntry est a.inserted a.cats [] b.inserted b.cats k = some x := by
        unfold mergedEntry
        simp only [PyDict.get?_nil]
        by_cases hk1 : k ∈ PyDict.keys a.cats ∨ k ∈ PyDict.keys b.cats
        · rw [if_pos hk1]; exact ⟨_, rfl⟩
        · exfalso
          push Not at hk1
          have n1 : PyDict.get? a.cats k = none := (PyDict.get?_eq_none_iff _ _).2 hk1.1
          have n2 : PyDict.get? b.cats k = none := (PyDict.get?_eq_none_iff _ _).2 hk1.2
          have posm : (0 : ℚ) < (min a.maxHeavy b.maxHeavy : ℕ) := by exact_mod_cast hpos
          have c1 : k ∈ l1 → (l1.count k : ℚ) < l1.length / (min a.maxHeavy b.maxHeavy : ℕ) := by
            intro hk1
            by_contra hcon
            push Not at hcon
            have : (l1.length : ℚ) / a.maxHeavy ≤ l1.count k := by
              refine le_trans ?_ hcon
              apply div_le_div_of_nonneg_left (by positivity) posm
              exact_mod_cast Nat.min_le_left _ _
            obtain ⟨v, hv⟩ := h1.heavy k hk1 this
            rw [n1] at hv; simp at hv
          have c2 : k ∈ l2 → (l2.count k : ℚ) < l2.length / (min a.maxHeavy b.maxHeavy : ℕ) := by
            intro hk2
            by_contra hcon
            push Not at hcon
            have : (l2.length : ℚ) / b.maxHeavy ≤ l2.count k := by
              refine le_trans ?_ hcon
              apply div_le_div_of_nonneg_left (by positivity) posm
              exact_mod_cast Nat.min_le_right _ _
            obtain ⟨v, hv⟩ := h2.heavy k hk2 this
            rw [n2] at hv; simp at hv
          rw [List.count_append, List.length_append] at hthr
          push_cast at hthr c1 c2
          rw [add_div] at hthr
          have p1 : (0 : ℚ) ≤ l1.length / (min (a.maxHeavy : ℚ) b.maxHeavy) := by
            push_cast at posm; positivity
          have p2 : (0 : ℚ) ≤ l2.length / (min (a.maxHeavy : ℚ) b.maxHeavy) := by
            push_cast at posm; positivity
          by_cases m1 : k ∈ l1 <;> by_cases m2 : k ∈ l2
          · linarith [c1 m1, c2 m2]
          · have z : (l2.count k : ℚ) = 0 := by exact_mod_cast List.count_eq_zero.2 m2
            linarith [c1 m1]
          · have z : (l1.count k : ℚ) = 0 := by exact_mod_cast List.count_eq_zero.2 m1
            linarith [c2 m2]
          · simp [m1, m2] at hk
      obtain ⟨x, hx⟩ := key
      refine ⟨x, (hget k x).2 ⟨hx, ?_⟩⟩
      rw [hlen]
      exact hthr.trans (by exact_mod_cast hlow k x hx)

/-- Every `new` of the history allows at least one heavy hitter. -/
def AllPos : CmsHistory K → Prop
  | .new m _ => 0 < m
  | .update h _ => AllPos h
  | .merge h1 h2 => AllPos h1 ∧ AllPos h2

theorem runCms_sk (hest : ∀ l k, l.count k ≤ est l k) (h : CmsHistory K) (hp : AllPos h) (c : CmsCat K)
    (hr : runCms est h = .ok c) : Sk c (seenCms h) := by
  induction h generalizing c with
  | new m p =>
    simp only [runCms, Except.ok.injEq] at hr
    subst hr
    exact ⟨List.Perm.refl _, rfl, PyDict.WF_nil, hp, by simp [initCms], by simp [seenCms]⟩
  | update h b ih =>
    cases hc : runCms est h with
    | error e => simp [runCms, hc, bind, Except.bind] at hr
    | ok c0 =>
      simp only [runCms, hc, bind, Except.bind] at hr
      exact updateCms_ok est hest c0 c _ b (ih hp c0 hc) hr
  | merge h1 h2 ih1 ih2 =>
    cases hc1 : runCms est h1 with
    | error e => simp [runCms, hc1, bind, Except.bind] at hr
    | ok a =>
      cases hc2 : runCms est h2 with
      | error e => simp [runCms, hc1, hc2, bind, Except.bind] at hr
      | ok b =>
        simp only [runCms, hc1, hc2, bind, Except.bind] at hr
        exact addCms_ok est hest a b c _ _ (ih1 hp.1 a hc1) (ih2 hp.2 b hc2) hr

/-! ## Exact sketches -/

/-- All reported counts are true counts. -/
structure SkE (c : CmsCat K) (l : List K) : Prop where
  ins : c.inserted.Perm l
  wf : PyDict.WF c.cats
  exact : ∀ k v, PyDict.get? c.cats k = some v → v = l.count k

theorem contrib_exact (hest : ∀ l k, est l k = l.count k) (c : CmsCat K) (l : List K) (h : SkE c l) (k : K) :
    contrib est c.inserted c.cats k = l.count k := by
  unfold contrib
  cases hk : PyDict.get? c.cats k with
  | some v => exact h.exact k v hk
  | none => simp [hest, h.ins.count_eq]

theorem updateCms_exact (hest : ∀ l k, est l k = l.count k) (c c' : CmsCat K) (l b : List K) (h : SkE c l)
    (hu : updateCms est c b = .ok c') : SkE c' (l ++ b) := by
  unfold updateCms at hu
  by_cases hb : b.length = 0
  · rw [if_pos hb] at hu
    have : b = [] := List.eq_nil_of_length_eq_zero hb
    subst this
    simp only [Except.ok.injEq] at hu
    subst hu; simpa using h
  · rw [if_neg hb] at hu
    cases hp : c.params with
    | none => rw [hp] at hu; simp at hu
    | some p =>
      rw [hp] at hu
      dsimp only at hu
      have li := hitLoop_exact est hest c b.length [] b ⟨[], []⟩
        ⟨PyDict.WF_nil, PyDict.WF_nil, by simp [PyDict.get?], by simp [PyDict.get?]⟩
      rw [List.nil_append] at li
      generalize hitLoop est c b.length [] b ⟨[], []⟩ = hh at li hu
      have hd : c.dims = p := by
        by_contra hne
        rw [mergeCms_dims est (.inr hne)] at hu
        cases hu
      rw [hd] at hu
      obtain ⟨cats, hcats, wf, hget⟩ := mergeCms_ok est p b hh.heavy b.length hh.missing c.inserted c.cats
        c.sampleSize c.maxHeavy li.wfH h.wf li.wfM
      rw [hcats] at hu
      have hc' : c' = { c with inserted := b ++ c.inserted, cats := cats, sampleSize := c.sampleSize + b.length } := by
        rw [← Except.ok.inj hu]
        simp [hp, hd]
      subst hc'
      refine ⟨(List.perm_append_comm).trans (h.ins.append_right b), wf, ?_⟩
      intro k v hv
      have hx := ((hget k v).1 hv).1
      unfold mergedEntry at hx
      cases hm : PyDict.get? hh.missing k with
      | some y =>
        rw [hm] at hx; simp only [Option.some.injEq] at hx; subst hx
        have := (li.missing k y hm).1
        rw [h.ins.count_eq] at this
        rw [List.count_append]; omega
      | none =>
        rw [hm] at hx; dsimp only at hx
        split_ifs at hx
        simp only [Option.some.injEq] at hx; subst hx
        rw [contrib_exact est hest c l h k]
        have h2 : contrib est b hh.heavy k = b.count k := by
          unfold contrib
          cases hk : PyDict.get? hh.heavy k with
          | some v => exact (li.heavy k v hk).1
          | none => exact hest b k
        rw [h2, List.count_append]

theorem addCms_exact (hest : ∀ l k, est l k = l.count k) (a b c : CmsCat K) (l1 l2 : List K) (h1 : SkE a l1)
    (h2 : SkE b l2) (hc : addCms est a b = .ok c) : SkE c (l1 ++ l2) := by
  unfold addCms at hc
  cases hp : a.params with
  | none => rw [hp] at hc; simp [mergeCms, bind, Except.bind] at hc
  | some p =>
    rw [hp] at hc
    have hda : a.dims = p ∧ b.dims = p := by
      by_contra hne
      rw [mergeCms_dims est (by tauto)] at hc
      cases hc
    rw [hda.1, hda.2] at hc
    obtain ⟨cats, hcats, wf, hget⟩ := mergeCms_ok est p a.inserted a.cats a.sampleSize [] b.inserted b.cats
      b.sampleSize (min a.maxHeavy b.maxHeavy) h1.wf h2.wf PyDict.WF_nil
    rw [hcats] at hc
    have hc' : c = ⟨a.inserted ++ b.inserted, cats, a.sampleSize + b.sampleSize, min a.maxHeavy b.maxHeavy, none, p⟩ := by
      have : (Except.ok ⟨a.inserted ++ b.inserted, cats, a.sampleSize + b.sampleSize,
        min a.maxHeavy b.maxHeavy, none, p⟩ : Except Err (CmsCat K)) = .ok c := hc
      simpa using this.symm
    subst hc'
    refine ⟨h1.ins.append h2.ins, wf, ?_⟩
    intro k v hv
    have hx := ((hget k v).1 hv).1
    unfold mergedEntry at hx
    simp only [PyDict.get?_nil] at hx
    split_ifs at hx
    simp only [Option.some.injEq] at hx; subst hx
    rw [contrib_exact est hest a l1 h1 k, contrib_exact est hest b l2 h2 k, List.count_append]
    omega

theorem runCms_exact (hest : ∀ l k, est l k = l.count k) (h : CmsHistory K) (c : CmsCat K)
    (hr : runCms est h = .ok c) : SkE c (seenCms h) := by
  induction h generalizing c with
  | new m p =>
    simp only [runCms, Except.ok.injEq] at hr
    subst hr
    exact ⟨List.Perm.refl _, PyDict.WF_nil, by simp [initCms]⟩
  | update h b ih =>
    cases hc : runCms est h with
    | error e => simp [runCms, hc, bind, Except.bind] at hr
    | ok c0 =>
      simp only [runCms, hc, bind, Except.bind] at hr
      exact updateCms_exact est hest c0 c _ b (ih c0 hc) hr
  | merge h1 h2 ih1 ih2 =>
    cases hc1 : runCms est h1 with
    | error e => simp [runCms, hc1, bind, Except.bind] at hr
    | ok a =>
      cases hc2 : runCms est h2 with
      | error e => simp [runCms, hc1, hc2, bind, Except.bind] at hr
      | ok b =>
        simp only [runCms, hc1, hc2, bind, Except.bind] at hr
        exact addCms_exact est hest a b c _ _ (ih1 a hc1) (ih2 b hc2) hr

theorem mergedEntry_nil (k : K) (ins1 ins2 : List K) : mergedEntry est ins1 [] [] ins2 [] k = none := by
  simp [mergedEntry, PyDict.keys]

/-- Without data there are no categories. -/
theorem no_entries (h : CmsHistory K) (hn : seenCms h = []) (c : CmsCat K) (hr : runCms est h = .ok c) :
    c.cats = [] := by
  induction h generalizing c with
  | new m p =>
    simp only [runCms, Except.ok.injEq] at hr
    subst hr; rfl
  | update h b ih =>
    simp only [seenCms, List.append_eq_nil_iff] at hn
    cases hc : runCms est h with
    | error e => simp [runCms, hc, bind, Except.bind] at hr
    | ok c0 =>
      simp only [runCms, hc, bind, Except.bind, hn.2, updateCms, List.length_nil, if_true, Except.ok.injEq] at hr
      subst hr
      exact ih hn.1 c0 hc
  | merge h1 h2 ih1 ih2 =>
    simp only [seenCms, List.append_eq_nil_iff] at hn
    cases hc1 : runCms est h1 with
    | error e => simp [runCms, hc1, bind, Except.bind] at hr
    | ok a =>
      cases hc2 : runCms est h2 with
      | error e => simp [runCms, hc1, hc2, bind, Except.bind] at hr
      | ok b =>
        simp only [runCms, hc1, hc2, bind, Except.bind] at hr
        have ha := ih1 hn.1 a hc1
        have hb := ih2 hn.2 b hc2
        unfold addCms at hr
        rw [ha, hb] at hr
        cases hp : a.params with
        | none => rw [hp] at hr; simp [mergeCms, bind, Except.bind] at hr
        | some p =>
          rw [hp] at hr
          have hda : a.dims = p ∧ b.dims = p := by
            by_contra hne
            rw [mergeCms_dims est (by tauto)] at hr
            cases hr
          rw [hda.1, hda.2] at hr
          have e : mergeCms est (some p) p a.inserted [] a.sampleSize [] p b.inserted [] b.sampleSize
            (min a.maxHeavy b.maxHeavy) = .ok (a.inserted ++ b.inserted, []) := if_neg (by simp)
          rw [e] at hr
          have : (Except.ok ⟨a.inserted ++ b.inserted, [], a.sampleSize + b.sampleSize, min a.maxHeavy b.maxHeavy,
            none, p⟩ : Except Err (CmsCat K)) = .ok c := hr
          rw [← Except.ok.inj this]

/-! ## When it works -/

theorem mergeCms_ok_iff (params : Option (ℕ × ℕ)) (q r : ℕ × ℕ) (ins1 : List K) (d1 : PyDict K ℕ) (len1 : ℕ) (missing : PyDict K ℕ)
    (ins2 : List K) (d2 : PyDict K ℕ) (len2 m : ℕ) :
    (params = some q ∧ q = r ∧ ∃ x, mergeCms est params q ins1 d1 len1 missing r ins2 d2 len2 m = .ok x) ∨
    (¬ (params = some q ∧ q = r) ∧ mergeCms est params q ins1 d1 len1 missing r ins2 d2 len2 m = .error .typeError) := by
  cases params with
  | none => exact .inr ⟨by simp, rfl⟩
  | some p =>
    by_cases h : q ≠ p ∨ r ≠ p
    · exact .inr ⟨by simp only [Option.some.injEq]; rintro ⟨rfl, rfl⟩; simp at h, if_pos h⟩
    · have h' : q = p ∧ r = p := by tauto
      exact .inl ⟨by rw [h'.1], by rw [h'.1, h'.2], _, if_neg h⟩

/-- What a profile still knows of its sketch. -/
structure Kept (h : CmsHistory K) (c : CmsCat K) : Prop where
  dims : c.dims = sketchSize h
  merged : Merged h → c.params = none
  fresh : ¬ Merged h → c.params = some (sketchSize h)

theorem runCms_kept (h : CmsHistory K) :
    (∃ c, runCms est h = .ok c ∧ Kept h c) ∨ runCms est h = .error .typeError := by
  induction h with
  | new m p => exact .inl ⟨_, rfl, rfl, fun h => h.elim, fun _ => rfl⟩
  | update h b ih =>
    rcases ih with ⟨c, hc, k⟩ | he
    · simp only [runCms, hc, bind, Except.bind, updateCms]
      by_cases hb : b.length = 0
      · rw [if_pos hb]; exact .inl ⟨_, rfl, k.dims, k.merged, k.fresh⟩
      · rw [if_neg hb]
        cases hp : c.params with
        | none => exact .inr rfl
        | some p =>
          dsimp only
          rcases mergeCms_ok_iff est (some p) p c.dims b (hitLoop est c b.length [] b ⟨[], []⟩).heavy b.length
            (hitLoop est c b.length [] b ⟨[], []⟩).missing c.inserted c.cats c.sampleSize c.maxHeavy with ⟨_, _, x, hx⟩ | ⟨_, hx⟩
          · rw [hx]; exact .inl ⟨_, rfl, k.dims, fun hm => hp.symm.trans (k.merged hm), fun hm => hp.symm.trans (k.fresh hm)⟩
          · rw [hx]; exact .inr rfl
    · exact .inr (by simp [runCms, he, bind, Except.bind])
  | merge h1 h2 i1 i2 =>
    rcases i1 with ⟨a, ha, ka⟩ | he
    · rcases i2 with ⟨b, hb, kb⟩ | he
      · simp only [runCms, ha, hb, bind, Except.bind, addCms]
        rcases mergeCms_ok_iff est a.params a.dims b.dims a.inserted a.cats a.sampleSize [] b.inserted b.cats b.sampleSize
          (min a.maxHeavy b.maxHeavy) with ⟨_, _, x, hx⟩ | ⟨_, hx⟩
        · rw [hx]; exact .inl ⟨_, rfl, ka.dims, fun _ => rfl, fun hm => absurd trivial hm⟩
        · rw [hx]; exact .inr rfl
      · exact .inr (by simp [runCms, ha, he, bind, Except.bind])
    · exact .inr (by simp [runCms, he, bind, Except.bind])

end Verif.Categorical
