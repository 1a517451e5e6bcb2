import Mathlib.Data.List.Nodup
import Mathlib.Data.List.Induction
import Mathlib.Data.List.Count
import Mathlib.Tactic.SplitIfs
import Mathlib.Tactic.Push
import Mathlib.Data.List.Perm.Subperm
import Verif.Spec.Schema
import Verif.Lemmas.PyDict

namespace Verif.Schema

open Verif Verif.SchemaSpec

theorem names_eq (lower : String → String) (cols : List Key) : names lower cols = cols.map (lowerKey lower) := by
  have : folded lower = lowerKey lower := by
    funext k
    cases k <;> rfl
  rw [names, this]

theorem positions_nodup (ns : List Key) (k : Key) : (positions ns k).Nodup := List.nodup_range.filter _

theorem mem_positions {ns : List Key} {k : Key} {i : ℕ} : i ∈ positions ns k ↔ ns[i]? = some k := by
  unfold positions
  simp only [List.mem_filter, List.mem_range, decide_eq_true_eq]
  constructor
  · exact fun h => h.2
  · intro h
    exact ⟨(List.getElem?_eq_some_iff.1 h).1, h⟩

theorem positions_snoc (ns : List Key) (c k : Key) :
    positions (ns ++ [c]) k = positions ns k ++ (if c = k then [ns.length] else []) := by
  unfold positions
  rw [List.length_append, List.length_singleton, List.range_succ, List.filter_append]
  congr 1
  · apply List.filter_congr
    intro i hi
    rw [List.getElem?_append_left (List.mem_range.1 hi)]
  · by_cases h : c = k
    · simp [h]
    · simp [h]

theorem positions_length (ns : List Key) (k : Key) : (positions ns k).length = ns.count k := by
  induction ns using List.reverseRecOn with
  | nil => rfl
  | append_singleton ns c ih =>
    rw [positions_snoc, List.length_append, ih, List.count_append, List.count_singleton]
    by_cases h : c = k
    · simp [h]
    · simp [h]

/-- `d` is the schema of the names `ns`. -/
structure IsSchema (ns : List Key) (d : NameMap) : Prop where
  wf : PyDict.WF d
  get : ∀ k, PyDict.getD d k [] = positions ns k
  keys : ∀ k, k ∈ PyDict.keys d ↔ k ∈ ns

theorem schemaFrom_spec (lower : String → String) (cols : List Key) (ns : List Key) (d : NameMap) (h : IsSchema ns d) :
    IsSchema (ns ++ names lower cols) (schemaFrom lower d ns.length cols) := by
  induction cols generalizing ns d with
  | nil => simpa [schemaFrom, names_eq] using h
  | cons c cs ih =>
    have e : ns ++ names lower (c :: cs) = (ns ++ [lowerKey lower c]) ++ names lower cs := by simp [names_eq]
    have e2 : ns.length + 1 = (ns ++ [lowerKey lower c]).length := by simp
    rw [e, schemaFrom, e2]
    apply ih
    constructor
    · exact PyDict.WF_set h.wf _ _
    · intro k
      rw [positions_snoc, ← h.get]
      unfold PyDict.getD
      rw [PyDict.get?_set]
      by_cases hk : lowerKey lower c = k
      · subst hk; simp
      · simp [hk]
    · intro k
      rw [PyDict.keys_set, List.mem_append, List.mem_singleton]
      split_ifs with hm
      · rw [h.keys]
        constructor
        · exact Or.inl
        · rintro (h' | h')
          · exact h'
          · subst h'; exact (h.keys _).1 hm
      · rw [List.mem_append, List.mem_singleton, h.keys]

theorem schemaOf_spec (lower : String → String) (cols : List Key) : IsSchema (names lower cols) (schemaOf lower cols) := by
  have := schemaFrom_spec lower cols [] [] ⟨PyDict.WF_nil, by simp [PyDict.getD, PyDict.get?, positions],
    by simp [PyDict.keys]⟩
  simpa [schemaOf] using this

/-! ## The loops -/

theorem mapName_spec (dup : Bool) (ps : List (ℕ × ℕ)) (m : PyDict ℕ ℕ) :
    mapName dup ps m = if (dup = true → ∀ p ∈ ps, p.1 = p.2) then
      .ok (ps.foldl (fun m p => PyDict.set m p.1 p.2) m) else .error .valueError := by
  induction ps generalizing m with
  | nil => simp [mapName]
  | cons p ps ih =>
    obtain ⟨i, j⟩ := p
    rw [mapName, ih]
    by_cases hij : i = j
    · rw [if_neg (by simp [hij])]
      have e : (dup = true → ∀ p ∈ (i, j) :: ps, p.1 = p.2) ↔ (dup = true → ∀ p ∈ ps, p.1 = p.2) := by
        simp [hij]
      simp only [e, List.foldl_cons]
    · by_cases hd : dup = true
      · rw [if_pos ⟨hd, hij⟩, if_neg]
        intro h
        exact hij (h hd (i, j) (by simp))
      · have hd' : dup = false := by simpa using hd
        simp [hd']

theorem foldl_set_append (ps : List (ℕ × ℕ)) (m : PyDict ℕ ℕ) (hn : (m.map Prod.fst ++ ps.map Prod.fst).Nodup) :
    ps.foldl (fun m p => PyDict.set m p.1 p.2) m = m ++ ps := by
  induction ps generalizing m with
  | nil => simp
  | cons p ps ih =>
    obtain ⟨i, j⟩ := p
    have hi : i ∉ PyDict.keys m := by
      intro hm
      rw [List.nodup_append] at hn
      exact hn.2.2 i hm i (by simp) rfl
    rw [List.foldl_cons, PyDict.set_of_not_mem hi, ih]
    · simp
    · simpa using hn

/-- The check made for one name. -/
def Passes (s1 s2 : NameMap) (k : Key) : Prop :=
  k ∈ PyDict.keys s2 ∧ (PyDict.getD s1 k []).length = (PyDict.getD s2 k []).length ∧
    (1 < (PyDict.getD s1 k []).length → PyDict.getD s1 k [] = PyDict.getD s2 k [])

theorem zip_eq_iff {l m : List ℕ} (h : l.length = m.length) : (∀ p ∈ l.zip m, p.1 = p.2) ↔ l = m := by
  induction l generalizing m with
  | nil => cases m <;> simp_all
  | cons a l ih =>
    cases m with
    | nil => simp at h
    | cons b m =>
      simp only [List.zip_cons_cons, List.mem_cons, forall_eq_or_imp, List.cons.injEq]
      rw [ih (by simpa using h)]

open Classical in
theorem mapNames_spec (lower : String → String) (s1 s2 : NameMap) (ks : List Key) (m : PyDict ℕ ℕ)
    (hlow : ∀ k ∈ ks, lowerKey lower k = k) :
    mapNames lower s1 s2 ks m = if ∀ k ∈ ks, Passes s1 s2 k then
      .ok ((ks.flatMap fun k => (PyDict.getD s1 k []).zip (PyDict.getD s2 k [])).foldl
        (fun m p => PyDict.set m p.1 p.2) m)
      else .error .valueError := by
  induction ks generalizing m with
  | nil => simp [mapNames]
  | cons k ks ih =>
    have hk := hlow k (by simp)
    have ih := fun m => ih m (fun k' h' => hlow k' (by simp [h']))
    rw [mapNames]
    simp only [hk]
    by_cases h1 : k ∈ PyDict.keys s2
    · have h1' : PyDict.has s2 k = true := (PyDict.has_iff _ _).2 h1
      rw [if_neg (by simp [h1'])]
      by_cases h2 : (PyDict.getD s1 k []).length = (PyDict.getD s2 k []).length
      · rw [if_neg (by simpa using h2), mapName_spec]
        simp only [decide_eq_true_eq]
        simp only [zip_eq_iff h2]
        by_cases h3 : 1 < (PyDict.getD s1 k []).length → PyDict.getD s1 k [] = PyDict.getD s2 k []
        · have hp : Passes s1 s2 k := ⟨h1, h2, h3⟩
          rw [if_pos h3]
          simp only
          rw [ih]
          simp only [List.mem_cons, forall_eq_or_imp, hp, true_and, List.flatMap_cons, List.foldl_append]
        · have hp : ¬ Passes s1 s2 k := fun h => h3 h.2.2
          rw [if_neg h3, if_neg (by intro h; exact hp (h k (by simp)))]
      · have hp : ¬ Passes s1 s2 k := fun h => h2 h.2.1
        rw [if_pos (by simpa using h2), if_neg (by intro h; exact hp (h k (by simp)))]
    · have h1' : PyDict.has s2 k = false := by
        rw [Bool.eq_false_iff]; exact fun h => h1 ((PyDict.has_iff _ _).1 h)
      have hp : ¬ Passes s1 s2 k := fun h => h1 h.1
      rw [if_pos h1', if_neg (by intro h; exact hp (h k (by simp)))]

theorem flatMap_positions_perm (ns : List Key) (ks : List Key) (hk : ks.Nodup) (hm : ∀ k, k ∈ ks ↔ k ∈ ns) :
    (ks.flatMap (positions ns)).Perm (List.range ns.length) := by
  rw [List.perm_ext_iff_of_nodup _ List.nodup_range]
  · intro i
    simp only [List.mem_flatMap, List.mem_range, mem_positions]
    constructor
    · rintro ⟨k, _, h⟩
      exact (List.getElem?_eq_some_iff.1 h).1
    · intro hi
      exact ⟨ns[i], (hm _).2 (List.getElem_mem hi), by simp [hi]⟩
  · rw [List.nodup_flatMap]
    refine ⟨fun k _ => positions_nodup ns k, hk.imp ?_⟩
    intro a b hab i hia hib
    rw [mem_positions] at hia hib
    rw [hia] at hib
    exact hab (Option.some.inj hib)

end Verif.Schema
