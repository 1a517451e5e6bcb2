import Verif.Spec.Flat
import Verif.Lemmas.PyDict
import Mathlib.Tactic.Tauto

/-!
# Lemmas on flattening
-/

namespace Verif.Flat

open Verif FlatSpec

variable {V : Type}

/-- The name of a path below a key, as the code builds it. -/
def nameFrom (key : Key) : List Key → Key
  | [] => key
  | k :: rest => join ['_'] key (nameFrom k rest)

/-- The names of the leaves below a key. -/
def names (key : Key) (t : Tree V) : List (Key × V) := (leaves t).map fun pv => (nameFrom key pv.1, pv.2)

def namesItems (key : Key) (items : List (Key × Tree V)) : List (Key × V) :=
  (leavesItems items).map fun pv => (nameFrom key pv.1, pv.2)

theorem names_leaf (key : Key) (v : V) : names key (.leaf v) = [(key, v)] := by
  simp [names, leaves, nameFrom]

theorem names_node (key : Key) (items : List (Key × Tree V)) : names key (.node items) = namesItems key items := by
  simp only [names, namesItems, leaves]

theorem namesItems_cons (key kk : Key) (vv : Tree V) (rest : List (Key × Tree V)) :
    namesItems key ((kk, vv) :: rest) =
      (names kk vv).map (fun kv => (join ['_'] key kv.1, kv.2)) ++ namesItems key rest := by
  simp only [namesItems, names, leavesItems, List.map_append, List.map_map, Function.comp_def, nameFrom]

/-- Setting items one after the other. -/
def sets (items : List (Key × V)) (d : PyDict Key V) : PyDict Key V := items.foldl (fun d kv => PyDict.set d kv.1 kv.2) d

theorem sets_append (a b : List (Key × V)) (d : PyDict Key V) : sets (a ++ b) d = sets b (sets a d) := List.foldl_append

theorem mem_set {d : PyDict Key V} {k : Key} {v : V} {x : Key × V} (h : x ∈ PyDict.set d k v) : x ∈ d ∨ x = (k, v) := by
  induction d with
  | nil => right; simpa [PyDict.set] using h
  | cons p d ih =>
      unfold PyDict.set at h
      split_ifs at h with hk
      · rcases List.mem_cons.1 h with h | h
        · exact Or.inr h
        · exact Or.inl (List.mem_cons_of_mem _ h)
      · rcases List.mem_cons.1 h with h | h
        · exact Or.inl (h ▸ List.mem_cons_self ..)
        · rcases ih h with h | h
          · exact Or.inl (List.mem_cons_of_mem _ h)
          · exact Or.inr h

theorem mem_keys_set {d : PyDict Key V} {k : Key} {v : V} {x : Key} :
    x ∈ PyDict.keys (PyDict.set d k v) ↔ x ∈ PyDict.keys d ∨ x = k := by
  rw [PyDict.mem_keys_iff, PyDict.mem_keys_iff]
  simp only [PyDict.get?_set]
  by_cases h : k = x
  · subst h; simp
  · simp [h, Ne.symm h]

theorem mem_sets {items : List (Key × V)} {d : PyDict Key V} {x : Key × V} (h : x ∈ sets items d) : x ∈ d ∨ x ∈ items := by
  induction items generalizing d with
  | nil => exact Or.inl h
  | cons p items ih =>
      rcases ih (d := PyDict.set d p.1 p.2) h with h | h
      · rcases mem_set h with h | h
        · exact Or.inl h
        · exact Or.inr (h ▸ List.mem_cons_self ..)
      · exact Or.inr (List.mem_cons_of_mem _ h)

theorem mem_keys_sets {items : List (Key × V)} {d : PyDict Key V} {x : Key} :
    x ∈ PyDict.keys (sets items d) ↔ x ∈ PyDict.keys d ∨ x ∈ items.map Prod.fst := by
  induction items generalizing d with
  | nil => simp [sets]
  | cons p items ih =>
      show x ∈ PyDict.keys (sets items (PyDict.set d p.1 p.2)) ↔ _
      rw [ih, mem_keys_set, List.map_cons, List.mem_cons]
      tauto

theorem wf_sets {items : List (Key × V)} {d : PyDict Key V} (h : PyDict.WF d) : PyDict.WF (sets items d) := by
  induction items generalizing d with
  | nil => exact h
  | cons p items ih => exact ih (PyDict.WF_set h _ _)

theorem sets_nodup {items : List (Key × V)} {d : PyDict Key V} (h : (PyDict.keys d ++ items.map Prod.fst).Nodup) :
    sets items d = d ++ items := by
  induction items generalizing d with
  | nil => simp [sets]
  | cons p items ih =>
      have hp : p.1 ∉ PyDict.keys d := by
        intro hm
        exact (List.nodup_append.1 h).2.2 _ hm _ (List.mem_cons_self ..) rfl
      show sets items (PyDict.set d p.1 p.2) = _
      rw [PyDict.set_of_not_mem hp, ih]
      · simp
      · simpa [PyDict.keys] using h

theorem foldl_join (sep : List Char) (key : Key) (l : List (Key × V)) (acc : PyDict Key V) :
    l.foldl (fun d kv => PyDict.set d (join sep key kv.1) kv.2) acc =
      sets (l.map fun kv => (join sep key kv.1, kv.2)) acc := by
  unfold sets
  rw [List.foldl_map]

mutual
/-- Every item of the flat dictionary comes from a leaf of that name. -/
theorem flat_sound (key : Key) : ∀ (t : Tree V) (x : Key × V), x ∈ flat ['_'] key t → x ∈ names key t
  | .leaf v, x, h => by rw [names_leaf]; simpa [flat] using h
  | .node items, x, h => by
      rw [names_node]
      simp only [flat] at h
      rcases flatItems_sound key items [] x h with h | h
      · exact nomatch h
      · exact h

theorem flatItems_sound (key : Key) : ∀ (items : List (Key × Tree V)) (acc : PyDict Key V) (x : Key × V),
    x ∈ flatItems ['_'] key items acc → x ∈ acc ∨ x ∈ namesItems key items
  | [], acc, x, h => by simp only [flatItems] at h; exact Or.inl h
  | (kk, vv) :: rest, acc, x, h => by
      simp only [flatItems] at h
      rw [foldl_join] at h
      rw [namesItems_cons]
      rcases flatItems_sound key rest _ x h with h | h
      · rcases mem_sets h with h | h
        · exact Or.inl h
        · obtain ⟨y, hy, rfl⟩ := List.mem_map.1 h
          exact Or.inr (List.mem_append_left _ (List.mem_map.2 ⟨y, flat_sound kk vv y hy, rfl⟩))
      · exact Or.inr (List.mem_append_right _ h)
end

mutual
/-- The keys are the names of the leaves. -/
theorem flat_keys (key : Key) : ∀ (t : Tree V) (x : Key),
    x ∈ PyDict.keys (flat ['_'] key t) ↔ x ∈ (names key t).map Prod.fst
  | .leaf v, x => by rw [names_leaf]; simp [flat, PyDict.keys]
  | .node items, x => by
      rw [names_node]
      simp only [flat]
      rw [flatItems_keys key items [] x]
      simp [PyDict.keys]

theorem flatItems_keys (key : Key) : ∀ (items : List (Key × Tree V)) (acc : PyDict Key V) (x : Key),
    x ∈ PyDict.keys (flatItems ['_'] key items acc) ↔ x ∈ PyDict.keys acc ∨ x ∈ (namesItems key items).map Prod.fst
  | [], acc, x => by simp [flatItems, namesItems, leavesItems]
  | (kk, vv) :: rest, acc, x => by
      simp only [flatItems]
      rw [foldl_join, namesItems_cons, flatItems_keys key rest, mem_keys_sets, List.map_append, List.mem_append, or_assoc]
      have : x ∈ ((flat ['_'] kk vv).map fun kv => (join ['_'] key kv.1, kv.2)).map Prod.fst ↔
          x ∈ ((names kk vv).map fun kv => (join ['_'] key kv.1, kv.2)).map Prod.fst := by
        simp only [List.map_map, Function.comp_def]
        rw [show (fun kv : Key × V => join ['_'] key kv.1) = (fun k => join ['_'] key k) ∘ Prod.fst from rfl,
          ← List.map_map, ← List.map_map]
        simp only [List.mem_map (f := fun k => join ['_'] key k)]
        constructor
        · rintro ⟨y, hy, rfl⟩; exact ⟨y, (flat_keys kk vv y).1 hy, rfl⟩
        · rintro ⟨y, hy, rfl⟩; exact ⟨y, (flat_keys kk vv y).2 hy, rfl⟩
      rw [this]
end

theorem nodup_join {key : Key} {l : List (Key × V)}
    (h : ((l.map fun kv => (join ['_'] key kv.1, kv.2)).map Prod.fst).Nodup) : (l.map Prod.fst).Nodup := by
  rw [List.map_map] at h
  have : (Prod.fst ∘ fun kv : Key × V => (join ['_'] key kv.1, kv.2)) = (join ['_'] key) ∘ Prod.fst := rfl
  rw [this, ← List.map_map] at h
  exact List.Nodup.of_map _ h

mutual
/-- Without equal names, flattening lists the leaves. -/
theorem flat_exact (key : Key) : ∀ (t : Tree V), ((names key t).map Prod.fst).Nodup → flat ['_'] key t = names key t
  | .leaf v, _ => by rw [names_leaf]; simp [flat]
  | .node items, h => by
      rw [names_node] at h ⊢
      simp only [flat]
      rw [flatItems_exact key items [] (by simpa [PyDict.keys] using h)]
      rfl

theorem flatItems_exact (key : Key) : ∀ (items : List (Key × Tree V)) (acc : PyDict Key V),
    (PyDict.keys acc ++ (namesItems key items).map Prod.fst).Nodup →
      flatItems ['_'] key items acc = acc ++ namesItems key items
  | [], acc, _ => by simp [flatItems, namesItems, leavesItems]
  | (kk, vv) :: rest, acc, h => by
      simp only [flatItems]
      rw [foldl_join]
      rw [namesItems_cons, List.map_append, ← List.append_assoc] at h
      have h1 := (List.nodup_append.1 h).1
      have h2 := nodup_join (List.nodup_append.1 h1).2.1
      rw [flat_exact kk vv h2, sets_nodup h1, flatItems_exact key rest]
      · rw [namesItems_cons, List.append_assoc]
      · simpa [PyDict.keys] using h
end

mutual
theorem wf_flat (key : Key) : ∀ (t : Tree V), PyDict.WF (flat ['_'] key t)
  | .leaf v => by simp [flat, PyDict.WF, PyDict.keys]
  | .node items => by simp only [flat]; exact wf_flatItems key items [] PyDict.WF_nil

theorem wf_flatItems (key : Key) : ∀ (items : List (Key × Tree V)) (acc : PyDict Key V), PyDict.WF acc →
    PyDict.WF (flatItems ['_'] key items acc)
  | [], acc, h => by simpa only [flatItems] using h
  | (kk, vv) :: rest, acc, h => by
      simp only [flatItems]
      rw [foldl_join]
      exact wf_flatItems key rest _ (wf_sets h)
end

/-! ### Names -/

theorem truthy_iff (k : Key) : k.truthy = true ↔ ¬Skipped k := by
  cases k <;> simp [Key.truthy, Skipped]

theorem clean_eq (k : Key) : clean k = underscored k := by cases k <;> rfl

theorem name_nil : name [] = .str [] := rfl

theorem name_single (k : Key) : name [k] = k := by simp [name]

theorem name_cons (k l : Key) (rest : List Key) : name (k :: l :: rest) = join ['_'] k (name (l :: rest)) := by
  obtain ⟨last, hl⟩ : ∃ last, (l :: rest).getLast? = some last := ⟨_, List.getLast?_eq_some_getLast (by simp)⟩
  have hl2 : (k :: l :: rest).getLast? = some last := by rw [List.getLast?_cons_cons]; exact hl
  unfold name
  rw [hl, hl2]
  dsimp only
  rw [List.dropLast_cons_of_ne_nil (by simp : l :: rest ≠ [])]
  unfold join
  by_cases hk : Skipped k
  · have ht : k.truthy = false := by
      rw [Bool.eq_false_iff]; exact fun h => (truthy_iff k).1 h hk
    rw [ht, List.filter_cons_of_neg (by simpa using hk)]
    simp
  · have ht : k.truthy = true := (truthy_iff k).2 hk
    rw [if_pos ht, List.filter_cons_of_pos (by simpa using hk), if_neg (by simp)]
    generalize ((l :: rest).dropLast.filter fun k => decide ¬Skipped k) = pre
    by_cases hp : pre = []
    · subst hp
      simp [List.intercalate, clean_eq]
    · rw [if_neg hp]
      obtain ⟨p, pre', rfl⟩ := List.exists_cons_of_ne_nil hp
      simp [List.intercalate, clean_eq, Key.text]

theorem nameFrom_eq (k : Key) (rest : List Key) : nameFrom k rest = name (k :: rest) := by
  induction rest generalizing k with
  | nil => rw [name_single]; rfl
  | cons l rest ih => rw [name_cons, ← ih]; rfl

theorem nameFrom_top (path : List Key) : nameFrom (.str []) path = name path := by
  rcases path with _ | ⟨k, rest⟩
  · rfl
  · rw [← nameFrom_eq]
    simp [nameFrom, join, Key.truthy]

/-- Plain paths have different names. -/
theorem name_plain {path : List Key} (hne : path ≠ []) (h : ∀ k ∈ path, Plain k) :
    name path = .str (['_'].intercalate (path.map Key.text)) := by
  obtain ⟨last, hl⟩ : ∃ last, path.getLast? = some last := ⟨_, List.getLast?_eq_some_getLast hne⟩
  have hp : path = path.dropLast ++ [last] := by
    rw [List.getLast?_eq_some_getLast hne] at hl
    rw [← Option.some.inj hl, List.dropLast_concat_getLast]
  have hskip : ∀ k ∈ path, ¬Skipped k := by
    intro k hk
    obtain ⟨s, rfl, hs, _⟩ := h k hk
    exact hs
  have hund : ∀ k ∈ path, underscored k = k.text := by
    intro k hk
    obtain ⟨s, rfl, _, _, hs⟩ := h k hk
    show s.map _ = s
    conv => rhs; rw [← List.map_id s]
    refine List.map_congr_left fun c hc => ?_
    rw [if_neg (fun e : c = ' ' => hs (e ▸ hc))]; rfl
  have hf : (path.dropLast.filter fun k => decide ¬Skipped k) = path.dropLast :=
    List.filter_eq_self.2 fun k hk => by simpa using hskip k (List.dropLast_subset _ hk)
  unfold name
  rw [hl]
  dsimp only
  rw [hf]
  by_cases hd : path.dropLast = []
  · rw [if_pos hd, hp, hd]
    obtain ⟨s, rfl, _⟩ := h last (hp ▸ by simp)
    simp [List.intercalate, Key.text]
  · rw [if_neg hd]
    congr 2
    conv => rhs; rw [hp]
    rw [List.map_append, List.map_congr_left fun k hk => hund k (List.dropLast_subset _ hk)]
    rfl

theorem name_injective {p q : List Key} (hp : p ≠ []) (hq : q ≠ []) (h1 : ∀ k ∈ p, Plain k) (h2 : ∀ k ∈ q, Plain k)
    (h : name p = name q) : p = q := by
  rw [name_plain hp h1, name_plain hq h2] at h
  have h := Key.str.inj h
  have side : ∀ r : List Key, (∀ k ∈ r, Plain k) → ∀ l ∈ r.map Key.text, '_' ∉ l := by
    intro r hr l hl
    obtain ⟨k, hk, rfl⟩ := List.mem_map.1 hl
    obtain ⟨s, rfl, _, hs, _⟩ := hr k hk
    exact hs
  have e1 := List.splitOn_intercalate '_' (side p h1) (by simpa using hp)
  have e2 := List.splitOn_intercalate '_' (side q h2) (by simpa using hq)
  rw [h] at e1
  have e := e1.symm.trans e2
  have inj : ∀ (a b : List Key), (∀ k ∈ a, Plain k) → (∀ k ∈ b, Plain k) → a.map Key.text = b.map Key.text → a = b := by
    intro a
    induction a with
    | nil => intro b _ _ h; simpa using h.symm
    | cons x a ih =>
        intro b ha hb h
        rcases b with _ | ⟨y, b⟩
        · simp at h
        · simp only [List.map_cons, List.cons.injEq] at h
          obtain ⟨s, rfl, _⟩ := ha x (List.mem_cons_self ..)
          obtain ⟨t, rfl, _⟩ := hb y (List.mem_cons_self ..)
          rw [ih b (fun k hk => ha k (List.mem_cons_of_mem _ hk)) (fun k hk => hb k (List.mem_cons_of_mem _ hk)) h.2]
          rw [show s = t from h.1]
  exact inj p q h1 h2 e

/-! ### Paths -/

theorem leavesItems_head {items : List (Key × Tree V)} {pv : List Key × V} (h : pv ∈ leavesItems items) :
    ∃ k rest, pv.1 = k :: rest ∧ k ∈ items.map Prod.fst := by
  induction items with
  | nil => simp [leavesItems] at h
  | cons kt items ih =>
      obtain ⟨k, t⟩ := kt
      simp only [leavesItems] at h
      rcases List.mem_append.1 h with h | h
      · obtain ⟨x, _, rfl⟩ := List.mem_map.1 h
        exact ⟨k, x.1, rfl, by simp⟩
      · obtain ⟨k', rest, e, hm⟩ := ih h
        exact ⟨k', rest, e, by simp only [List.map_cons]; exact List.mem_cons_of_mem _ hm⟩

mutual
theorem leaves_nodup : ∀ t : Tree V, Distinct t → ((leaves t).map Prod.fst).Nodup
  | .leaf v, _ => by simp [leaves]
  | .node items, h => by
      simp only [Distinct] at h
      simp only [leaves]
      exact leavesItems_nodup items h.1 h.2

theorem leavesItems_nodup : ∀ items : List (Key × Tree V), (items.map Prod.fst).Nodup → DistinctItems items →
    ((leavesItems items).map Prod.fst).Nodup
  | [], _, _ => by simp [leavesItems]
  | (k, t) :: rest, h, hd => by
      simp only [DistinctItems] at hd
      simp only [List.map_cons] at h
      have hn := List.nodup_cons.1 h
      simp only [leavesItems, List.map_append]
      refine List.nodup_append.2 ⟨?_, leavesItems_nodup rest hn.2 hd.2, ?_⟩
      · rw [List.map_map, show (Prod.fst ∘ fun pv : List Key × V => (k :: pv.1, pv.2)) = (List.cons k) ∘ Prod.fst from rfl,
          ← List.map_map]
        exact (leaves_nodup t hd.1).map (fun a b e => (List.cons.inj e).2)
      · intro p hp q hq e
        subst e
        obtain ⟨x, hx, rfl⟩ := List.mem_map.1 hp
        obtain ⟨y, _, rfl⟩ := List.mem_map.1 hx
        obtain ⟨z, hz, ez⟩ := List.mem_map.1 hq
        obtain ⟨k', r, e', hm⟩ := leavesItems_head hz
        rw [ez] at e'
        simp only [List.cons.injEq] at e'
        exact hn.1 (e'.1 ▸ hm)
end

end Verif.Flat
