import Mathlib.Data.List.Perm.Basic
import Mathlib.Data.List.Nodup
import Verif.Model.MergeList
import Verif.Spec.MergeList
import Verif.Lemmas.Chunks

/-! Helper lemmas about pooled merging. -/

namespace Verif.MergeList

open Verif

variable {α β : Type}

theorem finish_length (tasks : List (Except Err β)) (s : Slots β) (i : ℕ) :
    (finish tasks s i).results.length = s.results.length := by
  unfold finish; split <;> simp

/-- If no task fails, the slots hold exactly the results of the finished tasks. -/
theorem foldl_finish_ok (vals : List β) (order : List ℕ) (s : Slots β)
    (hl : s.results.length = vals.length) (hf : s.failure = none) :
    (order.foldl (finish (vals.map Except.ok)) s).failure = none ∧
    (order.foldl (finish (vals.map Except.ok)) s).results.length = vals.length ∧
    ∀ i (h : i < vals.length),
      (order.foldl (finish (vals.map Except.ok)) s).results[i]? =
        if i ∈ order then some (some vals[i]) else s.results[i]? := by
  induction order generalizing s with
  | nil => simp [hf, hl]
  | cons j order ih =>
    rw [List.foldl_cons]
    by_cases hj : j < vals.length
    · have e : finish (vals.map Except.ok) s j =
          { s with results := s.results.set j (some vals[j]) } := by
        simp [finish, hj]
      obtain ⟨a, b, c⟩ := ih (finish (vals.map Except.ok) s j)
        (by rw [finish_length, hl]) (by rw [e]; exact hf)
      refine ⟨a, b, ?_⟩
      intro i hi
      rw [c i hi]
      by_cases hio : i ∈ order
      · simp [hio]
      · by_cases hij : i = j
        · subst hij
          simp [hio, e, hl, hi]
        · simp [hio, hij, e, Ne.symm hij]
    · have e : finish (vals.map Except.ok) s j = s := by
        simp [finish, hj]
      rw [e]
      obtain ⟨a, b, c⟩ := ih s hl hf
      refine ⟨a, b, ?_⟩
      intro i hi
      rw [c i hi]
      have : i ≠ j := by omega
      simp [this]

theorem starmap_ok (vals : List β) (order : List ℕ)
    (h : order.Perm (List.range vals.length)) :
    starmap order (vals.map Except.ok) = .ok vals := by
  unfold starmap
  obtain ⟨a, b, c⟩ := foldl_finish_ok vals order
    ⟨List.replicate (vals.map (Except.ok (ε := Err))).length none, none⟩ (by simp) rfl
  simp only [a]
  have : (order.foldl (finish (vals.map Except.ok))
      ⟨List.replicate (vals.map (Except.ok (ε := Err))).length none, none⟩).results = vals.map some := by
    apply List.ext_getElem?
    intro i
    by_cases hi : i < vals.length
    · rw [c i hi, if_pos (h.mem_iff.2 (by simpa using hi))]
      simp [hi]
    · rw [List.getElem?_eq_none (by omega), List.getElem?_eq_none (by simp; omega)]
  rw [this]
  simp [List.filterMap_map]

theorem failure_persists (tasks : List (Except Err β)) (order : List ℕ) (s : Slots β)
    (h : s.failure ≠ none) : (order.foldl (finish tasks) s).failure ≠ none := by
  induction order generalizing s with
  | nil => exact h
  | cons j order ih =>
    rw [List.foldl_cons]
    apply ih
    unfold finish
    split
    · exact h
    · exact h
    · simp

/-- Conversely, if a `starmap` over all tasks succeeds then no task failed. -/
theorem starmap_ok_inv (tasks : List (Except Err β)) (order : List ℕ) (r : List β)
    (h : order.Perm (List.range tasks.length)) (hr : starmap order tasks = .ok r) :
    tasks = r.map Except.ok := by
  have hall : ∀ i, i < tasks.length → ∃ b, tasks[i]? = some (.ok b) := by
    intro i hi
    by_contra hno
    have he : ∃ e, tasks[i]? = some (.error e) := by
      cases ht : tasks[i] with
      | error e => exact ⟨e, by rw [List.getElem?_eq_getElem hi, ht]⟩
      | ok b => exact absurd ⟨b, by rw [List.getElem?_eq_getElem hi, ht]⟩ hno
    obtain ⟨e, he⟩ := he
    have hmem : i ∈ order := h.mem_iff.2 (by simpa using hi)
    obtain ⟨l1, l2, rfl⟩ := List.append_of_mem hmem
    unfold starmap at hr
    simp only [List.foldl_append, List.foldl_cons] at hr
    have hf := failure_persists tasks l2
      (finish tasks (l1.foldl (finish tasks) ⟨List.replicate tasks.length none, none⟩) i)
      (by unfold finish; rw [he]; simp)
    split at hr
    · cases hr
    · rename_i h0; exact hf h0
  have hv : ∃ vals : List β, tasks = vals.map Except.ok := by
    clear hr h
    induction tasks with
    | nil => exact ⟨[], rfl⟩
    | cons t ts ih =>
      obtain ⟨b, hb⟩ := hall 0 (by simp)
      obtain ⟨vs, hvs⟩ := ih (fun i hi => by
        have := hall (i + 1) (by simpa using hi); simpa using this)
      simp at hb
      exact ⟨b :: vs, by rw [hb, hvs]; rfl⟩
  obtain ⟨vals, rfl⟩ := hv
  rw [starmap_ok vals order (by simpa using h)] at hr
  cases hr
  rfl

theorem chunk2_nil : Chunks.chunk ([] : List α) 2 = [] := Chunks.chunk_nil 2

theorem chunk2_one (a : α) : Chunks.chunk [a] 2 = [[a]] := by
  rw [Chunks.chunk_step (by simp) (by decide)]; simp [Chunks.chunk_nil]

theorem chunk2_cons (a b : α) (l : List α) :
    Chunks.chunk (a :: b :: l) 2 = [a, b] :: Chunks.chunk l 2 := by
  rw [Chunks.chunk_step (by simp) (by decide)]; simp

theorem chunk2_length (l : List α) : (Chunks.chunk l 2).length = (l.length + 1) / 2 := by
  match l with
  | [] => simp [chunk2_nil]
  | [a] => simp [chunk2_one]
  | a :: b :: l =>
    rw [chunk2_cons, List.length_cons, chunk2_length l]
    simp only [List.length_cons]; omega

/-- One successful round pairs up neighbours. -/
inductive Paired (add : α → α → Except Err α) : List α → List α → Prop where
  | nil : Paired add [] []
  | one (a : α) : Paired add [a] [a]
  | cons {a b c : α} {l l' : List α} : add a b = .ok c → Paired add l l' →
      Paired add (a :: b :: l) (c :: l')

theorem paired_of_tasks (add : α → α → Except Err α) (l l' : List α)
    (h : (Chunks.chunk l 2).map (mergeTuple add) = l'.map Except.ok) : Paired add l l' := by
  match l with
  | [] =>
    rw [chunk2_nil] at h
    cases l' with
    | nil => exact .nil
    | cons => simp at h
  | [a] =>
    rw [chunk2_one] at h
    match l' with
    | [] => simp at h
    | [c] => simp [mergeTuple] at h; subst h; exact .one a
    | _ :: _ :: _ => simp at h
  | a :: b :: l =>
    rw [chunk2_cons] at h
    match l' with
    | [] => simp at h
    | c :: l' =>
      simp only [List.map_cons, List.cons.injEq, mergeTuple] at h
      exact .cons h.1 (paired_of_tasks add l l' h.2)

theorem Paired.length {add : α → α → Except Err α} {l l' : List α} (h : Paired add l l') :
    l'.length = (l.length + 1) / 2 := by
  induction h with
  | nil => simp
  | one => simp
  | cons _ _ ih => simp only [List.length_cons, ih]; omega

/-- Every element of the current list is the value of a bracketing; together their leaves are `l0`. -/
def Forest (add : α → α → Except Err α) (l0 l : List α) : Prop :=
  ∃ ts : List (Bracket α), List.Forall₂ (Bracket.Value add) ts l ∧ (ts.map Bracket.leaves).flatten = l0

theorem Paired.forest {add : α → α → Except Err α} {l l' : List α} (h : Paired add l l') :
    ∀ {l0 : List α}, Forest add l0 l → Forest add l0 l' := by
  induction h with
  | nil => exact fun h => h
  | one => exact fun h => h
  | cons hab _ ih =>
    rintro l0 ⟨ts, hts, rfl⟩
    cases hts with
    | cons h1 hts =>
      cases hts with
      | cons h2 hts =>
        rename_i t1 t2 ts
        obtain ⟨ts', h1', h2'⟩ := ih ⟨ts, hts, rfl⟩
        refine ⟨.node t1 t2 :: ts', .cons (.node h1 h2 hab) h1', ?_⟩
        simp [h2', Bracket.leaves]

theorem forest_self (add : α → α → Except Err α) (l : List α) : Forest add l l := by
  refine ⟨l.map Bracket.leaf, ?_, ?_⟩
  · induction l with
    | nil => exact .nil
    | cons a l ih => exact .cons (.leaf a) ih
  · induction l with
    | nil => rfl
    | cons a l ih => simpa [Bracket.leaves] using ih

theorem rounds_forest (add : α → α → Except Err α) (sched : ℕ → List ℕ) (fuel r : ℕ) (l l' l0 : List α)
    (hs : FairSchedule sched fuel r l.length) (hf : Forest add l0 l)
    (h : rounds add sched fuel r l = some (.ok l')) :
    Forest add l0 l' ∧ l'.length ≤ 1 ∧ (l ≠ [] → l' ≠ []) := by
  induction fuel generalizing r l with
  | zero =>
    rw [rounds] at h
    split at h
    · simp at h
    · cases h; exact ⟨hf, by omega, id⟩
  | succ fuel ih =>
    rw [rounds] at h
    split at h
    · rename_i hlen
      obtain ⟨hp, hs'⟩ := hs hlen
      split at h
      · simp at h
      · rename_i l1 hstar
        have htasks := starmap_ok_inv _ _ _ (by
          rw [List.length_map, chunk2_length]; exact hp) hstar
        have hpair := paired_of_tasks add l l1 htasks
        have hl1 := hpair.length
        obtain ⟨a, b, c⟩ := ih (r + 1) l1 (by rw [hl1]; exact hs') (hpair.forest hf) h
        refine ⟨a, b, fun _ => c ?_⟩
        rintro rfl
        simp at hl1; omega
    · cases h; exact ⟨hf, by omega, id⟩

/-- One round never raises and shrinks the list when `+` is total. -/
theorem rounds_terminates (f : α → α → α) (sched : ℕ → List ℕ) (fuel r : ℕ) (l : List α)
    (hs : FairSchedule sched fuel r l.length) (hfuel : l.length ≤ fuel + 1) :
    ∃ l', rounds (fun a b => .ok (f a b)) sched fuel r l = some (.ok l') := by
  induction fuel generalizing r l with
  | zero => rw [rounds, if_neg (by omega)]; exact ⟨l, rfl⟩
  | succ fuel ih =>
    rw [rounds]
    split
    · rename_i hlen
      obtain ⟨hp, hs'⟩ := hs hlen
      have hv : ∃ vals : List α, (Chunks.chunk l 2).map (mergeTuple fun a b => .ok (f a b)) =
          vals.map Except.ok := by
        clear hp hs' hs hfuel hlen ih
        match l with
        | [] => exact ⟨[], by simp [chunk2_nil]⟩
        | [a] => exact ⟨[a], by simp [chunk2_one, mergeTuple]⟩
        | a :: b :: l =>
          have : ∀ l : List α, ∃ vals : List α,
              (Chunks.chunk l 2).map (mergeTuple fun a b => .ok (f a b)) = vals.map Except.ok := by
            intro l
            induction h : l.length using Nat.strong_induction_on generalizing l with
            | _ n ih =>
              match l with
              | [] => exact ⟨[], by simp [chunk2_nil]⟩
              | [a] => exact ⟨[a], by simp [chunk2_one, mergeTuple]⟩
              | a :: b :: l =>
                obtain ⟨vs, h'⟩ := ih l.length (by simp at h; omega) l rfl
                exact ⟨f a b :: vs, by rw [chunk2_cons]; simp [mergeTuple, h']⟩
          exact this _
      obtain ⟨vals, hvals⟩ := hv
      have hlenv : vals.length = (l.length + 1) / 2 := by
        have := congrArg List.length hvals
        simpa [chunk2_length] using this.symm
      rw [hvals, starmap_ok vals _ (by rw [hlenv]; exact hp)]
      simp only
      exact ih (r + 1) vals (by rw [hlenv]; exact hs') (by omega)
    · exact ⟨l, rfl⟩

/-- Whatever `+` does (it may raise), enough rounds always finish. -/
theorem rounds_terminates_any (add : α → α → Except Err α) (sched : ℕ → List ℕ) (fuel r : ℕ) (l : List α)
    (hs : FairSchedule sched fuel r l.length) (hfuel : l.length ≤ fuel + 1) :
    rounds add sched fuel r l ≠ none := by
  induction fuel generalizing r l with
  | zero => rw [rounds, if_neg (by omega)]; simp
  | succ fuel ih =>
    rw [rounds]
    split
    · rename_i hlen
      obtain ⟨hp, hs'⟩ := hs hlen
      split
      · simp
      · rename_i l1 hstar
        have htasks := starmap_ok_inv _ _ _ (by
          rw [List.length_map, chunk2_length]; exact hp) hstar
        have hl1 := (paired_of_tasks add l l1 htasks).length
        exact ih (r + 1) l1 (by rw [hl1]; exact hs') (by omega)
    · simp

/-- For a total associative `+`, the value of a bracketing is the left fold of its leaves. -/
theorem value_foldl (f : α → α → α) (hassoc : ∀ a b c, f (f a b) c = f a (f b c)) :
    ∀ (t : Bracket α) (v : α), t.Value (fun a b => .ok (f a b)) v →
      ∃ a l, t.leaves = a :: l ∧ v = l.foldl f a := by
  have hfold : ∀ (l : List α) (a b : α), l.foldl f (f a b) = f a (l.foldl f b) := by
    intro l
    induction l with
    | nil => intro a b; rfl
    | cons x l ih => intro a b; rw [List.foldl_cons, List.foldl_cons, hassoc, ih]
  intro t
  induction t with
  | leaf a => intro v hv; cases hv; exact ⟨a, [], rfl, rfl⟩
  | node l r ihl ihr =>
    intro v hv
    cases hv with
    | node h1 h2 h3 =>
      obtain ⟨a, la, e1, rfl⟩ := ihl _ h1
      obtain ⟨b, lb, e2, rfl⟩ := ihr _ h2
      cases h3
      refine ⟨a, la ++ b :: lb, by simp [Bracket.leaves, e1, e2], ?_⟩
      rw [List.foldl_append, List.foldl_cons, hfold]

end Verif.MergeList
