import Verif.Lemmas.Diff

/-! # C28: differences -/

namespace Verif.Diffs

open Verif

variable {α : Type}

/-- **C28** Numbers: "unchanged" exactly for equal numbers; otherwise `stat1 - stat2`, and swapping the
arguments negates it. (A NaN equals nothing, not even a NaN.) -/
theorem C28_numbers (a b : Num) :
    (diffNumbers (α := α) (.num a) (.num b) = .ok .unchanged ↔ ∃ q, a = .fin q ∧ b = .fin q) ∧
    (∀ d, diffNumbers (α := α) (.num a) (.num b) = .ok (.num d) ↔
      diffNumbers (α := α) (.num b) (.num a) = .ok (.num d.neg)) ∧
    (∀ p q, a = .fin p → b = .fin q → p ≠ q →
      diffNumbers (α := α) (.num a) (.num b) = .ok (.num (.fin (p - q)))) := by
  have hneg : ∀ d : Num, d.neg.neg = d := by intro d; cases d <;> simp [Num.neg]
  refine ⟨?_, ?_, ?_⟩
  · rw [← Num.ne_false_iff]
    cases h : a.ne b <;> simp [diffNumbers, PV.asNum, h]
  · intro d
    simp only [diffNumbers, PV.asNum, Num.ne_comm b a, Num.sub_neg a b]
    cases h : a.ne b
    · simp
    · simp only [if_true, Except.ok.injEq, Diff.num.injEq]
      constructor
      · intro h; rw [h]
      · intro h; rw [← hneg (a.sub b), h, hneg]
  · rintro p q rfl rfl hpq
    simp [diffNumbers, PV.asNum, Num.ne, Num.sub, hpq]

/-- **C28** A number against a missing one reports the pair, two missing ones are unchanged. -/
theorem C28_numbers_missing (a : Num) :
    diffNumbers (α := α) (.num a) .none = .ok (.pair (.num a) .none) ∧
    diffNumbers (α := α) .none (.num a) = .ok (.pair .none (.num a)) ∧
    diffNumbers (α := α) .none .none = .ok .unchanged := ⟨rfl, rfl, rfl⟩

/-- **C28** Strings and booleans: "unchanged" exactly for equal values, otherwise the pair. -/
theorem C28_strings_bools (a b : Option String) (c d : Bool) :
    (diffStrings (α := α) a b = .unchanged ↔ a = b) ∧
    (a ≠ b → diffStrings (α := α) a b =
      .pair ((a.map PV.str).getD .none) ((b.map PV.str).getD .none)) ∧
    (diffBools (α := α) c d = .unchanged ↔ c = d) ∧
    (c ≠ d → diffBools (α := α) c d = .pair (.bool c) (.bool d)) := by
  refine ⟨?_, ?_, ?_, ?_⟩
  · unfold diffStrings; split <;> simp_all
  · intro h; simp [diffStrings, h]
  · unfold diffBools; split <;> simp_all
  · intro h; simp [diffBools, h]

/-- **C28** Dates: "unchanged" exactly for equal dates; otherwise the signed distance, whose sign flips
when the arguments are swapped; a missing date gives the pair. -/
theorem C28_dates (a b : ℤ) :
    (diffDates (α := α) (some a) (some b) = .unchanged ↔ a = b) ∧
    (b < a → diffDates (α := α) (some a) (some b) = .delta false (a - b).toNat) ∧
    (a < b → diffDates (α := α) (some a) (some b) = .delta true (b - a).toNat) ∧
    diffDates (α := α) (some a) none = .dates (some a) none ∧
    diffDates (α := α) none (some b) = .dates none (some b) ∧
    diffDates (α := α) none none = .unchanged := by
  refine ⟨?_, ?_, ?_, rfl, rfl, rfl⟩
  · unfold diffDates
    simp only
    split
    · rename_i h
      split <;> simp [h]
    · simp_all
  · intro h
    unfold diffDates
    simp only
    rw [if_pos (by omega), if_pos (by omega)]
    congr 1; omega
  · intro h
    unfold diffDates
    simp only
    rw [if_pos (by omega), if_neg (by omega)]
    congr 1; omega

section
variable [DecidableEq α]

/-- **C28** Lists: whenever a difference is reported, it is exactly the multiset of elements only in
the first, the shared ones, and those only in the second. -/
theorem C28_lists (a b l s r : List α) (h : diffLists (some a) (some b) = .lists l s r) (x : α) :
    l.count x = a.count x - b.count x ∧
    s.count x = min (a.count x) (b.count x) ∧
    r.count x = b.count x - a.count x := by
  unfold diffLists at h
  simp only at h
  split at h
  · simp only [Diff.lists.injEq] at h
    obtain ⟨rfl, rfl, rfl⟩ := h
    obtain ⟨h1, h2⟩ := sharedLoop_count a b x
    refine ⟨?_, h1, h2⟩
    rw [removeAll_count, h1]; omega
  · cases h

/-- **C28** (partial) Lists: equal multisets are reported unchanged, and "unchanged" means same elements and
same length. Missing: lists that only differ in multiplicities (`C28_lists_multiplicity_fails`). -/
theorem C28_lists_unchanged_partial (a b : List α) :
    (diffLists (some a) (some b) = .unchanged ↔ (∀ x, x ∈ a ↔ x ∈ b) ∧ a.length = b.length) ∧
    (a.Perm b → diffLists (some a) (some b) = .unchanged) := by
  have hiff : diffLists (some a) (some b) = .unchanged ↔
      (∀ x, x ∈ a ↔ x ∈ b) ∧ a.length = b.length := by
    unfold diffLists
    simp only
    have hset : (a ⊆ b ∧ b ⊆ a) ↔ ∀ x, x ∈ a ↔ x ∈ b :=
      ⟨fun h x => ⟨fun hx => h.1 hx, fun hx => h.2 hx⟩, fun h => ⟨fun x hx => (h x).1 hx, fun x hx => (h x).2 hx⟩⟩
    split
    · rename_i h
      simp only [reduceCtorEq, false_iff]
      rw [hset] at h
      rintro ⟨h1, h2⟩
      rcases h with h | h
      · exact h h1
      · exact h h2
    · rename_i h
      simp only [true_iff]
      push Not at h
      exact ⟨hset.1 h.1, h.2⟩
  exact ⟨hiff, fun hp => hiff.2 ⟨fun x => hp.mem_iff, hp.length_eq⟩⟩

/-- Two lists with different multiplicities are reported unchanged. -/
theorem C28_lists_multiplicity_fails :
    diffLists (some ["a", "a", "b"]) (some ["a", "b", "b"]) = .unchanged ∧
    ¬ ["a", "a", "b"].Perm ["a", "b", "b"] := by
  refine ⟨?_, by decide⟩
  rw [(C28_lists_unchanged_partial _ _).1]
  refine ⟨?_, rfl⟩
  intro x; simp

/-- **C28** Sets (no repetitions, any listing order): "unchanged" exactly when equal as sets. -/
theorem C28_sets (a b : List α) (ha : a.Nodup) (hb : b.Nodup) :
    (diffLists (some a) (some b) = .unchanged ↔ ∀ x, x ∈ a ↔ x ∈ b) ∧
    (∀ l s r, diffLists (some a) (some b) = .lists l s r → ∀ x,
      (x ∈ l ↔ x ∈ a ∧ x ∉ b) ∧ (x ∈ s ↔ x ∈ a ∧ x ∈ b) ∧ (x ∈ r ↔ x ∈ b ∧ x ∉ a)) := by
  constructor
  · rw [(C28_lists_unchanged_partial a b).1]
    refine ⟨fun h => h.1, fun h => ⟨h, ?_⟩⟩
    exact ((List.perm_ext_iff_of_nodup ha hb).2 h).length_eq
  · intro l s r h x
    obtain ⟨h1, h2, h3⟩ := C28_lists a b l s r h x
    have ca : a.count x ≤ 1 := List.nodup_iff_count_le_one.1 ha x
    have cb : b.count x ≤ 1 := List.nodup_iff_count_le_one.1 hb x
    have hm : ∀ l : List α, x ∈ l ↔ 0 < l.count x := fun l => List.count_pos_iff.symm
    simp only [hm]
    omega

/-- **C28** Swapping two lists swaps the one-sided parts and keeps the shared part (as multisets). -/
theorem C28_lists_swap (a b l s r l' s' r' : List α)
    (h : diffLists (some a) (some b) = .lists l s r)
    (h' : diffLists (some b) (some a) = .lists l' s' r') :
    l.Perm r' ∧ s.Perm s' ∧ r.Perm l' := by
  refine ⟨?_, ?_, ?_⟩ <;> rw [List.perm_iff_count] <;> intro x <;>
    obtain ⟨h1, h2, h3⟩ := C28_lists a b l s r h x <;>
    obtain ⟨h1', h2', h3'⟩ := C28_lists b a l' s' r' h' x <;> omega

/-- **C28** Dictionaries: "unchanged" exactly when both are empty; otherwise the report has exactly the
keys of either dictionary, a key of the first with the difference of the two values (`None` standing
for a missing one), a key only in the second with `[None, value]`. -/
theorem C28_dicts (d1 d2 : List (String × PV α)) (r : Diff α)
    (h : diffDicts (some d1) (some d2) = .ok r) :
    (r = .unchanged ↔ d1 = [] ∧ d2 = []) ∧
    (∀ items, r = .dict items → ∀ k,
      match PyDict.get? d1 k, PyDict.get? d2 k with
      | some v, w => ∃ x, PyDict.get? items k = some x ∧ diffVal v (w.getD .none) = .ok x
      | none, some w => PyDict.get? items k = some (.pair .none w)
      | none, none => PyDict.get? items k = none) ∧
    (r ≠ .unchanged → ∃ items, r = .dict items) := by
  unfold diffDicts at h
  simp only [Option.getD_some, diffVal_dict] at h
  cases hi : diffItems d1 d2 with
  | error e => rw [hi] at h; cases h
  | ok items =>
    rw [hi] at h
    simp only [Except.ok.injEq] at h
    subst h
    obtain ⟨hk, hv⟩ := diffItems_spec d1 d2 items hi
    refine ⟨?_, ?_, ?_⟩
    · unfold assemble
      simp only
      have hlen : items.length = d1.length := by
        have := congrArg List.length hk; simpa [PyDict.keys] using this
      split
      · rename_i he
        simp only [true_iff]
        rw [List.isEmpty_iff, List.append_eq_nil_iff] at he
        obtain ⟨h1, h2⟩ := he
        subst h1
        have : d1 = [] := by simpa using hlen.symm
        refine ⟨this, ?_⟩
        simpa [PyDict.has] using h2
      · rename_i he
        simp only [reduceCtorEq, false_iff]
        rintro ⟨rfl, rfl⟩
        apply he
        have : items = [] := by simpa using hlen
        simp [this]
    · intro its hr k
      unfold assemble at hr
      simp only at hr
      split at hr
      · cases hr
      · simp only [Diff.dict.injEq] at hr
        subst hr
        rw [get?_append_map]
        have hvk := hv k
        cases h1 : PyDict.get? d1 k with
        | some v =>
          rw [h1] at hvk
          obtain ⟨x, hx, hd⟩ := hvk
          simp only [hx]
          exact ⟨x, rfl, hd⟩
        | none =>
          rw [h1] at hvk
          simp only at hvk
          rw [hvk]
          cases PyDict.get? d2 k <;> rfl
    · intro hne
      unfold assemble at hne ⊢
      simp only at hne ⊢
      split
      · rename_i he; rw [if_pos he] at hne; exact absurd rfl hne
      · exact ⟨_, rfl⟩

/-- **C28** Dictionaries with unrelated keys: the three parts hold exactly the keys only in the first
(with their values), the shared keys (with their difference), and the keys only in the second. -/
theorem C28_dicts_three_parts (d1 d2 : List (String × PV α)) (l r : List (String × PV α))
    (s : List (String × Diff α)) (h : diffDicts' (some d1) (some d2) = .ok (.parts l s r)) (k : String) :
    (PyDict.get? l k = if PyDict.has d2 k then none else PyDict.get? d1 k) ∧
    (PyDict.get? r k = if PyDict.has d1 k then none else PyDict.get? d2 k) ∧
    (match PyDict.get? d1 k, PyDict.get? d2 k with
      | some v, some w => ∃ x, PyDict.get? s k = some x ∧ diffVal' v w = .ok x
      | _, _ => PyDict.get? s k = none) := by
  unfold diffDicts' at h
  simp only [Option.getD_some, diffVal'_dict] at h
  cases hi : diffShared d1 d2 with
  | error e => rw [hi] at h; cases h
  | ok shared =>
    rw [hi] at h
    simp only [Except.ok.injEq] at h
    unfold assemble' at h
    split at h
    · cases h
    · simp only [Diff.parts.injEq] at h
      obtain ⟨rfl, rfl, rfl⟩ := h
      have hf : ∀ (d e : List (String × PV α)),
          PyDict.get? (d.filter fun kv => !PyDict.has e kv.1) k =
            if PyDict.has e k then none else PyDict.get? d k := by
        intro d e
        induction d with
        | nil => simp
        | cons p d ih =>
          obtain ⟨x, y⟩ := p
          rw [List.filter_cons]
          by_cases hx : x = k
          · subst hx
            cases hh : PyDict.has e x
            · simp [PyDict.get?]
            · simp only [Bool.not_true, Bool.false_eq_true, if_false, ih, hh, if_true]
          · split
            · simp only [PyDict.get?, if_neg hx, ih]
            · simp only [PyDict.get?, if_neg hx, ih]
      exact ⟨hf d1 d2, hf d2 d1, diffShared_spec d1 d2 _ hi k⟩

omit [DecidableEq α] in
private theorem self_num (q : ℚ) : diffNumbers (α := α) (.num (.fin q)) (.num (.fin q)) = .ok .unchanged := by
  simp [diffNumbers, PV.asNum, Num.ne]

private theorem self_list (l : List α) : diffLists (some l) (some l) = .unchanged :=
  (C28_lists_unchanged_partial l l).2 (List.Perm.refl _)

/-- **C28** Comparing a report with itself never fails and says "unchanged" everywhere (as long as it
contains no NaN). -/
theorem C28_self_unchanged (v : PV α) (hv : Proper v) :
    (∃ r, diffVal v v = .ok r ∧ AllUnchanged r) ∧ (∃ r, diffVal' v v = .ok r ∧ AllUnchanged r) := by
  induction hv with
  | none => exact ⟨⟨_, by rw [diffVal] <;> first | rfl | simp, .leaf⟩,
      ⟨_, by rw [diffVal'] <;> first | rfl | simp, .leaf⟩⟩
  | num q => exact ⟨⟨_, by rw [diffVal, self_num] <;> simp, .leaf⟩,
      ⟨_, by rw [diffVal', self_num] <;> simp, .leaf⟩⟩
  | bool b =>
    refine ⟨⟨.unchanged, ?_, .leaf⟩, ⟨.unchanged, ?_, .leaf⟩⟩
    · rw [diffVal] <;> simp [diffNumbers, PV.asNum, Num.ne]
    · rw [diffVal']; simp [diffBools]
  | str s => exact ⟨⟨_, by rw [diffVal], by simp [diffStrings]; exact .leaf⟩,
      ⟨_, by rw [diffVal'], by simp [diffStrings]; exact .leaf⟩⟩
  | list l => exact ⟨⟨_, by rw [diffVal, self_list], .leaf⟩, ⟨_, by rw [diffVal', self_list], .leaf⟩⟩
  | date t => exact ⟨⟨_, by rw [diffVal], by simp [diffDates]; exact .leaf⟩,
      ⟨_, by rw [diffVal'], by simp [diffDates]; exact .leaf⟩⟩
  | @dict items hwf _ ih =>
    -- the loops over a suffix of the dictionary
    have h1 : ∀ suf, (∀ kv ∈ suf, kv ∈ items) → ∃ rs, diffItems suf items = .ok rs ∧
        ∀ kv ∈ rs, AllUnchanged kv.2 := by
      intro suf
      induction suf with
      | nil => intro _; exact ⟨[], by rw [diffItems], by simp⟩
      | cons p suf ihs =>
        intro hs
        obtain ⟨k, v⟩ := p
        obtain ⟨rs, hrs, hall⟩ := ihs (fun kv h => hs kv (List.mem_cons_of_mem _ h))
        have hm := hs (k, v) (by simp)
        obtain ⟨⟨r, hr, hu⟩, _⟩ := ih (k, v) hm
        refine ⟨(k, r) :: rs, ?_, ?_⟩
        · rw [diffItems_cons, PyDict.get?_of_mem hwf hm]
          simp only [Option.getD_some]
          simp only at hr
          rw [hr, hrs]
        · intro kv hkv
          rcases List.mem_cons.1 hkv with rfl | h
          · exact hu
          · exact hall kv h
    have h2 : ∀ suf, (∀ kv ∈ suf, kv ∈ items) → ∃ rs, diffShared suf items = .ok rs ∧
        ∀ kv ∈ rs, AllUnchanged kv.2 := by
      intro suf
      induction suf with
      | nil => intro _; exact ⟨[], by rw [diffShared], by simp⟩
      | cons p suf ihs =>
        intro hs
        obtain ⟨k, v⟩ := p
        obtain ⟨rs, hrs, hall⟩ := ihs (fun kv h => hs kv (List.mem_cons_of_mem _ h))
        have hm := hs (k, v) (by simp)
        obtain ⟨_, ⟨r, hr, hu⟩⟩ := ih (k, v) hm
        refine ⟨(k, r) :: rs, ?_, ?_⟩
        · rw [diffShared_cons, PyDict.get?_of_mem hwf hm]
          simp only
          simp only at hr
          rw [hr, hrs]
        · intro kv hkv
          rcases List.mem_cons.1 hkv with rfl | h
          · exact hu
          · exact hall kv h
    have hempty : (items.filter fun kv => !PyDict.has items kv.1) = [] := by
      rw [List.filter_eq_nil_iff]
      intro kv hkv
      have : PyDict.has items kv.1 = true :=
        (PyDict.has_iff items kv.1).2 (List.mem_map.2 ⟨kv, hkv, rfl⟩)
      simp [this]
    constructor
    · obtain ⟨rs, hrs, hall⟩ := h1 items (fun _ h => h)
      refine ⟨assemble rs items, by rw [diffVal_dict, hrs], ?_⟩
      have hk := (diffItems_spec items items rs hrs).1
      have he : (items.filter fun kv => !PyDict.has rs kv.1) = [] := by
        rw [List.filter_eq_nil_iff]
        intro kv hkv
        have : PyDict.has rs kv.1 = true :=
          (PyDict.has_iff rs kv.1).2 (by rw [hk]; exact List.mem_map.2 ⟨kv, hkv, rfl⟩)
        simp [this]
      unfold assemble
      rw [he]
      simp only [List.map_nil, List.append_nil]
      split
      · exact .leaf
      · exact .dict hall
    · obtain ⟨rs, hrs, hall⟩ := h2 items (fun _ h => h)
      refine ⟨_, by rw [diffVal'_dict, hrs], ?_⟩
      rw [hempty]
      unfold assemble'
      split
      · exact .leaf
      · exact .parts hall

omit [DecidableEq α] in
private theorem numbers_unchanged (a b : PV α) (h : diffNumbers a b = .ok .unchanged) : Same a b := by
  unfold diffNumbers at h
  split at h
  · exact .none
  · cases h
  · cases h
  · split at h
    · rename_i x y hx hy
      split at h
      · cases h
      · rename_i hne
        obtain ⟨q, rfl, rfl⟩ := (Num.ne_false_iff x y).1 (by simpa using hne)
        exact .num q hx hy
    · cases h

omit [DecidableEq α] in
private theorem numbers_not_dict (a b : PV α) (items : List (String × Diff α)) :
    diffNumbers a b ≠ .ok (.dict items) := by
  unfold diffNumbers; repeat' split
  all_goals simp

omit [DecidableEq α] in
private theorem numbers_not_parts (a b : PV α) (l r : List (String × PV α)) (items : List (String × Diff α)) :
    diffNumbers a b ≠ .ok (.parts l items r) := by
  unfold diffNumbers; repeat' split
  all_goals simp

private theorem lists_shape (a b : Option (List α)) :
    (∀ items, diffLists a b ≠ .dict items) ∧ (∀ l s r, diffLists a b ≠ .parts l s r) := by
  unfold diffLists
  constructor <;> intros <;> (repeat' split) <;> simp

omit [DecidableEq α] in
private theorem dates_shape (a b : Option ℤ) :
    (∀ items, diffDates (α := α) a b ≠ .dict items) ∧ (∀ l s r, diffDates (α := α) a b ≠ .parts l s r) := by
  unfold diffDates
  constructor <;> intros <;> (repeat' split) <;> simp

omit [DecidableEq α] in
private theorem strings_shape (a b : Option String) :
    (∀ items, diffStrings (α := α) a b ≠ .dict items) ∧
    (∀ l s r, diffStrings (α := α) a b ≠ .parts l s r) := by
  unfold diffStrings
  constructor <;> intros <;> (repeat' split) <;> simp

omit [DecidableEq α] in
private theorem bools_shape (a b : Bool) :
    (∀ items, diffBools (α := α) a b ≠ .dict items) ∧
    (∀ l s r, diffBools (α := α) a b ≠ .parts l s r) := by
  unfold diffBools
  constructor <;> intros <;> (repeat' split) <;> simp

/-- **C28** If a comparison says "unchanged" everywhere, the two reports agree: no change is hidden
(list multiplicities excepted, see `C28_lists_multiplicity_fails`). -/
theorem C28_unchanged_means_same (v w : PV α) (r : Diff α) (h : diffVal v w = .ok r)
    (hu : AllUnchanged r) : Same v w := by
  induction hu generalizing v w with
  | leaf =>
    unfold diffVal at h
    split at h
    · rename_i a b
      simp only [Except.ok.injEq] at h
      obtain ⟨h1, h2⟩ := (C28_lists_unchanged_partial a b).1.1 h
      exact .list h1 h2
    · simp [diffLists] at h
    · cases h
    · rename_i a b
      simp only [Except.ok.injEq] at h
      rw [(C28_dates a b).1] at h; subst h; exact .date a
    · simp [diffDates] at h
    · cases h
    · rename_i a b
      simp only [Except.ok.injEq] at h
      have := ((C28_strings_bools (some a) (some b) true true).1).1 h
      cases this; exact .str a
    · cases h
    · rename_i d1 d2
      have hd : diffDicts (some d1) (some d2) = .ok .unchanged := by
        unfold diffDicts; simp only [Option.getD_some]; rw [diffVal]; exact h
      obtain ⟨rfl, rfl⟩ := ((C28_dicts d1 d2 _ hd).1).1 rfl
      exact .dict (by simp) (by simp)
    · exact numbers_unchanged v w h
  | @dict items hall ih =>
    unfold diffVal at h
    split at h
    · simp only [Except.ok.injEq] at h; exact absurd h ((lists_shape _ _).1 _)
    · simp only [Except.ok.injEq] at h; exact absurd h ((lists_shape _ _).1 _)
    · cases h
    · simp only [Except.ok.injEq] at h; exact absurd h ((dates_shape _ _).1 _)
    · simp only [Except.ok.injEq] at h; exact absurd h ((dates_shape _ _).1 _)
    · cases h
    · simp only [Except.ok.injEq] at h; exact absurd h ((strings_shape _ _).1 _)
    · cases h
    · rename_i d1 d2
      have hd : diffDicts (some d1) (some d2) = .ok (.dict items) := by
        unfold diffDicts; simp only [Option.getD_some]; rw [diffVal]; exact h
      have hk := (C28_dicts d1 d2 _ hd).2.1 items rfl
      refine .dict ?_ ?_
      · intro k v hv
        have := hk k
        rw [hv] at this
        obtain ⟨x, hx, hdx⟩ := this
        exact ih _ (PyDict.mem_of_get? hx) _ _ hdx
      · intro k hn
        have := hk k
        rw [hn] at this
        cases hw : PyDict.get? d2 k with
        | none => rfl
        | some w =>
          rw [hw] at this
          have := hall _ (PyDict.mem_of_get? this)
          cases this
    · exact absurd h (numbers_not_dict _ _ _)
  | @parts shared hall ih =>
    unfold diffVal at h
    split at h
    · simp only [Except.ok.injEq] at h; exact absurd h ((lists_shape _ _).2 _ _ _)
    · simp only [Except.ok.injEq] at h; exact absurd h ((lists_shape _ _).2 _ _ _)
    · cases h
    · simp only [Except.ok.injEq] at h; exact absurd h ((dates_shape _ _).2 _ _ _)
    · simp only [Except.ok.injEq] at h; exact absurd h ((dates_shape _ _).2 _ _ _)
    · cases h
    · simp only [Except.ok.injEq] at h; exact absurd h ((strings_shape _ _).2 _ _ _)
    · cases h
    · rename_i d1 d2
      have hd : diffDicts (some d1) (some d2) = .ok (.parts [] shared []) := by
        unfold diffDicts; simp only [Option.getD_some]; rw [diffVal]; exact h
      obtain ⟨items, hc⟩ := (C28_dicts d1 d2 _ hd).2.2 (by simp)
      cases hc
    · exact absurd h (numbers_not_parts _ _ _ _ _)

/-- **C28** The three-part comparison is "unchanged" exactly for two empty dictionaries. -/
theorem C28_three_parts_unchanged (d1 d2 : List (String × PV α)) :
    diffDicts' (some d1) (some d2) = .ok .unchanged ↔ d1 = [] ∧ d2 = [] := by
  unfold diffDicts'
  simp only [Option.getD_some, diffVal'_dict]
  constructor
  · intro h
    cases hi : diffShared d1 d2 with
    | error e => rw [hi] at h; cases h
    | ok shared =>
      rw [hi] at h
      simp only [Except.ok.injEq, assemble'] at h
      split at h
      · rename_i he
        simp only [Bool.and_eq_true, List.isEmpty_iff] at he
        obtain ⟨⟨h1, rfl⟩, h2⟩ := he
        have hd1 : d1 = [] := by
          cases d1 with
          | nil => rfl
          | cons p d1 =>
            obtain ⟨k, v⟩ := p
            have := diffShared_spec _ d2 [] hi k
            have hk : PyDict.has d2 k = true := by
              rw [List.filter_eq_nil_iff] at h1
              simpa using h1 (k, v) (by simp)
            simp only [PyDict.has, Option.isSome_iff_exists] at hk
            obtain ⟨w, hw⟩ := hk
            rw [hw] at this
            simp [PyDict.get?] at this
        subst hd1
        refine ⟨rfl, ?_⟩
        simpa [PyDict.has] using h2
      · cases h
  · rintro ⟨rfl, rfl⟩
    simp [diffShared, assemble']

/-- **C28** The same for the three-part comparison. -/
theorem C28_three_parts_unchanged_means_same (v w : PV α) (r : Diff α) (h : diffVal' v w = .ok r)
    (hu : AllUnchanged r) : Same v w := by
  induction hu generalizing v w with
  | leaf =>
    unfold diffVal' at h
    split at h
    · rename_i a b
      simp only [Except.ok.injEq] at h
      obtain ⟨h1, h2⟩ := (C28_lists_unchanged_partial a b).1.1 h
      exact .list h1 h2
    · simp [diffLists] at h
    · cases h
    · rename_i a b
      simp only [Except.ok.injEq] at h
      rw [(C28_dates a b).1] at h; subst h; exact .date a
    · simp [diffDates] at h
    · cases h
    · rename_i a b
      simp only [Except.ok.injEq] at h
      have := ((C28_strings_bools (some a) (some b) true true).1).1 h
      cases this; exact .str a
    · cases h
    · rename_i a b
      simp only [Except.ok.injEq] at h
      have := ((C28_strings_bools none none a b).2.2.1).1 h
      subst this
      exact .num _ rfl rfl
    · rename_i a x
      simp only [Except.ok.injEq] at h
      by_cases hne : Num.ne (.fin (if a then 1 else 0)) x = true
      · rw [if_pos hne] at h; cases h
      · obtain ⟨q, h1, rfl⟩ := (Num.ne_false_iff _ x).1 (by simpa using hne)
        exact .num q (congrArg some h1) rfl
    · cases h
    · rename_i d1 d2
      have hd : diffDicts' (some d1) (some d2) = .ok .unchanged := by
        unfold diffDicts'; simp only [Option.getD_some]; rw [diffVal']; exact h
      obtain ⟨rfl, rfl⟩ := (C28_three_parts_unchanged d1 d2).1 hd
      exact .dict (by simp) (by simp)
    · exact numbers_unchanged v w h
  | @dict items hall ih =>
    exfalso
    unfold diffVal' at h
    split at h
    · simp only [Except.ok.injEq] at h; exact absurd h ((lists_shape _ _).1 _)
    · simp only [Except.ok.injEq] at h; exact absurd h ((lists_shape _ _).1 _)
    · cases h
    · simp only [Except.ok.injEq] at h; exact absurd h ((dates_shape _ _).1 _)
    · simp only [Except.ok.injEq] at h; exact absurd h ((dates_shape _ _).1 _)
    · cases h
    · simp only [Except.ok.injEq] at h; exact absurd h ((strings_shape _ _).1 _)
    · cases h
    · simp only [Except.ok.injEq] at h; exact absurd h ((bools_shape _ _).1 _)
    · rename_i a x
      simp only [Except.ok.injEq] at h
      by_cases hne : Num.ne (.fin (if a then 1 else 0)) x = true
      · rw [if_pos hne] at h; cases h
      · rw [if_neg hne] at h; cases h
    · cases h
    · rename_i d1 d2
      cases hs : diffShared d1 d2 with
      | error e => rw [hs] at h; cases h
      | ok s =>
        rw [hs] at h
        simp only [bind, Except.bind, Except.ok.injEq, assemble'] at h
        split at h <;> cases h
    · exact absurd h (numbers_not_dict _ _ _)
  | @parts shared hall ih =>
    unfold diffVal' at h
    split at h
    · simp only [Except.ok.injEq] at h; exact absurd h ((lists_shape _ _).2 _ _ _)
    · simp only [Except.ok.injEq] at h; exact absurd h ((lists_shape _ _).2 _ _ _)
    · cases h
    · simp only [Except.ok.injEq] at h; exact absurd h ((dates_shape _ _).2 _ _ _)
    · simp only [Except.ok.injEq] at h; exact absurd h ((dates_shape _ _).2 _ _ _)
    · cases h
    · simp only [Except.ok.injEq] at h; exact absurd h ((strings_shape _ _).2 _ _ _)
    · cases h
    · simp only [Except.ok.injEq] at h; exact absurd h ((bools_shape _ _).2 _ _ _)
    · rename_i a x
      simp only [Except.ok.injEq] at h
      by_cases hne : Num.ne (.fin (if a then 1 else 0)) x = true
      · rw [if_pos hne] at h; cases h
      · rw [if_neg hne] at h; cases h
    · cases h
    · rename_i d1 d2
      have hd : diffDicts' (some d1) (some d2) = .ok (.parts [] shared []) := by
        unfold diffDicts'; simp only [Option.getD_some]; rw [diffVal']; exact h
      have hk := C28_dicts_three_parts d1 d2 [] [] shared hd
      refine .dict ?_ ?_
      · intro k v hv
        obtain ⟨h1, _, h3⟩ := hk k
        rw [hv] at h3 h1
        cases hw : PyDict.get? d2 k with
        | none => simp [PyDict.has, hw] at h1
        | some w =>
          rw [hw] at h3
          obtain ⟨x, hx, hdx⟩ := h3
          exact ih _ (PyDict.mem_of_get? hx) _ _ hdx
      · intro k hn
        obtain ⟨_, h2, _⟩ := hk k
        have : PyDict.has d1 k = false := by simp [PyDict.has, hn]
        rw [this] at h2
        simpa using h2.symm
    · exact absurd h (numbers_not_parts _ _ _ _ _)

/-- A NaN statistic differs from itself: the NaN hypothesis above is needed. -/
theorem C28_nan_self_fails :
    diffVal (α := α) (.num .nan) (.num .nan) = .ok (.num .nan) := by
  rw [diffVal] <;> simp [diffNumbers, PV.asNum, Num.ne, Num.sub]

end

/-- **C28** Matrices of equal shape: "unchanged" exactly when every difference is 0 or NaN; otherwise
the entrywise difference. Different shapes or a missing matrix give `None`. -/
theorem C28_matrices (a b : Matrix) :
    (a.map List.length ≠ b.map List.length → diffMatrices (some a) (some b) = .none) ∧
    (a.map List.length = b.map List.length →
      (diffMatrices (some a) (some b) = .unchanged ↔
        ∀ row ∈ List.zipWith (List.zipWith Num.sub) a b, ∀ x ∈ row, x = .fin 0 ∨ x = .nan) ∧
      (∀ m, diffMatrices (some a) (some b) = .diff m →
        m = List.zipWith (List.zipWith Num.sub) a b)) ∧
    diffMatrices none (some b) = .none ∧ diffMatrices (some a) none = .none := by
  refine ⟨?_, ?_, rfl, rfl⟩
  · intro h
    simp [diffMatrices, sameShape, h]
  · intro h
    have hs : sameShape a b = true := by simp [sameShape, h]
    constructor
    · simp only [diffMatrices, hs, if_true]
      split
      · rename_i hall
        simp only [true_iff]
        simpa [matSub] using hall
      · rename_i hall
        simp only [reduceCtorEq, false_iff]
        intro hc; apply hall
        simpa [matSub] using hc
    · intro m hm
      simp only [diffMatrices, hs, if_true] at hm
      split at hm
      · cases hm
      · cases hm; rfl

/-- A correlation that is missing on one side only is reported as unchanged. -/
theorem C28_matrix_nan_hides_change :
    diffMatrices (some [[.fin 1, .nan]]) (some [[.fin 1, .fin (1/2)]]) = .unchanged := by
  rw [((C28_matrices [[.fin 1, .nan]] [[.fin 1, .fin (1/2)]]).2.1 rfl).1]
  simp [Num.sub]

/-- A concrete report and its comparison with a changed one. -/
example : diffDicts (α := String)
    (some [("n", .num (.fin 3)), ("t", .str "int"), ("c", .list ["a", "b"])])
    (some [("n", .num (.fin 1)), ("t", .str "int"), ("x", .none)]) =
    .ok (.dict [("n", .num (.fin 2)), ("t", .unchanged), ("c", .pair (.list ["a", "b"]) .none),
      ("x", .pair .none .none)]) := by
  have h1 : diffVal (α := String) (.num (.fin 3)) (.num (.fin 1)) = .ok (.num (.fin 2)) := by
    rw [diffVal] <;> first | simp | skip
    simp only [diffNumbers, PV.asNum, Num.ne, Num.sub]; norm_num
  have h2 : diffVal (α := String) (.str "int") (.str "int") = .ok .unchanged := by
    rw [diffVal]; simp [diffStrings]
  have h3 : diffVal (α := String) (.list ["a", "b"]) .none = .ok (.pair (.list ["a", "b"]) .none) := by
    rw [diffVal]; simp [diffLists]
  have h4 : diffItems (α := String) [] [("n", .num (.fin 1)), ("t", .str "int"), ("x", .none)] = .ok [] := by
    rw [diffItems]
  simp [diffDicts, diffVal_dict, diffItems_cons, PyDict.get?, h1, h2, h3, h4, assemble, PyDict.has]

end Verif.Diffs
