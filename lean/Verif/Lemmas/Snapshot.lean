import Verif.Spec.Snapshot

/-!
# Lemmas on shared objects
-/

namespace Verif.Lemmas.Snapshot

open Verif.Snapshot Verif.Spec.Snapshot

variable {α : Type}

theorem not_reach_scalar {i : Nat} {a : α} : ¬ Reach i (R.scalar a) := by intro h; cases h

theorem reach_new_dict {i : Nat} {items : List (String × R α)} (h : Reach i (.dict none items)) :
    ∃ k v, (k, v) ∈ items ∧ Reach i v := by
  cases h with
  | value _ _ k v hm hr => exact ⟨k, v, hm, hr⟩

theorem reach_new_seq {i : Nat} {kind : Kind} {items : List (R α)} (h : Reach i (.seq none kind items)) :
    ∃ v, v ∈ items ∧ Reach i v := by
  cases h with
  | item _ _ _ v hm hr => exact ⟨v, hm, hr⟩

theorem reach_scalar_iff {i : Nat} {a : α} : Reach i (R.scalar a) ↔ False := ⟨not_reach_scalar, False.elim⟩

theorem reach_dict_iff {i : Nat} {a : Option Nat} {items : List (String × R α)} :
    Reach i (.dict a items) ↔ a = some i ∨ ∃ kv ∈ items, Reach i kv.2 := by
  constructor
  · intro h
    cases h with
    | dict => exact .inl rfl
    | value _ _ k v hm hr => exact .inr ⟨(k, v), hm, hr⟩
  · rintro (rfl | ⟨⟨k, v⟩, hm, hr⟩)
    · exact .dict _
    · exact .value _ _ k v hm hr

theorem reach_seq_iff {i : Nat} {a : Option Nat} {kind : Kind} {items : List (R α)} :
    Reach i (.seq a kind items) ↔ a = some i ∨ ∃ v ∈ items, Reach i v := by
  constructor
  · intro h
    cases h with
    | seq => exact .inl rfl
    | item _ _ _ v hm hr => exact .inr ⟨v, hm, hr⟩
  · rintro (rfl | ⟨v, hm, hr⟩)
    · exact .seq _ _
    · exact .item _ _ _ v hm hr

theorem via_scalar_iff {keep : Kind → List (R α) → Prop} {i : Nat} {a : α} : Via keep i (R.scalar a) ↔ False :=
  ⟨fun h => (by cases h), False.elim⟩

/-- An entry that is handed on. -/
def Held (keep : Kind → List (R α) → Prop) (i : Nat) (k : String) (v : R α) : Prop :=
  (k = "profile_schema" ∧ Reach i v) ∨ (k ≠ "data_stats" ∧ ∃ b kind xs, v = .seq b kind xs ∧ keep kind xs ∧ Reach i v) ∨
    Via keep i v

theorem held_via {keep : Kind → List (R α) → Prop} {i : Nat} {k : String} {v : R α} {a : Option Nat}
    {items : List (String × R α)} (hm : (k, v) ∈ items) (h : Held keep i k v) : Via keep i (.dict a items) := by
  rcases h with ⟨rfl, h⟩ | ⟨hk, b, kind, xs, rfl, hkeep, h⟩ | h
  · exact .schema _ _ _ hm h
  · exact .whole _ _ _ _ _ _ hm hk hkeep h
  · exact .value _ _ _ _ hm h

theorem via_dict_iff {keep : Kind → List (R α) → Prop} {i : Nat} {a : Option Nat} {items : List (String × R α)} :
    Via keep i (.dict a items) ↔ ∃ kv ∈ items, Held keep i kv.1 kv.2 := by
  constructor
  · intro h
    cases h with
    | schema _ _ v hm hr => exact ⟨_, hm, .inl ⟨rfl, hr⟩⟩
    | whole _ _ k b kind xs hm hk hkeep hr => exact ⟨_, hm, .inr (.inl ⟨hk, b, kind, xs, rfl, hkeep, hr⟩)⟩
    | value _ _ k v hm hr => exact ⟨(k, v), hm, .inr (.inr hr)⟩
  · rintro ⟨⟨k, v⟩, hm, h⟩
    exact held_via hm h

theorem via_seq_iff {keep : Kind → List (R α) → Prop} {i : Nat} {a : Option Nat} {kind : Kind} {items : List (R α)} :
    Via keep i (.seq a kind items) ↔ ∃ v ∈ items, Via keep i v := by
  constructor
  · intro h
    cases h with
    | item _ _ _ v hm hr => exact ⟨v, hm, hr⟩
  · rintro ⟨v, hm, hr⟩
    exact .item _ _ _ v hm hr

mutual
theorem toList_new {i : Nat} : ∀ (r : R α), WF r → ((∃ x, r = .scalar x) ∨ ∃ b ys, r = .seq b .array ys) → ¬ Reach i (toList r)
  | .scalar a, _, _ => by simpa [toList] using not_reach_scalar
  | .dict _ _, _, h => by rcases h with ⟨x, h⟩ | ⟨b, ys, h⟩ <;> cases h
  | .seq a .array items, hw, _ => by
    intro h
    rw [toList] at h
    obtain ⟨v, hm, hr⟩ := reach_new_seq h
    cases hw with
    | seq _ _ _ h1 _ h3 => exact toLists_new items h1 (h3 rfl) v hm hr
  | .seq _ .list _, _, h => by rcases h with ⟨x, h⟩ | ⟨b, ys, h⟩ <;> cases h
  | .seq _ .set _, _, h => by rcases h with ⟨x, h⟩ | ⟨b, ys, h⟩ <;> cases h

theorem toLists_new {i : Nat} : ∀ (rs : List (R α)), (∀ v, v ∈ rs → WF v) →
    (∀ v ∈ rs, (∃ x, v = .scalar x) ∨ ∃ b ys, v = .seq b .array ys) → ∀ v ∈ toLists rs, ¬ Reach i v
  | [], _, _ => by simp [toLists]
  | r :: rs, h1, h2 => by
    intro v hv
    rw [toLists, List.mem_cons] at hv
    rcases hv with rfl | hv
    · exact toList_new r (h1 r (by simp)) (h2 r (by simp))
    · exact toLists_new rs (fun v hv => h1 v (by simp [hv])) (fun v hv => h2 v (by simp [hv])) v hv
end

theorem cleanSchema_reach {lib : Lib α} {i : Nat} {r : R α} (h : Reach i (cleanSchema lib r)) : Reach i r := by
  cases r with
  | scalar a => exact h
  | seq a k xs => exact h
  | dict a items =>
    obtain ⟨k, v, hm, hr⟩ := reach_new_dict h
    obtain ⟨⟨k', v'⟩, hm', he⟩ := List.mem_map.1 hm
    cases he
    exact .value _ _ k' _ hm' hr

theorem schema_reach {lib : Lib α} {fmt : Fmt} {i : Nat} {r : R α} (h : Reach i (schema lib fmt r)) : Reach i r := by
  unfold schema at h
  split at h
  · exact h
  · split at h
    · obtain ⟨v, hm, hr⟩ := reach_new_seq h
      obtain ⟨w, hw, rfl⟩ := List.mem_map.1 hm
      exact .item _ _ _ w hw (cleanSchema_reach hr)
    · exact cleanSchema_reach h

theorem sorted_new {lib : Lib α} (hs : ∀ xs v, v ∈ lib.sorted xs → v ∈ xs) {i : Nat} {xs : List (R α)}
    (h : ∀ v ∈ xs, ∃ x, v = .scalar x) : ¬ Reach i (.seq none .list (lib.sorted xs)) := by
  intro hr
  obtain ⟨v, hm, hr⟩ := reach_new_seq hr
  obtain ⟨x, rfl⟩ := h v (hs _ _ hm)
  exact not_reach_scalar hr

section
variable {lib : Lib α} (hs : ∀ xs v, v ∈ lib.sorted xs → v ∈ xs) {fmt : Fmt} {keep : Kind → List (R α) → Prop} {i : Nat}
  (hp : fmt = .plain → ∀ k xs, k ≠ .set → keep k xs) (hl : fmt = .serializable → ∀ xs, xs.all isDict = false → keep .list xs)

include hs hp hl

mutual
theorem items_via : ∀ (items : List (String × R α)), (∀ k v, (k, v) ∈ items → WF v) →
    (∀ b kind xs, ("data_stats", .seq b kind xs) ∈ items → kind = .list ∧ ∀ x ∈ xs, ∃ c ds, x = .dict c ds) →
    ∀ k v, (k, v) ∈ prepareItems lib fmt items → Reach i v →
    ∃ w, (k, w) ∈ items ∧ Held keep i k w
  | [], _, _, k, v, hm, _ => by simp [prepareItems] at hm
  | (k₀, v₀) :: rest, h1, h2, k, v, hm, hr => by
    rw [prepareItems, List.mem_cons] at hm
    rcases hm with he | hm
    · cases he
      exact ⟨v₀, by simp, value_via k₀ v₀ (h1 k₀ v₀ (by simp))
        (fun b kind xs e1 e2 => h2 b kind xs (by rw [← e1, ← e2]; simp)) hr⟩
    · obtain ⟨w, hw, h⟩ := items_via rest (fun k v h => h1 k v (by simp [h]))
        (fun b kind xs h => h2 b kind xs (by simp [h])) k v hm hr
      exact ⟨w, by simp [hw], h⟩

theorem value_via : ∀ (k : String) (v : R α), WF v →
    (∀ b kind xs, k = "data_stats" → v = .seq b kind xs → kind = .list ∧ ∀ x ∈ xs, ∃ c ds, x = .dict c ds) →
    Reach i (prepareValue lib fmt k v) → Held keep i k v
  | k, .scalar a, _, _, h => by
    rw [prepareValue] at h
    exact absurd h not_reach_scalar
  | k, .dict a items, hw, _, h => by
    rw [prepareValue] at h
    split at h
    · exact .inl ⟨‹_›, schema_reach h⟩
    · obtain ⟨k', v', hm, hr⟩ := reach_new_dict h
      cases hw with
      | dict _ _ h1 h2 =>
        obtain ⟨w, hw, h⟩ := items_via items h1 h2 k' v' hm hr
        exact .inr (.inr (held_via hw h))
  | k, .seq a kind items, hw, hd, h => by
    cases hw with
    | seq _ _ _ h1 h2 h3 =>
    rw [prepareValue] at h
    split at h
    · rename_i hk
      obtain ⟨v, hm, hr⟩ := reach_new_seq h
      obtain ⟨w, hw, h⟩ := all_via items h1 (hd a kind items hk.1 rfl).2 v hm hr
      exact .inr (.inr (.item _ _ _ w hw h))
    split at h
    · refine .inl ⟨‹_›, ?_⟩
      have h := schema_reach h
      split at h
      · exact absurd h (sorted_new hs (h2 ‹_›))
      · exact h
    split at h
    · rename_i hall
      obtain ⟨v, hm, hr⟩ := reach_new_seq h
      obtain ⟨w, hw, h⟩ := all_via items h1 (fun x hx => by
        have := List.all_eq_true.1 hall.2 x hx
        cases x <;> simp [isDict] at this
        exact ⟨_, _, rfl⟩) v hm hr
      exact .inr (.inr (.item _ _ _ w hw h))
    split at h
    · exact absurd h not_reach_scalar
    split at h
    · exact absurd h (sorted_new hs (h2 ‹_›))
    split at h
    · rename_i hsa
      obtain ⟨-, rfl⟩ := hsa
      exact absurd h (toList_new _ (.seq _ _ _ h1 h2 h3) (.inr ⟨_, _, rfl⟩))
    · rename_i hdata _ hall hpretty hset harr
      have hk : k ≠ "data_stats" := fun e => hdata ⟨e, by rw [(hd a kind items e rfl).1]; decide⟩
      refine .inr (.inl ⟨hk, a, kind, items, rfl, ?_, h⟩)
      cases hf : fmt with
      | plain => exact hp hf kind items hset
      | pretty => exact absurd hf hpretty
      | serializable =>
        cases kind with
        | list => exact hl hf items (by simpa [hf] using hall)
        | array => exact absurd ⟨hf, rfl⟩ harr
        | set => exact absurd rfl hset

theorem all_via : ∀ (xs : List (R α)), (∀ v, v ∈ xs → WF v) → (∀ x ∈ xs, ∃ c ds, x = .dict c ds) →
    ∀ v, v ∈ prepareAll lib fmt xs → Reach i v → ∃ w, w ∈ xs ∧ Via keep i w
  | [], _, _, v, hm, _ => by simp [prepareAll] at hm
  | .scalar a :: rest, _, hd, v, hm, hr => by
    obtain ⟨c, ds, h⟩ := hd (.scalar a) (by simp)
    cases h
  | .seq a k ys :: rest, _, hd, v, hm, hr => by
    obtain ⟨c, ds, h⟩ := hd (.seq a k ys) (by simp)
    cases h
  | .dict a items :: rest, h1, hd, v, hm, hr => by
    rw [prepareAll, List.mem_cons] at hm
    rcases hm with rfl | hm
    · obtain ⟨k', v', hm, hr⟩ := reach_new_dict hr
      have hw := h1 (.dict a items) (by simp)
      cases hw with
      | dict _ _ h1 h2 =>
        obtain ⟨w, hw, h⟩ := items_via items h1 h2 k' v' hm hr
        exact ⟨.dict a items, by simp, held_via hw h⟩
    · obtain ⟨w, hw, h⟩ := all_via rest (fun v h => h1 v (by simp [h])) (fun v h => hd v (by simp [h])) v hm hr
      exact ⟨w, by simp [hw], h⟩
end

theorem prepare_via {a : Option Nat} {items : List (String × R α)} (hw : WF (.dict a items))
    (h : Reach i (prepare lib fmt items)) : Via keep i (.dict a items) := by
  obtain ⟨k, v, hm, hr⟩ := reach_new_dict h
  cases hw with
  | dict _ _ h1 h2 =>
    obtain ⟨w, hw, h⟩ := items_via hs hp hl items h1 h2 k v hm hr
    exact held_via hw h

end

/-! ### What is shared -/

theorem mem_prepareItems {lib : Lib α} {fmt : Fmt} {k : String} {v : R α} :
    ∀ {items : List (String × R α)}, (k, v) ∈ items → (k, prepareValue lib fmt k v) ∈ prepareItems lib fmt items
  | (k₀, v₀) :: rest, h => by
    rw [prepareItems]
    rcases List.mem_cons.1 h with h | h
    · cases h; simp
    · exact List.mem_cons_of_mem _ (mem_prepareItems h)

theorem mem_prepareAll {lib : Lib α} {fmt : Fmt} {b : Option Nat} {ds : List (String × R α)} :
    ∀ {xs : List (R α)}, .dict b ds ∈ xs → .dict none (prepareItems lib fmt ds) ∈ prepareAll lib fmt xs
  | x :: rest, h => by
    rcases List.mem_cons.1 h with h | hr
    · subst h; simp [prepareAll]
    · have ih := mem_prepareAll (lib := lib) (fmt := fmt) hr
      cases x <;> simp only [prepareAll] <;> exact List.mem_cons_of_mem _ ih

theorem entry_reach {lib : Lib α} {fmt : Fmt} {i : Nat} {k : String} {v : R α} (hv : Reach i (prepareValue lib fmt k v))
    {items : List (String × R α)} (h : Entry k v items) : Reach i (prepare lib fmt items) := by
  induction h with
  | here items hm => exact .value _ _ _ _ (mem_prepareItems hm) hv
  | value items k' a ds hm hk _ ih =>
    refine .value _ _ _ _ (mem_prepareItems hm) ?_
    rw [prepareValue, if_neg hk]
    exact ih
  | column items a cols b ds hm hc _ ih =>
    refine .value _ _ _ _ (mem_prepareItems hm) ?_
    rw [prepareValue, if_pos ⟨rfl, by decide⟩]
    exact .item _ _ _ _ (mem_prepareAll hc) ih

/-! ### Changes -/

mutual
theorem poke_same {i : Nat} {ds : List (String × R α)} {xs : List (R α)} :
    ∀ (r : R α), ¬ Reach i r → poke i ds xs r = r
  | .scalar a, _ => by rw [poke]
  | .dict a items, h => by
    have ha : a ≠ some i := fun e => h (e ▸ .dict _)
    rw [poke, if_neg ha, pokeItems_same items fun k v hm hr => h (.value _ _ _ _ hm hr)]
  | .seq a kind items, h => by
    have ha : a ≠ some i := fun e => h (e ▸ .seq _ _)
    rw [poke, if_neg ha, pokeAll_same items fun v hm hr => h (.item _ _ _ _ hm hr)]

theorem pokeItems_same {i : Nat} {ds : List (String × R α)} {xs : List (R α)} :
    ∀ (items : List (String × R α)), (∀ k v, (k, v) ∈ items → ¬ Reach i v) → pokeItems i ds xs items = items
  | [], _ => by rw [pokeItems]
  | (k, v) :: rest, h => by
    rw [pokeItems, poke_same v (h k v (by simp)), pokeItems_same rest fun k v hm => h k v (by simp [hm])]

theorem pokeAll_same {i : Nat} {ds : List (String × R α)} {xs : List (R α)} :
    ∀ (rs : List (R α)), (∀ v, v ∈ rs → ¬ Reach i v) → pokeAll i ds xs rs = rs
  | [], _ => by rw [pokeAll]
  | r :: rest, h => by
    rw [pokeAll, poke_same r (h r (by simp)), pokeAll_same rest fun v hm => h v (by simp [hm])]
end

end Verif.Lemmas.Snapshot
