import Verif.Model.Snapshot

/-!
# Which objects can be reached in a report

Independent of how a report is prepared: what can be reached in a tree of objects, and by which way.
-/

namespace Verif.Spec.Snapshot

open Verif.Snapshot

variable {α : Type}

/-- The object at the address `i` can be reached from the value. -/
inductive Reach (i : Nat) : R α → Prop
  | dict (items) : Reach i (.dict (some i) items)
  | seq (kind items) : Reach i (.seq (some i) kind items)
  | value (a items k v) : (k, v) ∈ items → Reach i v → Reach i (.dict a items)
  | item (a kind items v) : v ∈ items → Reach i v → Reach i (.seq a kind items)

/-- The object at the address `i` is, or is within, the value of an entry `profile_schema`, or a sequence for which `keep` holds
and that is an entry other than `data_stats`. -/
inductive Via (keep : Kind → List (R α) → Prop) (i : Nat) : R α → Prop
  | schema (a items v) : ("profile_schema", v) ∈ items → Reach i v → Via keep i (.dict a items)
  | whole (a items k b kind xs) : (k, .seq b kind xs) ∈ items → k ≠ "data_stats" → keep kind xs →
      Reach i (.seq b kind xs) → Via keep i (.dict a items)
  | value (a items k v) : (k, v) ∈ items → Via keep i v → Via keep i (.dict a items)
  | item (a kind items v) : v ∈ items → Via keep i v → Via keep i (.seq a kind items)

/-- What profiles put into reports: sets hold immutable values, arrays hold immutable values or arrays, and what is
under `data_stats`, if a sequence, is a list of dictionaries. -/
inductive WF : R α → Prop
  | scalar (a) : WF (.scalar a)
  | dict (a items) : (∀ k v, (k, v) ∈ items → WF v) →
      (∀ b kind xs, ("data_stats", .seq b kind xs) ∈ items → kind = .list ∧ ∀ x ∈ xs, ∃ c ds, x = .dict c ds) →
      WF (.dict a items)
  | seq (a kind items) : (∀ v, v ∈ items → WF v) → (kind = .set → ∀ v ∈ items, ∃ x, v = .scalar x) →
      (kind = .array → ∀ v ∈ items, (∃ x, v = .scalar x) ∨ ∃ b ys, v = .seq b .array ys) → WF (.seq a kind items)

/-- The entry `k` with the value `v` is found through dictionaries and the columns under `data_stats`. -/
inductive Entry (k : String) (v : R α) : List (String × R α) → Prop
  | here (items) : (k, v) ∈ items → Entry k v items
  | value (items k' a ds) : (k', .dict a ds) ∈ items → k' ≠ "profile_schema" → Entry k v ds → Entry k v items
  | column (items a cols b ds) : ("data_stats", .seq a .list cols) ∈ items → .dict b ds ∈ cols → Entry k v ds → Entry k v items

end Verif.Spec.Snapshot
