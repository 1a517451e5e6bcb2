import Verif.Model.OptionObjects

/-!
# Specification of copies and comparison of options

When two options are the same by value, which objects can be reached from an option, and which of them are data labelers held
by options of data labelers. Nothing here mentions how options are compared or copied.
-/

namespace Verif.OptionObjects.Spec

open Verif.OptionObjects

variable {α : Type}

/-- The two values agree: plain values by `R`, data labelers by `L`, and options when they have the same class, the same
attributes, and these agree. -/
inductive Agree (R : α → α → Prop) (L : Nat → Nat → Prop) : Obj α → Obj α → Prop where
  | imm_imm : R a b → Agree R L (.imm a) (.imm b)
  | imm_cont : R a b → Agree R L (.imm a) (.cont j b)
  | cont_imm : R a b → Agree R L (.cont i a) (.imm b)
  | cont_cont : R a b → Agree R L (.cont i a) (.cont j b)
  | labeler : L i j → Agree R L (.labeler i) (.labeler j)
  | opt : (∀ k, k ∈ fa.map Prod.fst ↔ k ∈ fb.map Prod.fst) →
      (∀ k v w, (k, v) ∈ fa → (k, w) ∈ fb → Agree R L v w) → Agree R L (.opt i c fa) (.opt j c fb)

/-- No attribute occurs twice, at any depth. -/
inductive Proper : Obj α → Prop where
  | imm : Proper (.imm a)
  | cont : Proper (.cont i a)
  | labeler : Proper (.labeler i)
  | opt : (fields.map Prod.fst).Nodup → (∀ kv ∈ fields, Proper kv.2) → Proper (.opt i c fields)

/-- An object of the given address can be reached. -/
inductive Reach (addr : Nat) : Obj α → Prop where
  | cont : Reach addr (.cont addr a)
  | labeler : Reach addr (.labeler addr)
  | here : Reach addr (.opt addr c fields)
  | under : kv ∈ fields → Reach addr kv.2 → Reach addr (.opt i c fields)

/-- The data labeler of the given address is held by options of data labelers. -/
inductive Held (addr : Nat) : Obj α → Prop where
  | here : ("data_labeler_object", Obj.labeler addr) ∈ fields → Held addr (.opt i .dataLabeler fields)
  | under : kv ∈ fields → Held addr kv.2 → Held addr (.opt i c fields)

/-- Data labelers are found only as the `data_labeler_object` of options of data labelers, which is a data labeler or an
immutable value such as `None`. -/
inductive Usual : Obj α → Prop where
  | imm : Usual (.imm a)
  | cont : Usual (.cont i a)
  | opt : (∀ kv ∈ fields, ¬ (c = .dataLabeler ∧ kv.1 = "data_labeler_object") → Usual kv.2) →
      (c = .dataLabeler → ∀ kv ∈ fields, kv.1 = "data_labeler_object" →
        (∃ l, kv.2 = Obj.labeler l) ∨ ∃ a, kv.2 = Obj.imm a) →
      Usual (.opt i c fields)

end Verif.OptionObjects.Spec
