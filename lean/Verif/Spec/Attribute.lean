import Verif.Model.Attribute

/-!
# What the attributes of a dataset should be
-/

namespace Verif.Spec.Attribute

open Verif Verif.Attribute

variable {R V S : Type}

/-- `m` is the attribute in the dictionary of the first class that has the name. -/
def First (mro : List (PyDict String (Member S V))) (name : String) (m : Member S V) : Prop :=
  ∃ pre d post, mro = pre ++ d :: post ∧ (∀ e ∈ pre, ∀ x, (name, x) ∉ e) ∧ PyDict.get? d name = some m

/-- Neither the class nor the instance has the name. -/
def Unknown (c : Class S V) (inst : PyDict String V) (name : String) : Prop :=
  (∀ d ∈ c.mro, ∀ m, (name, m) ∉ d) ∧ ∀ v, (name, v) ∉ inst

/-- Python's rule: a property of the class, else what the instance has, else what the class has. -/
inductive Finds (c : Class S V) (inst : PyDict String V) (name : String) (s : S) : V → S → Prop
  | prop {g f v s'} : First c.mro name (.prop g f) → g s = (.ok v, s') → Finds c inst name s v s'
  | inst {v} : (∀ g f, ¬ First c.mro name (.prop g f)) → PyDict.get? inst name = some v → Finds c inst name s v s
  | cls {v} : (∀ x, (name, x) ∉ inst) → First c.mro name (.plain v) → Finds c inst name s v s

/-- The data in the format selected. -/
inductive Shown (w : World R V) (s : Dataset R V) (r : R) : V → Prop
  | whole : s.format = none ∨ s.format = some "" → Shown w s r (w.whole r)
  | format {f conv} : s.format = some f → f ≠ "" → PyDict.get? w.formats f = some conv → Shown w s r (conv r)

/-- The data are in memory, or are read now; `s1` is the dataset afterwards. -/
inductive Loads (w : World R V) (s : Dataset R V) : V → Dataset R V → Prop
  | memory {r d} : s.raw = some r → Shown w s r d → Loads w s d s
  | file {r d} : s.raw = none → w.load s.reads = .ok r → Shown w s r d → Loads w s d { s with raw := some r, reads := s.reads + 1 }

/-- The file has been read at most once, and its data kept. -/
def Once (s : Dataset R V) : Prop := (s.raw = none ∧ s.reads = 0) ∨ (s.raw.isSome = true ∧ s.reads ≤ 1)

/-- The properties of the class leave it at that. -/
def Calm (c : Class (Dataset R V) V) : Prop := ∀ name g f, First c.mro name (.prop g f) → ∀ s, Once s → Once (g s).2

end Verif.Spec.Attribute
