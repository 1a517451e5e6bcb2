import Verif.Model.Factory

/-!
# Specification vocabulary for making profilers
-/

namespace Verif.Spec.Factory

open Verif Verif.Factory

variable {L ρ α β : Type}

/-- The profiler that fits data: graphs, tables, or text. -/
inductive Fits {α : Type} : Data α → Kind → Prop
  | graphReader (s e t r) : Fits (.reader .graph s e t r) .graph
  | graph (n c) : Fits (.raw ⟨.graph, n, c⟩) .graph
  | tableReader (k e t r) (h : k ≠ .graph) : Fits (.reader k true e t r) .structured
  | textReader (k e t r) (h : k ≠ .graph) : Fits (.reader k false e t r) .unstructured
  | text (n c) : Fits (.raw ⟨.text, n, c⟩) .unstructured
  | list (n c) : Fits (.raw ⟨.list, n, c⟩) .structured
  | series (n c) : Fits (.raw ⟨.series, n, c⟩) .structured
  | frame (n c) : Fits (.raw ⟨.frame, n, c⟩) .structured

/-- The name of a kind. -/
def nameOf : Kind → String
  | .graph => "graph"
  | .structured => "structured"
  | .unstructured => "unstructured"

/-- The options given are a place on the heap for this kind of profiler. -/
def Given : OptArg → Kind → ℕ → Prop
  | .full s _, .structured, r => r = s
  | .full _ u, .unstructured, r => r = u
  | .structured s, .structured, r => r = s
  | .unstructured u, .unstructured, r => r = u
  | _, _, _ => False

/-- No options were given. -/
def NotGiven : OptArg → Prop
  | .absent => True
  | .other b => b = false
  | _ => False

/-- A labeler has to be loaded and is refused with a `ValueError`. -/
def LabelerRefused (load : Kind → Option String → Except Err L) (k : Kind) (o : Opts L ρ) : Prop :=
  o.enabled = true ∧ o.object = none ∧ load k o.dirpath = .error .valueError

/-- The options after their labeler was seen to: one given is kept, else the one loaded, else none is used. -/
def Labeled (load : Kind → Option String → Except Err L) (k : Kind) (o o' : Opts L ρ) : Prop :=
  o'.dirpath = o.dirpath ∧ o'.rest = o.rest ∧
    ((o.enabled = false ∧ o'.enabled = false ∧ o'.object = o.object) ∨
     (o.enabled = true ∧ (∃ l, o.object = some l ∧ o'.object = some l) ∧ o'.enabled = true) ∨
     (o.enabled = true ∧ o.object = none ∧ (∃ l, load k o.dirpath = .ok l ∧ o'.object = some l) ∧ o'.enabled = true) ∨
     (o.enabled = true ∧ o.object = none ∧ (∃ e, e ≠ .valueError ∧ load k o.dirpath = .error e) ∧ o'.object = none ∧ o'.enabled = false))

/-- An integer or nothing. -/
def IntOrNone : MinTrue → Prop
  | .absent => True
  | .int _ => True
  | .other => False

/-- A step that could reach the options at a place: making a profiler with them, or changing them. -/
def Touches (r : ℕ) : Step L ρ α → Prop
  | .make _ _ _ (.full s u) _ => r = s ∨ r = u
  | .make _ _ _ (.structured s) _ => r = s
  | .make _ _ _ (.unstructured u) _ => r = u
  | .make _ _ _ _ _ => False
  | .change s _ => r = s

/-- The number of true samples that holds: the one given unless it is zero or absent. -/
def effective (given own : MinTrue) : MinTrue :=
  match given with
  | .absent => own
  | .int i => if i = 0 then own else .int i
  | .other => .other

end Verif.Spec.Factory
