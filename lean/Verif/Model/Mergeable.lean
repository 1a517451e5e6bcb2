import Mathlib.Data.Nat.Notation
import Mathlib.Data.Int.Notation
import Verif.Model.Basic

/-!
# Which profiles of columns and texts can be merged and compared

Models the checks in `__add__` of the profiles (dataprofiler/profilers/int_column_profile.py:41-63, float_column_profile.py:65-83,
text_column_profile.py:45-62, datetime_column_profile.py:78-93, categorical_column_profile.py:89-106, order_column_profile.py:264-304,
data_labeler_column_profile.py:81-129, 131-165, unstructured_labeler_profile.py:64-104, unstructured_text_profile.py:517-538), in
`BaseColumnProfiler._add_helper` (base_column_profilers.py:150-178) and in `diff` (base_column_profilers.py:180-195,
numerical_column_stats.py:493-498, unstructured_labeler_profile.py:128-133, unstructured_text_profile.py:592-597).

Simplifications
* classes of users derive from one class each and do not override these methods; a class is the profile it derives from and the names down to it;
* labelers are given up to their equality, the settings of votes and the possible labels are one value;
* merging and comparing what was calculated is a parameter, and comes after the checks.
-/

namespace Verif.Mergeable

open Verif

/-- The profiles. -/
inductive Kind where
  | int | float | text | dateTime | categorical | order | labeler | words | entities
  deriving DecidableEq

/-- A class: one of the package (no names), or derived from it. -/
structure Cls where
  kind : Kind
  path : List String
  deriving DecidableEq

/-- `isinstance(x, d)` for an `x` of class `c`. -/
def isInstance (c d : Cls) : Bool := c.kind = d.kind && d.path.isPrefixOf c.path

/-- The name of a column. -/
inductive Name where
  | none
  | text (s : String)
  | int (n : ℤ)
  | nan
  deriving DecidableEq

/-- `a == b` of names. -/
def Name.same : Name → Name → Bool
  | .nan, .nan => false
  | a, b => a = b

/-- A profile; `index = none` is NaN (base_column_profilers.py:40). -/
structure Profile (Λ S σ : Type) where
  cls : Cls
  name : Name
  index : Option ℤ
  labeler : Λ
  maxSize : Option ℕ
  settings : S
  body : σ
  deriving DecidableEq

variable {Λ S σ δ : Type} [DecidableEq Λ] [DecidableEq S]

/-- The checks of labelers (data_labeler_column_profile.py:147-157 and 81-129, unstructured_labeler_profile.py:80-83). -/
def checkLabeler (a b : Profile Λ S σ) : Except Err Unit :=
  match a.cls.kind with
  | .labeler =>
    if a.labeler ≠ b.labeler ∨ a.maxSize ≠ b.maxSize then .error .attributeError
    else if a.settings ≠ b.settings then .error .valueError
    else .ok ()
  | .entities => if a.labeler ≠ b.labeler then .error .attributeError else .ok ()
  | _ => .ok ()

/-- The checks of `_add_helper` (base_column_profilers.py:161-174); profiles of texts have a name only (unstructured_text_profile.py:535-538),
those of entities nothing. -/
def checkColumn (a b : Profile Λ S σ) : Except Err Unit :=
  match a.cls.kind with
  | .entities => .ok ()
  | .words => if a.name.same b.name then .ok () else .error .valueError
  | _ =>
    if (a.index.isNone && b.index.isNone) || (a.index.isSome && a.index = b.index) then
      if a.name.same b.name then .ok () else .error .valueError
    else .error .valueError

/-- `__add__`. The sum is made anew of the class of the package. -/
def add (merge : Kind → σ → σ → Except Err σ) (a b : Profile Λ S σ) : Except Err (Profile Λ S σ) :=
  if isInstance b.cls ⟨a.cls.kind, []⟩ then
    match checkLabeler a b with
    | .error e => .error e
    | .ok _ =>
      match checkColumn a b with
      | .error e => .error e
      | .ok _ => (merge a.cls.kind a.body b.body).map fun m => { a with cls := ⟨a.cls.kind, []⟩, body := m }
  else .error .typeError

/-- `diff`. -/
def diff (compare : Kind → σ → σ → Except Err δ) (a b : Profile Λ S σ) : Except Err δ :=
  if isInstance b.cls a.cls then compare a.cls.kind a.body b.body else .error .typeError

/-- Profiles added in some order. -/
inductive Tree (α : Type) where
  | leaf (a : α)
  | node (l r : Tree α)

/-- Their sum. -/
def sum (merge : Kind → σ → σ → Except Err σ) : Tree (Profile Λ S σ) → Except Err (Profile Λ S σ)
  | .leaf a => .ok a
  | .node l r =>
    match sum merge l with
    | .error e => .error e
    | .ok a =>
      match sum merge r with
      | .error e => .error e
      | .ok b => add merge a b

end Verif.Mergeable
