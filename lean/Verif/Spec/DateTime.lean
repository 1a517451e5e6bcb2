import Verif.Model.DateTime

/-!
# What a date column should report
-/

namespace Verif.DateTimeSpec

open Verif.DateTime

variable {D : Type} [LinearOrder D] [BoundedOrder D]

/-- A value taken as a date under a format. -/
structure Reading (D : Type) where
  text : String
  format : String
  date : D

/-- All values of a history. -/
def values : History → List String
  | .new => []
  | .update h b => values h ++ b.values
  | .merge h1 h2 => values h1 ++ values h2

/-- Every sample is drawn from its batch. -/
def Valid : History → Prop
  | .new => True
  | .update h b => Valid h ∧ b.Valid
  | .merge h1 h2 => Valid h1 ∧ Valid h2

/-- The formats a date may have, in the order in which they are tried. -/
def supported : List String :=
  ["%Y-%m-%d %H:%M:%S", "%Y-%m-%dT%H:%M:%S", "%Y-%m-%dT%H:%M:%S.%fZ", "%Y-%m-%dt%H:%M:%S.%fz", "%m/%d/%y %H:%M", "%m/%d/%Y %H:%M",
   "%Y%m%dT%H%M%S", "%Y-%m-%d", "%m/%d/%Y", "%m/%d/%y", "%b %d, %Y", "%B %d, %Y", "%d%b%y", "%b-%d-%y", "%m%d%Y", "%H:%M:%S.%f"]

/-- The format has an abbreviated month in it. -/
def Abbreviated (f : String) : Prop := ['%', 'b'] <:+: f.toList

/-- The only readings of `x` by `f` that may be put aside: May under a format with an abbreviated month. -/
def Aside (parse : String → String → Option D) (isMay : D → Bool) (f x : String) : Prop :=
  ∀ d, parse f x = some d → Abbreviated f ∧ isMay d = true

/-- The reading is by one of the formats, and by the first one that recognises the text, except that readings in May by
formats with an abbreviated month may have been put aside. -/
def Proper (parse : String → String → Option D) (isMay : D → Bool) (fs : List String) (a : Reading D) : Prop :=
  parse a.format a.text = some a.date ∧
    ∃ pre post, fs = pre ++ a.format :: post ∧ ∀ g ∈ pre, Aside parse isMay g a.text

/-- Some supported format recognises the text. -/
def IsDate (parse : String → String → Option D) (x : String) : Prop := ∃ f ∈ supported, parse f x ≠ none

/-- No text is in May under a format with an abbreviated month. -/
def NoMay (parse : String → String → Option D) (isMay : D → Bool) (xs : List String) : Prop :=
  ∀ x ∈ xs, ∀ f ∈ supported, Abbreviated f → ∀ d, parse f x = some d → isMay d = false

/-- `text` is the text of a smallest reading; it is missing only if every reading is the largest date there is. -/
def IsMin (as : List (Reading D)) (text : Option String) : Prop :=
  (∃ a ∈ as, text = some a.text ∧ ∀ b ∈ as, a.date ≤ b.date) ∨ (text = none ∧ ∀ b ∈ as, b.date = ⊤)

/-- `text` is the text of a largest reading; it is missing only if every reading is the smallest date there is. -/
def IsMax (as : List (Reading D)) (text : Option String) : Prop :=
  (∃ a ∈ as, text = some a.text ∧ ∀ b ∈ as, b.date ≤ a.date) ∨ (text = none ∧ ∀ b ∈ as, b.date = ⊥)

end Verif.DateTimeSpec
