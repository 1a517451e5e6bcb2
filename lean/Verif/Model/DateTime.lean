import Mathlib.Order.BoundedOrder.Basic
import Mathlib.Data.List.Dedup
import Mathlib.Data.List.Perm.Subperm
import Mathlib.Data.Nat.Notation

/-!
# Date columns

Models `DateTimeColumn` (dataprofiler/profilers/datetime_column_profile.py:25-42, 58-120, 208-451).

Simplifications
* `strptime` after the removal of day suffixes is an arbitrary function `parse : format → text → date` (208-243); dates are
  any bounded linear order, its ends standing for `datetime.min` and `datetime.max`; `isMay` tells the dates in May;
* the sample inspected first is part of the batch;
* the order in which Python lists a set is an arbitrary rearrangement `order`;
* warnings are left out.
-/

namespace Verif.DateTime

/-- A format and whether it contains `%b`. -/
structure Format where
  text : String
  short : Bool
deriving DecidableEq

/-- `_date_formats` (datetime_column_profile.py:25-42). -/
def formats : List Format :=
  [⟨"%Y-%m-%d %H:%M:%S", false⟩, ⟨"%Y-%m-%dT%H:%M:%S", false⟩, ⟨"%Y-%m-%dT%H:%M:%S.%fZ", false⟩,
   ⟨"%Y-%m-%dt%H:%M:%S.%fz", false⟩, ⟨"%m/%d/%y %H:%M", false⟩, ⟨"%m/%d/%Y %H:%M", false⟩, ⟨"%Y%m%dT%H%M%S", false⟩,
   ⟨"%Y-%m-%d", false⟩, ⟨"%m/%d/%Y", false⟩, ⟨"%m/%d/%y", false⟩, ⟨"%b %d, %Y", true⟩, ⟨"%B %d, %Y", false⟩,
   ⟨"%d%b%y", true⟩, ⟨"%b-%d-%y", true⟩, ⟨"%m%d%Y", false⟩, ⟨"%H:%M:%S.%f", false⟩]

variable {D : Type} [LinearOrder D] [BoundedOrder D]

/-- The variables of the loop over the formats. -/
structure Loop (D : Type) where
  rest : List String
  count : ℕ
  formats : List String
  minObj : D
  minText : Option String
  maxObj : D
  maxText : Option String

/-- First pair with the smallest date (`np.argmin`). -/
def argmin : String × D → List (String × D) → String × D
  | b, [] => b
  | b, p :: ps => argmin (if p.2 < b.2 then p else b) ps

/-- First pair with the largest date (`np.argmax`). -/
def argmax : String × D → List (String × D) → String × D
  | b, [] => b
  | b, p :: ps => argmax (if b.2 < p.2 then p else b) ps

/-- The values of `xs` a format recognises, with their dates (datetime_column_profile.py:268-277). -/
def recognised (parse : String → String → Option D) (f : Format) (xs : List String) : List (String × D) :=
  xs.filterMap fun x => (parse f.text x).map fun d => (x, d)

/-- The update of the extremes (datetime_column_profile.py:294-313). -/
def extremes (s : Loop D) : List (String × D) → Loop D
  | [] => s
  | p :: ps =>
    let lo := argmin p ps
    let hi := argmax p ps
    { s with
      minObj := if lo.2 < s.minObj then lo.2 else s.minObj
      minText := if lo.2 < s.minObj then some lo.1 else s.minText
      maxObj := if s.maxObj < hi.2 then hi.2 else s.maxObj
      maxText := if s.maxObj < hi.2 then some hi.1 else s.maxText }

/-- One format (datetime_column_profile.py:266-331). Dates of a `%b` format that all fall in May are put aside. -/
def step (parse : String → String → Option D) (isMay : D → Bool) (s : Loop D) (f : Format) : Loop D :=
  if s.rest = [] then s
  else
    let valid := recognised parse f s.rest
    if f.short = true ∧ valid ≠ [] ∧ ∀ p ∈ valid, isMay p.2 = true then s
    else
      { extremes s valid with
        rest := s.rest.filter fun x => (parse f.text x).isNone
        count := s.count + valid.length
        formats := if valid = [] then s.formats else s.formats ++ [f.text] }

/-- Before the loop (datetime_column_profile.py:256-265). -/
def start (xs : List String) : Loop D := ⟨xs, 0, [], ⊤, none, ⊥, none⟩

/-- `_get_datetime_profile` (datetime_column_profile.py:245-345). -/
def batchProfile (parse : String → String → Option D) (isMay : D → Bool) (xs : List String) : Loop D :=
  formats.foldl (step parse isMay) (start xs)

/-- One batch: its values and the sample inspected first. -/
structure Batch where
  values : List String
  sample : List String

/-- `df_series.sample(sample_size)` (datetime_column_profile.py:357-360). -/
def Batch.Valid (b : Batch) : Prop :=
  List.Subperm b.sample b.values ∧ b.sample.length = min 50 b.values.length

/-- `_is_subset_datetime_column` (datetime_column_profile.py:347-365): at least a tenth of the sample. -/
def isDateColumn (parse : String → String → Option D) (isMay : D → Bool) (b : Batch) : Bool :=
  if b.values.length = 0 then false
  else decide (b.sample.length ≤ 10 * (batchProfile parse isMay b.sample).count)

/-- A date column profile. -/
structure Col (D : Type) where
  matchCount : ℕ
  sampleSize : ℕ
  formats : List String
  min : Option (D × Option String)
  max : Option (D × Option String)

/-- A new profile (datetime_column_profile.py:69-75). -/
def new : Col D := ⟨0, 0, [], none, none⟩

/-- `_combine_unique_sets` (base_column_profilers.py:48-65). -/
def combineUnique (order : List String → List String) (a b : List String) : List String :=
  if a = [] ∧ b = [] then []
  else if a = [] then order b.dedup
  else if b = [] then order a.dedup
  else order (a ++ b).dedup

/-- The smaller of the present and the batch's minimum (datetime_column_profile.py:395-403). -/
def updateMin (old : Option (D × Option String)) (obj : D) (text : Option String) : Option (D × Option String) :=
  match old with
  | none => some (obj, text)
  | some (o, t) => if obj < o then some (obj, text) else some (o, t)

/-- The larger of the present and the batch's maximum (datetime_column_profile.py:405-412). -/
def updateMax (old : Option (D × Option String)) (obj : D) (text : Option String) : Option (D × Option String) :=
  match old with
  | none => some (obj, text)
  | some (o, t) => if o < obj then some (obj, text) else some (o, t)

/-- `update` with `_update_datetime` (datetime_column_profile.py:368-451). -/
def update (order : List String → List String) (parse : String → String → Option D) (isMay : D → Bool) (c : Col D)
    (b : Batch) : Col D :=
  if b.values.length = 0 then c
  else if isDateColumn parse isMay b then
    let p := batchProfile parse isMay b.values
    { matchCount := c.matchCount + p.count
      sampleSize := c.sampleSize + b.values.length
      formats := if p.formats = [] then c.formats else combineUnique order c.formats p.formats
      min := updateMin c.min p.minObj p.minText
      max := updateMax c.max p.maxObj p.maxText }
  else { c with sampleSize := c.sampleSize + b.values.length }

/-- The minimum of two profiles (datetime_column_profile.py:96-104). -/
def mergeMin (a b : Option (D × Option String)) : Option (D × Option String) :=
  match a, b with
  | none, b => b
  | some a, none => some a
  | some a, some b => if a.1 < b.1 then some a else some b

/-- The maximum of two profiles (datetime_column_profile.py:106-114). -/
def mergeMax (a b : Option (D × Option String)) : Option (D × Option String) :=
  match a, b with
  | none, b => b
  | some a, none => some a
  | some a, some b => if b.1 < a.1 then some a else some b

/-- `__add__` (datetime_column_profile.py:78-120). -/
def merge (order : List String → List String) (a b : Col D) : Col D :=
  { matchCount := a.matchCount + b.matchCount
    sampleSize := a.sampleSize + b.sampleSize
    formats := combineUnique order a.formats b.formats
    min := mergeMin a.min b.min
    max := mergeMax a.max b.max }

/-- Everything that can happen to a date column. -/
inductive History where
  | new
  | update (h : History) (b : Batch)
  | merge (h1 h2 : History)

/-- The resulting profile. -/
def run (order : List String → List String) (parse : String → String → Option D) (isMay : D → Bool) : History → Col D
  | .new => new
  | .update h b => update order parse isMay (run order parse isMay h) b
  | .merge h1 h2 => merge order (run order parse isMay h1) (run order parse isMay h2)

/-- `profile["min"]` (datetime_column_profile.py:148-157). -/
def Col.minText (c : Col D) : Option String := c.min.bind (·.2)

/-- `profile["max"]` (datetime_column_profile.py:148-157). -/
def Col.maxText (c : Col D) : Option String := c.max.bind (·.2)

end Verif.DateTime
