import Verif.Model.Basic

/-!
# Which objects a report shares with the profile

Models the objects that `_prepare_report` (dataprofiler/profilers/helpers/report_helpers.py:89-279) makes and those it hands on:
a report is a tree whose dictionaries, lists, arrays and sets carry addresses. An object made by the call itself, which nobody
else holds, has no address.

Simplifications
* omitted keys (modelled in `Verif.Prepare`) and the format `flat` (modelled in `Verif.Flat`) are left out;
* the columns under `data_stats` are dictionaries; what is neither a dictionary nor a list, array or set is immutable;
* the text of a list or array, rounding, sorting and the keys of a schema are arbitrary functions.
-/

namespace Verif.Snapshot

open Verif

/-- The kinds of sequences. -/
inductive Kind where
  | list | array | set
deriving DecidableEq

/-- A value of a report; `some i` is the object at the address `i`, `none` a new object. -/
inductive R (α : Type) where
  | scalar (a : α)
  | dict (addr : Option Nat) (items : List (String × R α))
  | seq (addr : Option Nat) (kind : Kind) (items : List (R α))

/-- Formats: none given, `pretty` (and `compact`, which becomes `pretty`), and `serializable`. -/
inductive Fmt where
  | plain | pretty | serializable
deriving DecidableEq

/-- What is not modelled. -/
structure Lib (α : Type) where
  /-- the text of a list or array -/
  text : List (R α) → α
  /-- `round(value, 4)` for a float, the value itself otherwise -/
  round : α → α
  /-- `sorted(list(value))` -/
  sorted : List (R α) → List (R α)
  /-- the key of a schema -/
  clean : String → String

variable {α : Type}

/-- `isinstance(v, dict)`. -/
def isDict : R α → Bool
  | .dict _ _ => true
  | _ => false

mutual
/-- `value.tolist()`: nested arrays become nested lists. -/
def toList : R α → R α
  | .seq _ .array items => .seq none .list (toLists items)
  | r => r

/-- The same for all items. -/
def toLists : List (R α) → List (R α)
  | [] => []
  | r :: rs => toList r :: toLists rs
end

/-- `_clean_profile_schema` (report_helpers.py:67-86): a new dictionary with the values of the old one. -/
def cleanSchema (lib : Lib α) : R α → R α
  | .dict _ items => .dict none (items.map fun kv => (lib.clean kv.1, kv.2))
  | r => r

/-- The branch for the schema (report_helpers.py:205-214). -/
def schema (lib : Lib α) (fmt : Fmt) (r : R α) : R α :=
  if fmt = .plain then r
  else
    match r with
    | .seq _ .list items => .seq none .list (items.map (cleanSchema lib))
    | r => cleanSchema lib r

mutual
/-- The items of a dictionary (report_helpers.py:138-274). -/
def prepareItems (lib : Lib α) (fmt : Fmt) : List (String × R α) → List (String × R α)
  | [] => []
  | (k, v) :: rest => (k, prepareValue lib fmt k v) :: prepareItems lib fmt rest

/-- One value (report_helpers.py:144-274). A set is first made a sorted list (151-152); the branches after that are for
`data_stats`, for the schema, for dictionaries, for sequences and for the rest. -/
def prepareValue (lib : Lib α) (fmt : Fmt) (k : String) : R α → R α
  | .scalar a => .scalar (if fmt = .pretty then lib.round a else a)
  | .dict addr items =>
    if k = "profile_schema" then schema lib fmt (.dict addr items) else .dict none (prepareItems lib fmt items)
  | .seq addr kind items =>
    if k = "data_stats" ∧ kind ≠ .array then
      .seq none .list (prepareAll lib fmt items)
    else if k = "profile_schema" then
      schema lib fmt (if kind = .set then .seq none .list (lib.sorted items) else .seq addr kind items)
    else if fmt ≠ .plain ∧ items.all isDict then .seq none .list (prepareAll lib fmt items)
    else if fmt = .pretty then .scalar (lib.text (if kind = .set then lib.sorted items else items))
    else if kind = .set then .seq none .list (lib.sorted items)
    else if fmt = .serializable ∧ kind = .array then toList (.seq addr kind items)
    else .seq addr kind items

/-- The dictionaries of a list (report_helpers.py:158-202, 264-269). -/
def prepareAll (lib : Lib α) (fmt : Fmt) : List (R α) → List (R α)
  | [] => []
  | .dict _ items :: rest => .dict none (prepareItems lib fmt items) :: prepareAll lib fmt rest
  | r :: rest => r :: prepareAll lib fmt rest
end

/-- `_prepare_report(report, output_format)` (report_helpers.py:89-279). -/
def prepare (lib : Lib α) (fmt : Fmt) (items : List (String × R α)) : R α := .dict none (prepareItems lib fmt items)

/-! ### Changes -/

mutual
/-- A value as seen after the object at an address was changed: a dictionary to `ds`, a list, array or set to `xs`. -/
def poke (addr : Nat) (ds : List (String × R α)) (xs : List (R α)) : R α → R α
  | .scalar a => .scalar a
  | .dict a items => .dict a (if a = some addr then ds else pokeItems addr ds xs items)
  | .seq a kind items => .seq a kind (if a = some addr then xs else pokeAll addr ds xs items)

/-- The same for the items of a dictionary. -/
def pokeItems (addr : Nat) (ds : List (String × R α)) (xs : List (R α)) : List (String × R α) → List (String × R α)
  | [] => []
  | (k, v) :: rest => (k, poke addr ds xs v) :: pokeItems addr ds xs rest

/-- The same for the items of a sequence. -/
def pokeAll (addr : Nat) (ds : List (String × R α)) (xs : List (R α)) : List (R α) → List (R α)
  | [] => []
  | r :: rest => poke addr ds xs r :: pokeAll addr ds xs rest
end

end Verif.Snapshot
