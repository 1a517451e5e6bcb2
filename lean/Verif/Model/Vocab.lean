import Mathlib.Data.List.Dedup

/-!
# The vocabulary of a text column

Models `TextColumn._update_vocab` and the vocabulary part of `update` and `__add__`
(dataprofiler/profilers/text_column_profile.py:45-69, 133-154, 173-198) and `_combine_unique_sets`
(profiler_utils.py:74-91).

Simplifications: the order in which Python lists a set is an arbitrary rearrangement `order`; the calculation is enabled
in every profile.
-/

namespace Verif.Vocab

/-- `_combine_unique_sets` (profiler_utils.py:74-91). -/
def combineUnique (order : List Char → List Char) (a b : List Char) : List Char :=
  if a = [] ∧ b = [] then []
  else if a = [] then order b.dedup
  else if b = [] then order a.dedup
  else order (a ++ b).dedup

/-- `_update_vocab` (text_column_profile.py:133-154). -/
def updateVocab (order : List Char → List Char) (vocab : List Char) (data : List (List Char)) : List Char :=
  combineUnique order vocab (order data.flatten.dedup)

/-- `update` (text_column_profile.py:173-198): nothing for an empty batch. -/
def update (order : List Char → List Char) (vocab : List Char) (data : List String) : List Char :=
  if data = [] then vocab else updateVocab order vocab (data.map String.toList)

/-- `__add__` (text_column_profile.py:66-68): the characters of the second vocabulary are texts of length one. -/
def merge (order : List Char → List Char) (v w : List Char) : List Char := updateVocab order v (w.map fun c => [c])

/-- Everything that can happen to a vocabulary. -/
inductive History where
  | new
  | update (h : History) (data : List String)
  | merge (h1 h2 : History)

/-- The resulting vocabulary. -/
def run (order : List Char → List Char) : History → List Char
  | .new => []
  | .update h data => update order (run order h) data
  | .merge h1 h2 => merge order (run order h1) (run order h2)

end Verif.Vocab
