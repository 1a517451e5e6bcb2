import Verif.Model.Basic
import Mathlib.Data.Nat.Notation
import Mathlib.Data.Int.Notation

/-!
# Reading the beginning of a file

Models `find_nth_loc` and `load_as_str_from_file` (dataprofiler/data_readers/data_utils.py:742-860) for files opened as
text and searches of a single character.  A file is the list of its characters; `read(k)` returns the next `k` of them.
-/

namespace Verif.Sniff

open Verif

/-- Where `re.finditer` finds a character, or, with `merge`, runs of a character: the positions, counting from `i`, where
matches start. -/
def matchStarts (c : Char) (merge : Bool) : Bool → ℕ → List Char → List ℕ
  | _, _, [] => []
  | inside, i, x :: xs =>
    if x = c then
      if merge ∧ inside then matchStarts c merge true (i + 1) xs else i :: matchStarts c merge true (i + 1) xs
    else matchStarts c merge false (i + 1) xs

/-- The loop over the matches (data_utils.py:777-781): `idx` and `id_count`. -/
def scan (n : ℤ) : ℤ → ℤ → List ℕ → ℤ × ℤ
  | idx, count, [] => (idx, count)
  | _, count, i :: is => if count + 2 = n then (i, count + 1) else scan n i (count + 1) is

/-- `find_nth_loc` (data_utils.py:742-790). -/
def findNth (s : List Char) (c : Char) (n : ℤ) (merge : Bool) : ℤ × ℤ :=
  if s = [] ∨ n ≤ 0 then (-1, 0)
  else
    let r := scan n (-1) (-1) (matchStarts c merge false 0 s)
    let count := r.2 + 1
    (if count ≠ n then s.length else r.1, count)

/-- `s[start:stop]`. -/
def slice (s : List Char) (start : ℕ) (stop : ℤ) : List Char :=
  (s.take (if stop < 0 then s.length + stop else stop).toNat).drop start

/-- The loop over a chunk (data_utils.py:837-857), with a bound on the number of rounds: `none` if it is exceeded. -/
def inner (s : List Char) (maxLines remaining : ℤ) : ℕ → ℕ → ℤ → List Char → Option (ℤ × List Char)
  | 0, _, _, _ => none
  | fuel + 1, start, total, data =>
    if start + 1 < s.length ∧ total < maxLines then
      let r := findNth (s.drop start) '\n' remaining true
      inner s maxLines remaining fuel r.1.toNat (total + r.2) (data ++ slice s start r.1)
    else some (total, data)

/-- The loop over the chunks (data_utils.py:821-859): how many are left, `total_occurrences`, `data_as_str`, and the rest of
the file. -/
def chunks (size : ℕ) (maxLines : ℤ) : ℕ → ℤ → List Char → List Char → Option (List Char)
  | 0, _, data, _ => some data
  | k + 1, total, data, rest =>
    if (rest.take size).length = 0 then some data
    else
      match inner (rest.take size) maxLines (maxLines - total) ((rest.take size).length + 2) 0 total data with
      | none => none
      | some (total', data') =>
        if maxLines ≤ total' then some data' else chunks size maxLines k total' data' (rest.drop size)

/-- `load_as_str_from_file` (data_utils.py:793-860). `range` refuses a step of zero. -/
def load (maxLines : ℤ) (maxBytes chunk : ℕ) (file : List Char) : Except Err (Option (List Char)) :=
  let size := min maxBytes chunk
  if size = 0 then .error .valueError
  else .ok (chunks size maxLines ((maxBytes + size - 1) / size) 0 [] file)

end Verif.Sniff
