import Verif.Model.Csv
import Mathlib.Data.List.Dedup
import Mathlib.Algebra.Group.Nat.Even

/-!
# Specification: delimited text

What the cells of a line, a usable delimiter, a header and a delimited file are.
-/

namespace Verif.Csv.Spec

open Verif.Csv (CellType Env)

/-- The language of the expression looked for behind a delimiter: pairs of quotes with other characters in between. -/
inductive Paired (q : Char) : List Char → Prop
  | done (s : List Char) : q ∉ s → Paired q s
  | pair (a b s : List Char) : q ∉ a → q ∉ b → Paired q s → Paired q (a ++ q :: (b ++ q :: s))

/-- A position of a line that holds a delimiter outside of quotes: an even number of quotes stands before it. -/
def Outside (d q : Char) (row : List Char) (i : ℕ) : Prop := row[i]? = some d ∧ Even ((row.take i).count q)

instance (d q : Char) (row : List Char) (i : ℕ) : Decidable (Outside d q row i) := by unfold Outside; infer_instance

/-- A position that holds a delimiter with an even number of quotes behind it. -/
def Cut (d q : Char) (row : List Char) (i : ℕ) : Prop := row[i]? = some d ∧ Even ((row.drop (i + 1)).count q)

instance (d q : Char) (row : List Char) (i : ℕ) : Decidable (Cut d q row i) := by unfold Cut; infer_instance

/-- The pieces of a line between the cuts. -/
def cells (d q : Char) (row : List Char) : List (List Char) :=
  ((row.zipIdx).splitOnP fun x => decide (Cut d q row x.2)).map fun l => l.map (·.1)

/-- The lines a guess is based on: a last one of at most one character is left out. -/
def looked (rows : List (List Char)) : List (List Char) :=
  if (rows.getLast?).any (fun r => decide (r.length ≤ 1)) then rows.dropLast else rows

/-- An empty cell or one of text. -/
def Plain (t : CellType) : Prop := t = .str ∨ t = .none

/-- A line that speaks against a delimiter. -/
def Against (env : Env) (d : Char) (cs : List (List Char)) : Prop :=
  (∃ i : ℕ, ∃ a b, cs[i]? = some a ∧ cs[i + 1]? = some b ∧ Plain (env.cellType a) ∧ Plain (env.cellType b) ∧
    (env.isAlpha d = true ∨ (d = ' ' ∧ cs.length ≤ 2))) ∨
  (env.cellType [d] = .int ∧ ∃ c ∈ cs, env.cellType c = .int)

/-- A delimiter that could be the one of a list of lines. -/
structure Usable (env : Env) (d q : Char) (rows : List (List Char)) : Prop where
  rising : rows.Pairwise fun a b => (cells d q a).length ≤ (cells d q b).length
  splits : ∃ r ∈ rows, 2 ≤ (cells d q r).length
  unopposed : ∀ r ∈ rows, ¬ Against env d (cells d q r)

/-- How much speaks for a delimiter: the cells of the last line, those of commas and tabulators five times. -/
def weight (d q : Char) (rows : List (List Char)) : ℕ :=
  (if d = ',' ∨ d = '\t' then 5 else 1) * (cells d q (rows.getLastD [])).length

/-- A character that may be proposed although it is neither comma nor tabulator. -/
def Proposable (text : List Char) (c : Char) : Prop := c ∈ text ∧ c ∉ ['\n', '"', '\'', ',', '\t']

instance (text : List Char) (c : Char) : Decidable (Proposable text c) := by unfold Proposable; infer_instance

/-- The proposable characters, each once. -/
def others (text : List Char) : List Char := text.dedup.filter fun c => decide (Proposable text c)

/-- Surely proposed: fewer than 20 others are at least as frequent. -/
def SurelyProposed (text : List Char) (c : Char) : Prop :=
  c = ',' ∨ c = '\t' ∨ (Proposable text c ∧
    ((others text).filter fun e => decide (e ≠ c ∧ text.count c ≤ text.count e)).length < 20)

/-- Possibly proposed: fewer than 20 others are more frequent. -/
def PossiblyProposed (text : List Char) (c : Char) : Prop :=
  c = ',' ∨ c = '\t' ∨ (Proposable text c ∧
    ((others text).filter fun e => decide (text.count c < text.count e)).length < 20)

/-! ### Header -/

/-- The cells of a row that hold something. -/
def amount (r : List CellType) : ℕ := r.countP fun t => decide (t ≠ .none)

/-- The row a row is compared to: the last one before it with data, or the first. -/
def reference (types : List (List CellType)) (i : ℕ) : List CellType :=
  (((types.take i).filter fun r => decide (0 < amount r)).getLast?).getD (types.headD [])

/-- The number of cells of row `i` of another type than above; a row with more data than there are cells above is not compared. -/
def changes (types : List (List CellType)) (i : ℕ) : ℕ :=
  let r := types.getD i []
  if 0 < amount r ∧ amount r ≤ (reference types i).length then
    ((List.range r.length).filter fun j => decide ((reference types i)[j]? ≠ r[j]?)).length
  else 0

/-- A row that may be the header: more than nine tenths of its cells are text or empty, fewer than half are empty, fewer than a tenth
differ from the row above, no row above holds more, and no row above differs from the ones above it. -/
structure Candidate (types : List (List CellType)) (i : ℕ) : Prop where
  text : 9 * (types.getD i []).length < 10 * (types.getD i []).countP fun t => decide (t = .str ∨ t = .upstr ∨ t = .none)
  data : 2 * ((types.getD i []).length - amount (types.getD i [])) < (types.getD i []).length
  steady : 10 * changes types i < (types.getD i []).length
  widest : ∀ p < i, amount (types.getD p []) ≤ amount (types.getD i [])
  unchanged : ∀ p < i, changes types p = 0

/-- The header by types: the last candidate, provided that some row differs from the ones above it. -/
def TypeHeader (types : List (List CellType)) (h : ℕ) : Prop :=
  h < types.length ∧ Candidate types h ∧ (∀ k, h < k → k < types.length → ¬ Candidate types k) ∧
    ∃ i < types.length, 0 < changes types i

/-- The number of words of a cell. -/
def words (env : Env) (c : List Char) : ℕ := if env.strip c = [] then 0 else ((env.strip c).splitOn ' ').length

/-- Column `j` has its first words in row `i`. -/
def FirstWords (env : Env) (rows : List (List (List Char))) (j i : ℕ) : Prop :=
  (∃ r c, rows[i]? = some r ∧ r[j]? = some c ∧ 0 < words env c) ∧
  ∀ p < i, ∀ r c, rows[p]? = some r → r[j]? = some c → words env c = 0

/-- Two cells of one column differ by two words or more. -/
def WordsVary (env : Env) (rows : List (List (List Char))) : Prop :=
  ∃ j : ℕ, ∃ r ∈ rows, ∃ r' ∈ rows, ∃ a b, r[j]? = some a ∧ r'[j]? = some b ∧ words env a + 2 ≤ words env b

/-- The header by words: more than half of the columns have their first words in this row, no column has them later, and the number of
words varies. -/
def WordHeader (env : Env) (rows : List (List (List Char))) (h : ℕ) : Prop :=
  WordsVary env rows ∧ (∀ j i, FirstWords env rows j i → i ≤ h) ∧
  ∃ J : List ℕ, J.Nodup ∧ (∀ j ∈ J, FirstWords env rows j h) ∧ ∀ r ∈ rows, r.length / 2 < J.length

/-! ### Recognition -/

/-- The number of separators of a line. -/
def separators (d q : Char) (line : List Char) : ℕ :=
  ((List.range line.length).filter fun i => decide (Cut d q line i)).length

/-- The separators counted in a line; without a delimiter these are the spaces but the last. -/
def lineSeparators (env : Env) (delimiter quote : Option Char) (line : List Char) : ℕ :=
  match delimiter with
  | some d => separators d (quote.getD '"') line
  | none => separators ' ' (quote.getD '"') (env.rstrip line)

/-- The most frequent number of a list, the first of these. -/
def IsMode (ns : List ℕ) (n : ℕ) : Prop :=
  n ∈ ns ∧ (∀ m, ns.count m ≤ ns.count n) ∧ ∀ m ∈ ns, ns.count m = ns.count n → ns.idxOf n ≤ ns.idxOf m

/-- The lines with content. -/
def active (lines : List (List Char)) : List (List Char) := lines.filter fun l => decide (2 ≤ l.length)

/-- The lines counted: all, or those up to the first one with content of number 1000 or more. -/
def Counted (lines seen : List (List Char)) : Prop :=
  seen <+: lines ∧ (seen = lines ∨ (1000 ≤ seen.length ∧ ∃ l, seen.getLast? = some l ∧ 2 ≤ l.length)) ∧
  ∀ i, 999 ≤ i → i + 1 < seen.length → ∀ l, seen[i]? = some l → l.length ≤ 1

/-- The number of digits of a positive number. -/
def IsDigits (n k : ℕ) : Prop := 10 ^ (k - 1) ≤ n ∧ n < 10 ^ k

end Verif.Csv.Spec
