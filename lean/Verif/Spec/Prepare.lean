import Verif.Model.Prepare
import Mathlib.Data.Nat.Notation

/-!
# Specification: which parts of a report are omitted
-/

namespace Verif.PrepareSpec

open Verif Flat Prepare

variable {V : Type}

/-- The segments of a pattern, separated by dots. -/
def segments : List Char → List (List Char)
  | [] => [[]]
  | c :: cs =>
    if c = '.' then [] :: segments cs
    else match segments cs with
      | [] => [[c]]
      | s :: ss => (c :: s) :: ss

/-- A segment stands for a name, an asterisk for every one. Nothing else stands for an integer. -/
def fits (s : List Char) (e : Option (List Char)) : Bool := decide (s = ['*'] ∨ e = some s)

/-- A pattern covers a position and everything below it. -/
def covers : List (List Char) → List (Option (List Char)) → Bool
  | [], _ => true
  | _ :: _, [] => false
  | s :: ss, e :: es => fits s e && covers ss es

/-- Some pattern covers the position. -/
def covered (pats : List (List Char)) (path : List (Option (List Char))) : Bool :=
  pats.any fun o => covers (segments o) path

/-- A step in a report. -/
inductive Step where
  | key (k : Key)
  | col (i : ℕ)
deriving DecidableEq

/-- The name of a key in patterns. -/
def keyName : Key → Option (List Char)
  | .str s => some s
  | .int _ => none

/-- A position in a report: how to get there, the names on the way, and what is there (nothing for an inner dictionary). -/
structure Entry (V : Type) where
  path : List Step
  names : List (Option (List Char))
  content : Option (Rep V)

/-- Put a step in front. -/
def Entry.push (s : List Step) (n : List (Option (List Char))) (e : Entry V) : Entry V := ⟨s ++ e.path, n ++ e.names, e.content⟩

mutual
/-- All positions below a dictionary. -/
def entries (colName : List (Key × Rep V) → List Char) : List (Key × Rep V) → List (Entry V)
  | [] => []
  | (k, v) :: rest => (valueEntries colName k v).map (Entry.push [.key k] [keyName k]) ++ entries colName rest

/-- All positions in the value of a key; a profile schema is one value. -/
def valueEntries (colName : List (Key × Rep V) → List Char) (k : Key) : Rep V → List (Entry V)
  | .leaf v => [⟨[], [], some (.leaf v)⟩]
  | .null => [⟨[], [], some .null⟩]
  | .node is =>
    if k = .str "profile_schema".toList then [⟨[], [], some (.node is)⟩]
    else ⟨[], [], none⟩ :: entries colName is
  | .cols cs =>
    if k = .str "data_stats".toList then ⟨[], [], none⟩ :: colsEntries colName 0 cs else [⟨[], [], some (.cols cs)⟩]

/-- All positions in columns. -/
def colsEntries (colName : List (Key × Rep V) → List Char) (i : ℕ) : List (Rep V) → List (Entry V)
  | [] => []
  | c :: rest => colEntries colName i c ++ colsEntries colName (i + 1) rest

/-- All positions in one column. -/
def colEntries (colName : List (Key × Rep V) → List Char) (i : ℕ) : Rep V → List (Entry V)
  | .node is => (⟨[], [], none⟩ :: entries colName is).map (Entry.push [.col i] [some (colName is)])
  | _ => []
end

/-- What is at a position after formatting. -/
def shown (fmt : V → V) : Option (Rep V) → Option (Rep V)
  | some (.leaf v) => some (.leaf (fmt v))
  | c => c

/-- A key that patterns can address: an integer, or a non-empty text without a dot. -/
def Addressable : Key → Prop
  | .str s => s ≠ [] ∧ '.' ∉ s
  | .int _ => True

mutual
/-- All keys are addressable, columns are dictionaries and their names have no dots. -/
def Proper (colName : List (Key × Rep V) → List Char) : List (Key × Rep V) → Prop
  | [] => True
  | (k, v) :: rest => Addressable k ∧ ProperValue colName k v ∧ Proper colName rest

def ProperValue (colName : List (Key × Rep V) → List Char) (k : Key) : Rep V → Prop
  | .leaf _ => True
  | .null => True
  | .node is => k = .str "profile_schema".toList ∨ Proper colName is
  | .cols cs => k ≠ .str "data_stats".toList ∨ ProperCols colName cs

def ProperCols (colName : List (Key × Rep V) → List Char) : List (Rep V) → Prop
  | [] => True
  | c :: rest => ProperCol colName c ∧ ProperCols colName rest

def ProperCol (colName : List (Key × Rep V) → List Char) : Rep V → Prop
  | .node is => '.' ∉ colName is ∧ Proper colName is
  | _ => False
end

end Verif.PrepareSpec
