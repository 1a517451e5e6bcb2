import Verif.Model.LabelerDisk

/-!
# Settings of processors: names, defaults and values allowed
-/

namespace Verif.Spec.ProcParams

open Verif Verif.LabelerDisk

/-- The settings of every class with their defaults. -/
def documented : ProcCls → List (String × Val)
  | .direct => []
  | .columnPost => []
  | .char => [("max_length", .int 3400), ("default_label", .str "UNKNOWN"), ("pad_label", .str "PAD"), ("flatten_split", .int 0),
      ("flatten_separator", .str " "), ("is_separate_at_max_len", .bool false)]
  | .charEncoded => [("encoding_map", .none), ("max_length", .int 5000), ("default_label", .str "UNKNOWN"), ("pad_label", .str "PAD"),
      ("flatten_split", .int 0), ("flatten_separator", .str " "), ("is_separate_at_max_len", .bool false)]
  | .structChar => [("max_length", .int 3400), ("default_label", .str "UNKNOWN"), ("pad_label", .str "PAD"),
      ("flatten_separator", .str "\x01\x01\x01\x01\x01"), ("is_separate_at_max_len", .bool false)]
  | .charPost => [("default_label", .str "UNKNOWN"), ("pad_label", .str "PAD"), ("flatten_separator", .str " "),
      ("use_word_level_argmax", .bool false), ("output_format", .str "character_argmax"),
      ("separators", .tuple [.str " ", .str ",", .str ";", .str "'", .str "\"", .str ":", .str "\n", .str "\t", .str "."]),
      ("word_level_min_percent", .float (3 / 4))]
  | .structCharPost => [("default_label", .str "UNKNOWN"), ("pad_label", .str "PAD"), ("flatten_separator", .str "\x01\x01\x01\x01\x01"),
      ("is_pred_labels", .bool true), ("random_state", .none)]
  | .regexPost => [("aggregation_func", .str "split"), ("priority_order", .none), ("random_state", .none)]
  | .structRegexPost => [("random_state", .none)]

/-- A text. -/
def Text (v : Val) : Prop := ∃ s, v = .str s

/-- A truth value. -/
def TruthValue (v : Val) : Prop := ∃ b, v = .bool b

/-- The value is this number; truth values count as numbers. -/
def IsNumber (v : Val) (q : ℚ) : Prop :=
  (∃ n : ℤ, v = .int n ∧ q = n) ∨ v = .float q ∨ (v = .bool true ∧ q = 1) ∨ (v = .bool false ∧ q = 0)

/-- A number from 0 to 1. -/
def Share (v : Val) : Prop := ∃ q, IsNumber v q ∧ 0 ≤ q ∧ q ≤ 1

/-- Texts in a list or tuple. -/
def Texts (v : Val) : Prop := ∃ l, (v = .list l ∨ v = .tuple l) ∧ ∀ x ∈ l, Text x

/-- A name in any mixture of small and capital letters. -/
def OneOf (names : List String) (v : Val) : Prop := ∃ s, v = .str s ∧ String.ofList (s.toList.map Char.toLower) ∈ names

/-- The values a setting may have. -/
def Legal (k : String) (v : Val) : Prop :=
  if k = "max_length" then (∃ n : ℤ, v = .int n ∧ 1 ≤ n) ∨ v = .bool true
  else if k = "default_label" ∨ k = "pad_label" ∨ k = "flatten_separator" then Text v
  else if k = "flatten_split" ∨ k = "word_level_min_percent" then Share v
  else if k = "is_separate_at_max_len" ∨ k = "use_word_level_argmax" ∨ k = "is_pred_labels" then TruthValue v
  else if k = "output_format" then OneOf ["character_argmax", "ner"] v
  else if k = "separators" then Texts v
  else if k = "encoding_map" then ∃ d, v = .dict d
  else if k = "aggregation_func" then OneOf ["split", "priority", "random"] v
  else if k = "priority_order" then v = .none ∨ (∃ l, v = .list l) ∨ ∃ l, v = .array l
  else if k = "random_state" then ∃ r, v = .rng r
  else False

/-- The state of a generator as it is given back. -/
def StateOf (l : List Val) : Prop :=
  ∃ w g, l = [.int 3, .tuple w, g] ∧ (∀ x ∈ w, (∃ n, x = .int n) ∨ ∃ b, x = .bool b) ∧ (g = .none ∨ ∃ q, g = .float q)

/-- What a constructor takes for a generator: nothing, a seed, a generator, or a state, which may also be written with lists. -/
def Generator (v : Val) : Prop :=
  v = .none ∨ (∃ b, v = .bool b) ∨ (∃ n, v = .int n) ∨ (∃ r, v = .rng r) ∨ (∃ l, v = .tuple l ∧ StateOf l) ∨
    ∃ l, v = .list l ∧ (StateOf l ∨ ∃ w g, l = [.int 3, .list w, g] ∧ StateOf [.int 3, .tuple w, g])

end Verif.Spec.ProcParams
