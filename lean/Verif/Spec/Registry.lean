import Verif.Model.Registry

/-!
# What was registered

The order in which classes came into being in a process, and what is the latest of a name. No dictionaries.
-/

namespace Verif.Spec.Registry

open Verif.Registry

variable {F : Type}

/-- The modules that are asked for by an operation, in order: a lookup asks for three. -/
def asked : Op F → List Mod
  | .importMod m => [m]
  | .lookup _ => [.cnn, .columnName, .regex]
  | _ => []

/-- Modules that come into being when modules are asked for; the first that cannot be imported ends the operation. -/
def arriving (ml : Bool) (seen : List Mod) : List Mod → List Mod
  | [] => []
  | m :: ms =>
    if m ∈ seen then arriving ml seen ms
    else if (m = .cnn ∨ m = .charLoad) ∧ ml = false then []
    else m :: arriving ml (m :: seen) ms

/-- The models in the order in which they came into being. -/
def modelLog (ml : Bool) (seen : List Mod) : List (Op F) → List Cls
  | [] => []
  | .model c :: ops => c :: modelLog ml seen ops
  | op :: ops => (arriving ml seen (asked op)).map Mod.cls ++ modelLog ml (arriving ml seen (asked op) ++ seen) ops

/-- The processors. -/
def procLog : List (Op F) → List Cls
  | [] => []
  | .proc c :: ops => c :: procLog ops
  | _ :: ops => procLog ops

/-- The plugins of a type: names and functions in order. -/
def pluginLog (typ : String) : List (Op F) → List (String × F)
  | [] => []
  | .plugin t n f :: ops => if t = typ then (n, f) :: pluginLog typ ops else pluginLog typ ops
  | _ :: ops => pluginLog typ ops

/-- The processors that the documentation of the package names or that its labelers use. -/
def processorNames : List String :=
  ["DirectPassPreprocessor", "CharPreprocessor", "CharEncodedPreprocessor", "CharPostprocessor", "StructCharPreprocessor",
    "StructCharPostprocessor", "RegexPostProcessor", "StructRegexPostProcessor", "ColumnNameModelPostprocessor"]

/-- The last element with a property. -/
def IsLast {α : Type} (p : α → Prop) (l : List α) (a : α) : Prop := ∃ pre post, l = pre ++ a :: post ∧ p a ∧ ∀ b ∈ post, ¬ p b

end Verif.Spec.Registry
