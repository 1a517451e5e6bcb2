import Verif.Model.ModelObjects

/-!
# What a program sees of its models
-/

namespace Verif.Spec.ModelObjects

open Verif Verif.LabelerDisk Verif.ModelObjects

/-- Class, settings and label mapping of a model; settings as a function of the name. -/
def Shown (s : State) (i : ℕ) (c : Cls) (settings : String → Option Val) (labels : PyDict String ℕ) : Prop :=
  ∃ o, s.models[i]? = some o ∧ o.cls = c ∧ (∀ k, PyDict.get? (s.dicts.getD o.params []) k = settings k) ∧ o.mapping = labels

/-- The program hands over dictionaries it does not use for anything else. -/
def Own : Op → Prop
  | .write _ _ _ => False
  | .construct _ _ (.shared _) _ => False
  | _ => True

/-- The step is done to the model. -/
def Addresses : Op → ℕ → Prop
  | .setParams i _, j => i = j
  | .setLabels i _, j => i = j
  | .addLabel i _ _, j => i = j
  | _, _ => False

/-- The settings a class always has: the name, and whether a given value is replaced; `none` where the value is the path. -/
def fixed : Cls → String → Option (Option Val)
  | .known .cnn, "pad_label" => some (some (.str "PAD"))
  | .tf, "pad_label" => some (some (.str "PAD"))
  | .tf, "model_path" => some none
  | _, _ => none

/-- The default of a setting. -/
def fallback (c : Cls) (k : String) : Option Val :=
  match c with
  | .tf => if k = "default_label" then some (.str "UNKNOWN") else none
  | .known .regex =>
    if k = "default_label" then some (.str "UNKNOWN")
    else if k = "ignore_case" then some (.bool true)
    else if k = "regex_patterns" then some (.dict [])
    else if k = "encapsulators" then some (.dict [("start", .str ""), ("end", .str "")])
    else none
  | .known .columnName =>
    if k = "include_label" then some (.bool true)
    else if k ∈ ["false_positive_dict", "true_positive_dict", "negative_threshold_config", "positive_threshold_config"] then some .none
    else none
  | .known .cnn =>
    if k = "default_label" then some (.str "UNKNOWN")
    else if k = "max_length" then some (.int 3400)
    else if k = "max_char_encoding_id" then some (.int 127)
    else if k = "dim_embed" then some (.int 64)
    else if k = "size_conv" then some (.int 13)
    else if k = "dropout" then some (.float (73 / 1000))
    else if k = "size_fc" then some (.list [.int 96, .int 96])
    else if k = "num_fil" then some (.list [.int 48, .int 48, .int 48, .int 48])
    else none

/-- The settings of a new model. -/
def settingsOf (c : Cls) (path : Val) (given : String → Option Val) (k : String) : Option Val :=
  match fixed c k with
  | some v => some (v.getD path)
  | none => (given k).or (fallback c k)

/-- One dictionary over another. -/
def Over (new old : String → Option Val) (k : String) : Option Val := (new k).or (old k)

end Verif.Spec.ModelObjects
