import Verif.Model.Network

/-!
# What the networks of the character models are to do
-/

namespace Verif.Spec.Network

open Verif Verif.Network

variable {W R : Type}

/-- A layer without its weights. -/
def sig (l : Layer W) : Cls × (String × ℕ) × ℕ := (l.cls, l.name, l.units)

/-- The number of labels a network tells apart: what its last dense layer returns. -/
def outputs (net : Net W) : ℕ :=
  match (net.filter fun l => l.cls = .dense).getLast? with
  | some l => l.units
  | none => 0

/-- The network returns as many numbers for each character as its last dense layer has. -/
def Sound (E : Env W R) : Prop :=
  ∀ net codes, (E.forward net codes).length = codes.length ∧ ∀ row ∈ E.forward net codes, row.length = outputs net

/-- The network of a model was made for its labels: for their number and for the number of the default label. -/
def Current (m : Model W) : Prop :=
  m.net.isSome ∧ m.labels = LabelMap.numLabels m.mapping ∧ m.dfltInd = PyDict.get? m.mapping m.params.dflt ∧
    (PyDict.get? m.mapping m.params.dflt).isSome

/-- The place of the largest of some numbers, the first one if there are several. -/
def Best (row : List ℚ) (k : ℕ) : Prop := ∃ h : k < row.length, (∀ x ∈ row, x ≤ row[k]) ∧ ∀ j (hj : j < k), row[j] < row[k]

/-- The numbers of labels for a text, by the confidences of its characters. -/
def Answers (conf : List (List ℚ)) (row : List ℕ) : Prop := List.Forall₂ Best conf row

/-- What the network is given of a text: the codes of the first characters, the same for all characters beyond a code, then zeros. -/
def Codes (maxCode maxLen : ℕ) (text codes : List ℕ) : Prop :=
  codes.length = maxLen ∧ ∀ i < maxLen, codes[i]? = some (if h : i < text.length then min text[i] maxCode + 1 else 0)

/-- A network after some batches: every batch changes weights, and nothing else. -/
inductive Trained (E : Env W R) : Net W → List (List Sample) → Net W → Prop
  | done (net : Net W) : Trained E net [] net
  | batch {net net' net'' : Net W} {b : List Sample} {bs : List (List Sample)} (same : net'.map sig = net.map sig)
      (weights : ∀ i (h : i < net'.length), net'[i].weights = (E.train net b).1 i) (rest : Trained E net' bs net'') :
      Trained E net (b :: bs) net''

/-- A network read from a file that can be adapted: its layers have different names, none of them the name of the layer put there, and
the layer for the labels is a dense one. -/
def Adaptable : Kind W → Prop
  | .cnn => True
  | .loaded body h => (body.map fun l => l.name).Nodup ∧ (∀ l ∈ body, l.name ≠ ("softmax_output", 0) ∧ l.name ≠ h.name) ∧ h.cls = .dense

/-- A network as it is before any training: first weights from one draw, or the network of the file with, perhaps, a new last layer. -/
def Fresh (E : Env W R) (k : Kind W) (p : Params) (net : Net W) : Prop :=
  match k with
  | .cnn => ∃ n, ∀ (i : ℕ) (l : Layer W), net[i]? = some l → l.weights = match l.cls with
      | .embedding _ => E.glove p.maxCode p.dim
      | _ => E.init n i
  | .loaded b h => ∃ l, net = b ++ [l] ∧ (l = h ∨ ∃ n, l.weights = E.init n 0)

/-- A network made for other labels: only the layers for labels are new. -/
def Adapted (E : Env W R) (net net' : Net W) : Prop :=
  ∃ body old new : Net W, net = body ++ old ∧ net' = body ++ new ∧ old.length = new.length ∧ old.length ≤ 2 ∧
    (∀ l ∈ old, l.cls = .dense ∨ ∃ d, l.cls = .thresh d) ∧ ∃ n, ∀ (i : ℕ) (l : Layer W), new[i]? = some l → l.weights = E.init n i

/-- A model after a history. -/
def after (E : Env W R) (m : Model W) (ops : List Op) : Model W := ops.foldl (step E) m

/-- The parameters given in a history. -/
def given : List Op → List Params
  | [] => []
  | .params p :: ops => p :: given ops
  | _ :: ops => given ops

end Verif.Spec.Network
