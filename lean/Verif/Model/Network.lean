import Mathlib.Algebra.Order.Field.Rat
import Verif.Model.LabelMap
import Verif.Model.CharProcess

/-!
# The networks of the character models

Models `CharacterLevelCnnModel` (dataprofiler/labelers/character_level_cnn_model.py) and `CharLoadTFModel`
(dataprofiler/labelers/char_load_tf_model.py): how the network is made, made anew for other labels, trained, validated and asked for
predictions, and the two layers of the project, `EncodingLayer` and `ThreshArgMaxLayer`.

A network is the list of its layers; what the layers calculate and how training changes their weights are parameters.  Characters are
code points.  Keras names layers by their class and a number; a name is modelled as such a pair, `("dense", 2)` for `dense_2`.
Writing the reduced embedding to a file, printing and logging are left out.
-/

namespace Verif.Network

open Verif

/-! ### Layers of the project -/

/-- `EncodingLayer.call` (character_level_cnn_model.py:180-201): one more than the code, at most one more than the largest code, filled
up with zeros or cut to the length. -/
def encode (maxCode maxLen : ℕ) (text : List ℕ) : List ℕ :=
  let codes := (text.map fun c => min (1 + c) (maxCode + 1)).take maxLen
  codes ++ List.replicate (maxLen - codes.length) 0

/-- `argmax`: the position of the first of the largest numbers. -/
def argmax (row : List ℚ) : ℕ := row.findIdx fun x => row.all fun y => y ≤ x

/-- `max` of a row that is not empty. -/
def largest : List ℚ → ℚ
  | [] => 0
  | a :: t => t.foldl max a

/-- `ThreshArgMaxLayer.call` for one character (character_level_cnn_model.py:121-147). -/
def threshArgMax (thresholds : List ℚ) (dflt : ℕ) (row : List ℚ) : ℤ :=
  let i := argmax row
  let mask : ℤ := if largest row ≥ thresholds.getD i 0 then 1 else 0
  dflt + ((i : ℤ) - dflt) * mask

/-- The row of the embedding matrix that is filled for a character (character_level_cnn_model.py:511-525); other rows are zero. -/
def embedRow {V : Type} (glove : ℕ → Option V) (zero : V) (maxCode row : ℕ) : V :=
  (((List.range maxCode).filter fun c => c + 1 = row).filterMap glove).getLast?.getD zero

/-! ### Networks -/

/-- Classes of layers. -/
inductive Cls
  | input
  | encoding (maxCode maxLen : ℕ)
  | embedding (rows : ℕ)
  | conv
  | dropout
  | norm
  | dense
  | thresh (dflt : ℕ)
  deriving DecidableEq

/-- A layer: its class, its name, how many numbers it returns for each character, and its weights. -/
structure Layer (W : Type) where
  cls : Cls
  name : String × ℕ
  units : ℕ
  weights : W
  deriving DecidableEq

/-- A network. -/
abbrev Net (W : Type) := List (Layer W)

/-- The numbers a batch of training returns: the loss and the metrics. -/
structure Scores where
  loss : ℚ
  crossentropy : ℚ
  acc : ℚ
  f1 : ℚ
  deriving DecidableEq

/-- A sample: the code points of a text and the numbers of the labels, one row for each character. -/
structure Sample where
  text : List ℕ
  labels : List (List ℚ)
  deriving DecidableEq

/-- What the library does: first weights of a layer, by the number of the draw and the place of the layer; the weights of the embedding;
the confidences for a text; the weights of each layer after a batch, and the scores.  `evaluate` is `evaluate_accuracy` of the predicted
and the true numbers of labels (see C62). -/
structure Env (W R : Type) where
  init : ℕ → ℕ → W
  glove : ℕ → ℕ → W
  forward : Net W → List ℕ → List (List ℚ)
  train : Net W → List Sample → (ℕ → W) × Scores
  evaluate : List (List ℕ) → List (List ℕ) → ℕ → Except Err R

/-- The parameters that make the network. -/
structure Params where
  maxLen : ℕ
  maxCode : ℕ
  dim : ℕ
  filters : List ℕ
  dense : List ℕ
  dropout : Bool
  dflt : String
  deriving DecidableEq

/-- The two classes: the network is made by the class, or read from a file, where it is a list of layers and the layer of the labels. -/
inductive Kind (W : Type)
  | cnn
  | loaded (body : Net W) (head : Layer W)

/-- A model (character_level_cnn_model.py:210-237, char_load_tf_model.py:31-60); `labels` and `dfltInd` are what the network was made for. -/
structure Model (W : Type) where
  kind : Kind W
  params : Params
  mapping : PyDict String ℕ
  net : Option (Net W)
  labels : ℕ
  dfltInd : Option ℕ
  epoch : ℕ
  draws : ℕ

variable {W R : Type}

/-- The layers of a new network without weights (character_level_cnn_model.py:484-567). -/
def skeleton (p : Params) (n d : ℕ) : List (Cls × (String × ℕ) × ℕ) :=
  [(.input, ("input_layer", 0), 0), (.encoding p.maxCode p.maxLen, ("encoding_layer", 0), 0),
    (.embedding (p.maxCode + 2), ("embedding", 0), p.dim)] ++
  (p.filters.zipIdx.flatMap fun x => (.conv, ("conv1d", x.2), x.1) ::
    ((if p.dropout then [(.dropout, ("dropout", x.2), 0)] else []) ++ [(.norm, ("batch_normalization", x.2), 0)])) ++
  (p.dense.zipIdx.flatMap fun x => (.dense, ("dense", x.2), x.1) ::
    (if p.dropout then [(.dropout, ("dropout", p.filters.length + x.2), 0)] else [])) ++
  [(.dense, ("dense", p.dense.length), n), (.thresh d, ("thresh_arg_max_layer", 0), 0)]

/-- First weights. -/
def fill (E : Env W R) (p : Params) (draw : ℕ) (l : List (Cls × (String × ℕ) × ℕ)) : Net W :=
  l.mapIdx fun i x => ⟨x.1, x.2.1, x.2.2, match x.1 with
    | .embedding _ => E.glove p.maxCode p.dim
    | _ => E.init draw i⟩

/-- `tf.keras.Model(inputs, outputs)`: names of layers must differ. -/
def checked (net : Net W) : Except Err (Net W) := if (net.map (·.name)).Nodup then .ok net else .error .valueError

/-- The number of the default label. -/
def Model.dfltNow (m : Model W) : Option ℕ := PyDict.get? m.mapping m.params.dflt

/-- The model with a new network (character_level_cnn_model.py:594-596, 652-654, char_load_tf_model.py:279-281, 333-335). -/
def Model.withNet (m : Model W) (net : Net W) (n d : ℕ) : Model W :=
  { m with net := some net, labels := n, dfltInd := some d, epoch := 0, draws := m.draws + 1 }

/-- A layer for the labels. -/
def head (E : Env W R) (m : Model W) (name : String × ℕ) (n : ℕ) : Layer W := ⟨.dense, name, n, E.init m.draws 0⟩

/-- `_construct_model` (character_level_cnn_model.py:478-596, char_load_tf_model.py:227-281): the model left behind and whether it raised.
A network read from a file is stored before it is adapted. -/
def construct (E : Env W R) (m : Model W) : Model W × Except Err Unit :=
  match m.dfltNow with
  | none => (m, .error .keyError)
  | some d =>
    let n := LabelMap.numLabels m.mapping
    match m.kind with
    | .cnn =>
      match checked (fill E m.params m.draws (skeleton m.params n d)) with
      | .error e => (m, .error e)
      | .ok net => (m.withNet net n d, .ok ())
    | .loaded body h =>
      match checked (body ++ [if h.units ≠ n then head E m ("softmax_output", 0) n else h]) with
      | .error e => ({ m with net := some (body ++ [h]) }, .error e)
      | .ok net => (m.withNet net n d, .ok ())

/-- `_need_to_reconstruct_model` (character_level_cnn_model.py:377-389, char_load_tf_model.py:150-162). -/
def need (m : Model W) : Except Err Bool :=
  match m.net with
  | none => .ok false
  | some _ =>
    match m.dfltNow with
    | none => .error .keyError
    | some d => .ok (decide (LabelMap.numLabels m.mapping ≠ m.labels ∨ some d ≠ m.dfltInd))

/-- `_reconstruct_model` (character_level_cnn_model.py:604-654, char_load_tf_model.py:291-335): the layers for labels are replaced. -/
def reconstruct (E : Env W R) (m : Model W) (net : Net W) : Model W × Except Err Unit :=
  match m.dfltNow with
  | none => (m, .error .keyError)
  | some d =>
    let n := LabelMap.numLabels m.mapping
    let layers := match m.kind with
      | .cnn => net.dropLast.dropLast ++
          [head E m ("dense", 2) n, ⟨.thresh d, ("thresh_arg_max_layer", 0), 0, E.init m.draws 1⟩]
      | .loaded _ _ => net.dropLast ++ [head E m ("softmax_output", 0) n]
    match checked layers with
    | .error e => (m, .error e)
    | .ok net => (m.withNet net n d, .ok ())

/-- The network made if there is none, and made for the labels as they are (character_level_cnn_model.py:399-402, 685-689,
char_load_tf_model.py:171-174, 367-371). -/
def ready (E : Env W R) (m : Model W) : Model W × Except Err Unit :=
  match m.net with
  | none => construct E m
  | some net =>
    match need m with
    | .error e => (m, .error e)
    | .ok true => reconstruct E m net
    | .ok false => (m, .ok ())

/-- A new model (character_level_cnn_model.py:210-237, char_load_tf_model.py:31-60); `CharLoadTFModel` numbers a missing padding label
otherwise. -/
def loadedSet (dflt : String) : LabelMap.Given String → Except Err (PyDict String ℕ)
  | .other => .error .typeError
  | .list l =>
    let l := if "PAD" ∈ l then l else "PAD" :: l
    if dflt ∈ l then LabelMap.setMapping false (.list l) else .error .valueError
  | .dict d =>
    let d := if PyDict.has d "PAD" then d else if 0 ∉ PyDict.values d then PyDict.set d "PAD" 0
      else PyDict.set d "PAD" (LabelMap.numLabels d)
    if PyDict.has d dflt then LabelMap.setMapping false (.dict d) else .error .valueError

/-- `set_label_mapping` of the two classes (character_level_cnn_model.py:346-375, char_load_tf_model.py:121-148; see C61). -/
def mappingOf (k : Kind W) (dflt : String) (g : LabelMap.Given String) : Except Err (PyDict String ℕ) :=
  match k with
  | .cnn => LabelMap.cnnSet "PAD" dflt g
  | .loaded _ _ => loadedSet dflt g

/-- `set_label_mapping`: the model left behind and whether it raised. -/
def setLabels (m : Model W) (g : LabelMap.Given String) : Model W × Except Err Unit :=
  match mappingOf m.kind m.params.dflt g with
  | .error e => (m, .error e)
  | .ok l => ({ m with mapping := l }, .ok ())

/-- A new model. -/
def new (k : Kind W) (p : Params) (g : LabelMap.Given String) : Except Err (Model W) :=
  match mappingOf k p.dflt g with
  | .error e => .error e
  | .ok l => .ok ⟨k, p, l, none, 0, none, 0, 0⟩

/-- `add_label` (base_model.py:197-231; see C61). -/
def addLabel (m : Model W) (label sameAs : Option String) : Model W × Except Err Unit :=
  ({ m with mapping := (LabelMap.addLabel m.mapping label sameAs).1 }, (LabelMap.addLabel m.mapping label sameAs).2)

/-! ### Training -/

/-- The network after a batch. -/
def retrained (net : Net W) (f : ℕ → W) : Net W := net.mapIdx fun i l => { l with weights := f i }

/-- `train_on_batch` for all batches (character_level_cnn_model.py:701-711): the network and the scores of the last batch. -/
def trainAll (E : Env W R) : Net W → Option Scores → List (List Sample) → Net W × Option Scores
  | net, s, [] => (net, s)
  | net, _, b :: bs => trainAll E (retrained net (E.train net b).1) (some (E.train net b).2) bs

/-- The largest code and the length of an encoding layer. -/
def encodingOf : Cls → Option (ℕ × ℕ)
  | .encoding c n => some (c, n)
  | _ => none

/-- What the network sees of a text. -/
def seen (net : Net W) (text : List ℕ) : List ℕ :=
  match net.findSome? fun l => encodingOf l.cls with
  | some (c, n) => encode c n text
  | none => text

/-- The confidences of a text, and the numbers of the labels. -/
def confidences (E : Env W R) (net : Net W) (text : List ℕ) : List (List ℚ) := E.forward net (seen net text)

/-- The numbers of the labels. -/
def labelled (E : Env W R) (net : Net W) (text : List ℕ) : List ℕ := (confidences E net text).map argmax

/-- `_validate_training` (character_level_cnn_model.py:748-802, char_load_tf_model.py:430-482); NumPy does not put together no arrays. -/
def validate (E : Env W R) (net : Net W) (n : ℕ) (batches : List (List Sample)) : Except Err R :=
  match batches with
  | [] => .error .valueError
  | _ => E.evaluate (batches.map fun b => b.map fun s => labelled E net s.text).flatten
      (batches.map fun b => b.map fun s => s.labels.map argmax).flatten n

/-- What `fit` returns: the scores of the last batch and the evaluation. -/
structure Fitted (R : Type) where
  history : Scores
  report : Option R

/-- `reset_weights` of `fit` (character_level_cnn_model.py:687-691): only if there was a network. -/
def resetIf (E : Env W R) (had reset : Bool) (m : Model W) : Model W × Except Err Unit :=
  if had && reset then construct E m else (m, .ok ())

/-- The loops of `fit` (character_level_cnn_model.py:693-745): without any batch the scores are not bound. `val` is what `if val_data:`
lets through: an empty list counts as no validation data, so `some []` is an iterator without batches. -/
def fitLoops (E : Env W R) (m : Model W) (train : List (List Sample)) (val : Option (List (List Sample))) :
    Model W × Except Err (Fitted R) :=
  match m.net with
  | none => (m, .error .attributeError)
  | some net =>
    let out := trainAll E net none train
    let m := { m with net := some out.1 }
    match out.2 with
    | none => (m, .error .exception)
    | some s =>
      match val with
      | none => ({ m with epoch := m.epoch + 1 }, .ok ⟨s, none⟩)
      | some v =>
        match validate E out.1 (LabelMap.numLabels m.mapping) v with
        | .error e => (m, .error e)
        | .ok r => ({ m with epoch := m.epoch + 1 }, .ok ⟨s, some r⟩)

/-- `label_mapping` of `fit`. -/
def setLabelsIf (m : Model W) : Option (LabelMap.Given String) → Model W × Except Err Unit
  | none => (m, .ok ())
  | some g => setLabels m g

/-- `fit` (character_level_cnn_model.py:657-745, char_load_tf_model.py:337-428): the model left behind, and the result. -/
def fit (E : Env W R) (m : Model W) (labels : Option (LabelMap.Given String)) (reset : Bool) (train : List (List Sample))
    (val : Option (List (List Sample))) : Model W × Except Err (Fitted R) :=
  match setLabelsIf m labels with
  | (m, .error e) => (m, .error e)
  | (m, .ok ()) =>
    match ready E m with
    | (m', .error e) => (m', .error e)
    | (m', .ok ()) =>
      match resetIf E m.net.isSome reset m' with
      | (m', .error e) => (m', .error e)
      | (m', .ok ()) => fitLoops E m' train val

/-! ### Predictions -/

/-- NumPy spreads a single number. -/
def spread (width : ℕ) (row : List ℕ) : List ℕ :=
  match row with
  | [x] => List.replicate width x
  | row => row

/-- `predict` of the network made by the class (character_level_cnn_model.py:808-902): the rows must have the length given by the
parameters. -/
def predictCnn (E : Env W R) (m : Model W) (size : ℕ) (batches : List (List (List ℕ))) : Except Err (List (List ℕ)) :=
  match m.net with
  | none => .error .valueError
  | some net =>
    match need m with
    | .error e => .error e
    | .ok true => .error .exception
    | .ok false =>
      if batches.any fun b => b.any fun t => (spread m.params.maxLen (labelled E net t)).length ≠ m.params.maxLen then
        .error .valueError
      else CharProcess.predict (List.replicate m.params.maxLen 0)
        (fun b => b.map fun t => spread m.params.maxLen (labelled E net t)) size batches

/-- The lists of `predict` of a loaded network (char_load_tf_model.py:519-545): doubled, and written to by slices. -/
def gather : List (List ℕ) → ℕ → List (List (List ℕ)) → List (List ℕ) × ℕ
  | preds, i, [] => (preds, i)
  | preds, i, out :: outs =>
    let preds := if preds.length ≤ i then preds ++ preds else preds
    gather (preds.take i ++ out ++ preds.drop (i + out.length)) (i + out.length) outs

/-- The network of a loaded model before it predicts (char_load_tf_model.py:507-515). -/
def able (E : Env W R) (m : Model W) : Model W × Except Err Unit :=
  match m.net with
  | none => construct E m
  | some _ =>
    match need m with
    | .error e => (m, .error e)
    | .ok true => (m, .error .exception)
    | .ok false => (m, .ok ())

/-- `predict` of a loaded network (char_load_tf_model.py:488-553). -/
def predictLoaded (E : Env W R) (m : Model W) (batches : List (List (List ℕ))) : Model W × Except Err (List (List ℕ)) :=
  match able E m with
  | (m, .error e) => (m, .error e)
  | (m, .ok ()) =>
    match m.net with
    | none => (m, .error .attributeError)
    | some net =>
      let out := gather [] 0 (batches.map fun b => b.map fun t => labelled E net t)
      (m, .ok (out.1.take out.2))

/-- `predict` of either class: the model left behind, and the predictions. -/
def predict (E : Env W R) (m : Model W) (size : ℕ) (batches : List (List (List ℕ))) : Model W × Except Err (List (List ℕ)) :=
  match m.kind with
  | .cnn => (m, predictCnn E m size batches)
  | .loaded _ _ => predictLoaded E m batches

/-! ### Histories -/

/-- What can be done with a model. -/
inductive Op
  | labels (g : LabelMap.Given String)
  | add (label sameAs : Option String)
  | params (p : Params)
  | fit (labels : Option (LabelMap.Given String)) (reset : Bool) (train : List (List Sample)) (val : Option (List (List Sample)))
  | reset
  | save
  | predict (size : ℕ) (batches : List (List (List ℕ)))

/-- The model after an operation, whether it raised or not. -/
def step (E : Env W R) (m : Model W) : Op → Model W
  | .labels g => (setLabels m g).1
  | .add l s => (addLabel m l s).1
  | .params p => { m with params := p }
  | .fit l r t v => (fit E m l r t v).1
  | .reset => (construct E m).1
  | .save => (ready E m).1
  | .predict n b => (predict E m n b).1

end Verif.Network
