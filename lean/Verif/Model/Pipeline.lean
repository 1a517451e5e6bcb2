import Verif.Model.Basic
import Verif.Model.PyDict

/-!
# Parameters of a data labeler

`BaseDataLabeler.set_params` and `check_pipeline` (labelers/base_data_labeler.py:192-245, 382-447), `set_params` and `get_parameters`
of models (labelers/base_model.py:161-195) and processors (labelers/data_processing.py:98-127), and of `StructRegexPostProcessor`, which
hands its parameters on (labelers/data_processing.py:2076-2121). Whether a class accepts parameters is a parameter.
-/

namespace Verif.Pipeline

open Verif

variable {V : Type} [DecidableEq V]

/-- The `RegexPostProcessor` in a `StructRegexPostProcessor` (labelers/data_processing.py:2092-2095); `value` is the object as the value of
a parameter, told by its own parameters. -/
structure Inner (V : Type) where
  params : PyDict String V
  valid : PyDict String V → Bool
  value : PyDict String V → V

/-- A model or processor; `mapping` is the label mapping of a model, `inner` the processor of a `StructRegexPostProcessor`. -/
structure Component (V : Type) where
  params : PyDict String V
  mapping : Option V
  valid : PyDict String V → Bool
  inner : Option (Inner V)

/-- `for param in kwargs: self._parameters[param] = kwargs[param]`. -/
def assign (d kw : PyDict String V) : PyDict String V := kw.foldl (fun d x => PyDict.set d x.1 x.2) d

/-- `set_params` of a component: all parameters are checked first. A `StructRegexPostProcessor` takes those of its constructor only and hands
them on. -/
def Component.set (c : Component V) (kw : PyDict String V) : Component V × Except Err Unit :=
  match c.inner with
  | none => if c.valid kw then ({ c with params := assign c.params kw }, .ok ()) else (c, .error .valueError)
  | some i =>
    if ∃ k ∈ PyDict.keys kw, k ∉ ["random_state"] then (c, .error .valueError)
    else if i.valid kw then ({ c with inner := some { i with params := assign i.params kw } }, .ok ())
    else (c, .error .valueError)

/-- `get_parameters()` of a component. -/
def Component.get (c : Component V) : PyDict String V :=
  match c.mapping, c.inner with
  | none, none => c.params
  | some v, _ => PyDict.set c.params "label_mapping" v
  | none, some i => PyDict.set c.params "regex_processor" (i.value i.params)

structure Pipeline (V : Type) where
  pre : Option (Component V)
  model : Option (Component V)
  post : Option (Component V)

/-- `get_parameter_overlap_mismatches` (base_data_labeler.py:399-415). -/
def mismatches (d e : PyDict String V) : List String :=
  (PyDict.keys d).filter fun k => PyDict.has e k ∧ PyDict.get? d k ≠ PyDict.get? e k

/-- `check_pipeline` (base_data_labeler.py:382-447): the parameters warned about. -/
def check (P : Pipeline V) (skipPost err : Bool) : Except Err (List String) :=
  match P.model, P.pre with
  | some m, some p =>
    let msgs : Except Err (List String) :=
      if skipPost then .ok (mismatches m.get p.get)
      else
        match P.post with
        | none => .error .attributeError
        | some q => .ok (mismatches m.get p.get ++ mismatches m.get q.get ++ mismatches p.get q.get)
    match msgs with
    | .error e => .error e
    | .ok msgs => if msgs ≠ [] ∧ err then .error .exception else .ok msgs
  | _, _ => .error .attributeError

/-- One component of `set_params` (base_data_labeler.py:236-241). -/
def setPart (c : Option (Component V)) (kw : Option (PyDict String V)) : Option (Component V) × Except Err Unit :=
  match c, kw with
  | some c, some kw => let r := c.set kw; (some r.1, r.2)
  | c, _ => (c, .ok ())

/-- `set_params` of a data labeler (base_data_labeler.py:192-245) with a dictionary; the result is the state left behind and what is
raised or warned about. -/
def setParams (P : Pipeline V) (kw : PyDict String (PyDict String V)) : Pipeline V × Except Err (List String) :=
  if kw.isEmpty ∨ ∃ k ∈ PyDict.keys kw, k ∉ ["preprocessor", "model", "postprocessor"] then (P, .error .valueError)
  else if (P.pre.isNone ∧ PyDict.has kw "preprocessor") ∨ (P.model.isNone ∧ PyDict.has kw "model")
      ∨ (P.post.isNone ∧ PyDict.has kw "postprocessor") then (P, .error .valueError)
  else
    let r1 := setPart P.pre (PyDict.get? kw "preprocessor")
    let P := { P with pre := r1.1 }
    match r1.2 with
    | .error e => (P, .error e)
    | .ok () =>
      let r2 := setPart P.model (PyDict.get? kw "model")
      let P := { P with model := r2.1 }
      match r2.2 with
      | .error e => (P, .error e)
      | .ok () =>
        let r3 := setPart P.post (PyDict.get? kw "postprocessor")
        let P := { P with post := r3.1 }
        match r3.2 with
        | .error e => (P, .error e)
        | .ok () => (P, check P P.post.isNone false)

end Verif.Pipeline
