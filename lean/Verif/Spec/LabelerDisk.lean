import Verif.Model.LabelerDisk

/-!
# What it means that a labeler is the one that was saved
-/

namespace Verif.LabelerDisk.Spec

open Verif LabelerDisk

mutual
/-- A value as it matters for labelling: a tuple is a sequence like a list, a generator is its state. -/
def form : Val → Val
  | .list l => .list (formList l)
  | .tuple l => .list (formList l)
  | .array l => .array (formList l)
  | .dict d => .dict (formDict d)
  | .rng r => .rng ⟨0, r.state⟩
  | v => v
def formList : List Val → List Val
  | [] => []
  | v :: t => form v :: formList t
def formDict : List (String × Val) → List (String × Val)
  | [] => []
  | (k, v) :: t => (k, form v) :: formDict t
end

mutual
/-- Nothing in the value is an array, a compiled expression or a generator. -/
def plain : Val → Bool
  | .list l => plainList l
  | .tuple l => plainList l
  | .dict d => plainDict d
  | .array _ => false
  | .pattern _ => false
  | .rng _ => false
  | _ => true
def plainList : List Val → Bool
  | [] => true
  | v :: t => plain v && plainList t
def plainDict : List (String × Val) → Bool
  | [] => true
  | (_, v) :: t => plain v && plainDict t
end

mutual
/-- There is no tuple in the value, and no dictionary in it has a key twice. -/
def simple : Val → Bool
  | .list l => simpleList l
  | .tuple _ => false
  | .dict d => decide (d.map Prod.fst).Nodup && simpleDict d
  | .array l => simpleList l
  | _ => true
def simpleList : List Val → Bool
  | [] => true
  | v :: t => simple v && simpleList t
def simpleDict : List (String × Val) → Bool
  | [] => true
  | (_, v) :: t => simple v && simpleDict t
end

/-- The same parameters. -/
def SameParams (a b : Params) : Prop := ∀ k, (PyDict.get? a k).map form = (PyDict.get? b k).map form

/-- The same processor. -/
structure SameProc (p q : Proc) : Prop where
  cls : q.cls = p.cls
  params : SameParams p.params q.params

/-- The same model, with the same weights. -/
structure SameModel {W : Type} (m n : Model W) : Prop where
  cls : n.cls = m.cls
  params : SameParams m.params n.params
  labels : ∀ l, PyDict.get? n.mapping l = PyDict.get? m.mapping l
  weights : n.net.map Net.weights = m.net.map Net.weights

/-- The same labeler. -/
structure SameLabeler {W : Type} (a b : Labeler W) : Prop where
  model : SameModel a.model b.model
  pre : SameProc a.pre b.pre
  post : SameProc a.post b.post

/-- Processors that a user can have: constructed, with parameters set any number of times. -/
inductive MadeProc {W : Type} (E : Env W) : Proc → Prop
  | init {id : ℕ} {c : ProcCls} {kw : Params} {p : Proc} (h : initProc E id c kw = .ok p) : MadeProc E p
  | set {p q : Proc} {kw : Params} (hp : MadeProc E p) (h : p.set kw = .ok q) : MadeProc E q

/-- Models that a user can have: constructed, with parameters and labels changed any number of times, possibly trained. -/
inductive MadeModel {W : Type} (E : Env W) : Model W → Prop
  | init {c : ModelCls} {kw : Params} {l : PyDict String ℕ} {m : Model W} (hk : PyDict.WF kw) (hl : PyDict.WF l)
      (h : initModel E c l kw = .ok m) : MadeModel E m
  | set {m n : Model W} {kw : Params} (hm : MadeModel E m) (h : m.set E kw = .ok n) : MadeModel E n
  | relabel {m n : Model W} {l : PyDict String ℕ} (hm : MadeModel E m) (hl : PyDict.WF l) (h : m.relabel l = .ok n) :
      MadeModel E n
  | add {m n : Model W} {l s : Option String} (hm : MadeModel E m) (h : m.addLabel l s = .ok n) : MadeModel E n
  | train {m : Model W} (hm : MadeModel E m) (hc : m.cls = .cnn) (net : Net W) : MadeModel E { m with net := some net }

/-- The settings of a processor go together: a priority needs an order, and what a constructor fixes was not changed. -/
structure Fits (p : Proc) : Prop where
  order : p.cls = .regexPost → PyDict.get? p.params "aggregation_func" = some (.str "priority") →
    PyDict.get? p.params "priority_order" ≠ some .none
  split : p.cls = .structChar → PyDict.get? p.params "flatten_split" = some (.float 1)

/-- The settings of a model go together: expressions are given for its labels only, the settings of a column name model pass
its check together, and the padding of a network is the one it is constructed with. -/
structure FitsModel {W : Type} (E : Env W) (m : Model W) : Prop where
  labels : m.cls = .regex → ∀ d k, PyDict.get? m.params "regex_patterns" = some (.dict d) → k ∈ d.map Prod.fst →
    k ∈ m.mapping.map Prod.fst
  columns : m.cls = .columnName → validate E .columnName m.mapping m.params = .ok ()
  pad : m.cls = .cnn → PyDict.get? m.params "pad_label" = some (.str "PAD")

/-- A labeler that a user can have, whose settings go together. -/
structure Usable {W : Type} (E : Env W) (l : Labeler W) : Prop where
  model : MadeModel E l.model
  fits : FitsModel E l.model
  pre : MadeProc E l.pre
  fitsPre : Fits l.pre
  post : MadeProc E l.post
  fitsPost : Fits l.post
  preKind : l.pre.cls ∈ [.direct, .char, .charEncoded, .structChar]
  postKind : l.post.cls ∈ [.charPost, .structCharPost, .regexPost, .structRegexPost, .columnPost]

/-- All values of a processor can be written as JSON; the generator is written as its state, and the hidden parameter of the
preprocessor for structured data is not written. -/
def WritableProc (p : Proc) : Prop :=
  ∀ k v, PyDict.get? p.params k = some v → k ≠ "random_state" → ¬ (p.cls = .structChar ∧ k = "flatten_split") → plain v = true

/-- All of a labeler can be written, and the default label of a network is one of its labels. -/
structure Writable {W : Type} (l : Labeler W) : Prop where
  params : ∀ k v, PyDict.get? l.model.params k = some v → plain v = true
  dflt : l.model.cls = .cnn → ∃ s i, PyDict.get? l.model.params "default_label" = some (.str s) ∧
    PyDict.get? l.model.mapping s = some i
  pre : WritableProc l.pre
  post : WritableProc l.post

/-- Given instances are of the classes of the labeler. -/
structure OptionsFit {W : Type} (o : LoadOptions) (l : Labeler W) : Prop where
  model : ∀ c, o.model = some c → c = l.model.cls
  pre : ∀ c, o.pre = some c → c = l.pre.cls
  post : ∀ c, o.post = some c → c = l.post.cls

end Verif.LabelerDisk.Spec
