import Verif.Model.Abort

/-! # What an update that raises leaves behind -/

namespace Verif.Spec.Abort

open Verif.Abort

variable {β : Type}

/-- The order of work: all columns are cleaned, then all profiles of each column are updated, then the statistics of the table. -/
def order (o : Opts) (names : List String) : List Stage :=
  (names.map fun n => .clean n) ++ (names.flatMap fun n => (List.range o.parts).map fun k => .part n k) ++
    (if o.corr then [.corr] else []) ++ (if o.chi2 then [.chi2] else []) ++ [.total] ++ (if o.rows then [.rows] else []) ++
    (if o.nullRep then [.nullRep] else [])

/-- A step is reached and done: neither it nor any step before it raises (counting rows never does). -/
def Reached (raises : Stage → Bool) (work : List Stage) (s : Stage) : Prop :=
  ∃ pre post, work = pre ++ s :: post ∧ ∀ t ∈ pre ++ [s], t ≠ .total → raises t = false

/-- A list of batches gets one more exactly if something holds. -/
def Gets (r : Prop) (old new : List β) (d : β) : Prop := (r → new = old ++ [d]) ∧ (¬ r → new = old)

/-- The data of a batch are columns with different names, and there are rows. -/
def Proper (b : Batch β) : Prop := b.names ≠ [] ∧ b.names.Nodup ∧ b.rows ≠ 0

/-- A profile whose columns have different names and the profiles of the options. -/
def Sound (o : Opts) (p : Prof β) : Prop := (p.cols.map Prod.fst).Nodup ∧ ∀ x ∈ p.cols, x.2.parts.length = o.parts

/-- The columns on which an update works: at the first update new ones, without any batch. -/
def columnsBefore (o : Opts) (p : Prof β) (names : List String) : List (String × Col β) :=
  match p.cols with
  | [] => names.map fun n => (n, ⟨[], List.replicate o.parts []⟩)
  | c :: cs => c :: cs

/-- The batches whose update ended well. -/
def accepted (o : Opts) (p : Prof β) : List ((Stage → Bool) × Input β) → List (Batch β)
  | [] => []
  | c :: cs =>
    (match c.2, (update o c.1 p c.2).2 with
      | .batch b, .done => [b]
      | _, _ => []) ++ accepted o (update o c.1 p c.2).1 cs

/-- No update ended in the middle. -/
def NoneFailed (o : Opts) (p : Prof β) : List ((Stage → Bool) × Input β) → Prop
  | [] => True
  | c :: cs => (update o c.1 p c.2).2 ≠ .failed ∧ NoneFailed o (update o c.1 p c.2).1 cs

/-- Everything in the profile describes the same batches. -/
def Agrees (o : Opts) (p : Prof β) (bs : List (Batch β)) : Prop :=
  p.total = (bs.map Batch.rows).sum ∧
  (∀ x ∈ p.cols, x.2.counted = bs.map Batch.data ∧ x.2.parts = List.replicate o.parts (bs.map Batch.data)) ∧
  (o.corr = true → p.corr = bs.map Batch.data) ∧ (o.rows = true → p.rowStats = bs.map Batch.data) ∧
  (o.nullRep = true → p.nullRep = bs.map Batch.data) ∧ p.fileType = (bs.map Batch.data).getLast?

end Verif.Spec.Abort
