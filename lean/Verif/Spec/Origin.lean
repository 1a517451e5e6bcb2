import Verif.Model.Origin

/-! # Specification of file types and encodings of profilers -/

namespace Verif.Spec.Origin

open Verif.Origin

/-- A batch with data in it was given, directly or to an operand. -/
inductive Got : History → Batch → Prop
  | now {h : History} {b : Batch} (hb : b.len ≠ 0) : Got (.update h b) b
  | before {h : History} {b c : Batch} : Got h b → Got (.update h c) b
  | left {g h : History} {b : Batch} : Got g b → Got (.merge g h) b
  | right {g h : History} {b : Batch} : Got h b → Got (.merge g h) b

/-- Both operands of every merge had data. -/
inductive Fed : History → Prop
  | new : Fed .new
  | update {h : History} (b : Batch) : Fed h → Fed (.update h b)
  | merge {g h : History} : Fed g → Fed h → (∃ b, Got g b) → (∃ b, Got h b) → Fed (.merge g h)

/-- Data are given to profilers of their own only, and put together by merging. -/
inductive ByMerging : History → Prop
  | one (b : Batch) (hb : b.len ≠ 0) : ByMerging (.update .new b)
  | merge {g h : History} : ByMerging g → ByMerging h → ByMerging (.merge g h)

end Verif.Spec.Origin
