import Verif.Lemmas.ColumnJsonMore

/-!
# Column profiles, compilers, options and columns as JSON (C85)
-/

namespace Verif.Props.ColumnJson

open Verif Verif.ColumnJson Verif.Spec.ColumnJson
open Verif.Schema (Key)

variable {F T L : Type} {lib : Lib F T L}

/-! ### An example of libraries -/

/-- Whole numbers, moments by their names, and labelers by their places. -/
def lib0 : Lib ℤ String (Option String) where
  ofRat q := q.num
  nan := -1
  isNan z := z == -1
  parseFloat _ := none
  fmt z := match z with
    | .ofNat n => String.ofList (List.replicate n '+')
    | .negSucc n => String.ofList ('-' :: List.replicate n '-')
  parseInt s := match s.toList with
    | '-' :: t => some (.negSucc t.length)
    | t => some (.ofNat t.length)
  iso t := t
  timestamp s := if s = "0001-01-01" then .error .valueError else .ok s
  location l := l
  library s := .ok (some s)
  newLabeler := .ok (some "default")

theorem lib0_ok : LibOk lib0 := by
  have ints : ∀ z, lib0.parseInt (lib0.fmt z) = some z := by
    intro z
    cases z with
    | ofNat n =>
      cases n with
      | zero => rfl
      | succ n =>
        have h : lib0.fmt (.ofNat (n + 1)) = String.ofList ('+' :: List.replicate n '+') := rfl
        rw [h]; simp [lib0]
    | negSucc n =>
      have h : lib0.fmt (.negSucc n) = String.ofList ('-' :: List.replicate n '-') := rfl
      rw [h]; simp [lib0]
  refine ⟨ints, fun y z h => ?_, fun l s h => ⟨some s, rfl, rfl⟩⟩
  have := ints y
  rw [h, ints z] at this
  exact (Option.some.inj this).symm

/-! ### What can be written -/

theorem dump_of_writable {v : Val F T L} (h : Writable lib v) : ∃ w, dump lib v = .ok w := by
  have pairs : ∀ d : List (Key × Val F T L), (∀ k v, (k, v) ∈ d → ∃ w, dump lib v = .ok w) → ∃ e, dumpPairs lib d = .ok e := by
    intro d hd
    induction d with
    | nil => exact ⟨[], by rw [dumpPairs]⟩
    | cons x t ih =>
      obtain ⟨w, hw⟩ := hd x.1 x.2 List.mem_cons_self
      obtain ⟨e, he⟩ := ih fun k v hv => hd k v (List.mem_cons_of_mem _ hv)
      exact ⟨(jsonKey lib x.1, w) :: e, by rw [dumpPairs, hw]; simp [he, Except.map]⟩
  have lists : ∀ l : List (Val F T L), (∀ v ∈ l, ∃ w, dump lib v = .ok w) → ∃ e, dumpList lib l = .ok e := by
    intro l hl
    obtain ⟨m, hm, _⟩ := dumpList_ok l hl
    exact ⟨m, hm⟩
  induction h with
  | none => exact ⟨_, by rw [dump]⟩
  | bool b => exact ⟨_, by rw [dump]⟩
  | str s => exact ⟨_, by rw [dump]⟩
  | func s => exact ⟨_, by rw [dump]⟩
  | @num v x h => cases v <;> simp only [number, reduceCtorEq] at h <;> exact ⟨_, by rw [dump]⟩
  | @time v x h => cases v <;> simp only [moment, reduceCtorEq] at h <;> exact ⟨_, by rw [dump]⟩
  | labeler h => exact ⟨_, by rw [dump, h]⟩
  | list _ ih => obtain ⟨e, he⟩ := lists _ ih; exact ⟨_, by rw [dump, he]; rfl⟩
  | set _ ih => obtain ⟨e, he⟩ := lists _ ih; exact ⟨_, by rw [dump, he]; rfl⟩
  | array _ ih => obtain ⟨e, he⟩ := ih; exact ⟨e, by rw [dump, he]⟩
  | dict _ ih => obtain ⟨e, he⟩ := pairs _ ih; exact ⟨_, by rw [dump, he]; rfl⟩
  | ddict _ ih => obtain ⟨e, he⟩ := pairs _ ih; exact ⟨_, by rw [dump, he]; rfl⟩
  | obj _ ih => obtain ⟨e, he⟩ := pairs _ ih; exact ⟨_, by rw [dump, he]; rfl⟩

mutual
theorem writable_of_dump : ∀ (v w : Val F T L), dump lib v = .ok w → Writable lib v
  | .none, _, _ => .none
  | .bool b, _, _ => .bool b
  | .int _, _, _ => .num rfl
  | .float _, _, _ => .num rfl
  | .str s, _, _ => .str s
  | .npInt _, _, _ => .num rfl
  | .npFloat _, _, _ => .num rfl
  | .list l, w, h => by
    rw [dump] at h
    cases hl : dumpList lib l with
    | error e => rw [hl] at h; cases h
    | ok m => exact .list (writable_of_list l m hl)
  | .set l, w, h => by
    rw [dump] at h
    cases hl : dumpList lib l with
    | error e => rw [hl] at h; cases h
    | ok m => exact .set (writable_of_list l m hl)
  | .array v, w, h => by rw [dump] at h; exact .array (writable_of_dump v w h)
  | .dict d, w, h => by
    rw [dump] at h
    cases hl : dumpPairs lib d with
    | error e => rw [hl] at h; cases h
    | ok m => exact .dict (writable_of_pairs d m hl)
  | .ddict _ d, w, h => by
    rw [dump] at h
    cases hl : dumpPairs lib d with
    | error e => rw [hl] at h; cases h
    | ok m => exact .ddict (writable_of_pairs d m hl)
  | .stamp _, _, _ => .time rfl
  | .date _, _, _ => .time rfl
  | .func s, _, _ => .func s
  | .flag _, _, _ => .num rfl
  | .labeler l, w, h => by
    rw [dump] at h
    cases hl : lib.location l with
    | none => rw [hl] at h; cases h
    | some s => exact .labeler hl
  | .sketch, _, h => by rw [dump] at h; cases h
  | .obj _ d, w, h => by
    rw [dump] at h
    cases hl : dumpPairs lib d with
    | error e => rw [hl] at h; cases h
    | ok m => exact .obj (writable_of_pairs d m hl)

theorem writable_of_list : ∀ (l m : List (Val F T L)), dumpList lib l = .ok m → ∀ v ∈ l, Writable lib v
  | [], _, _ => by simp
  | v :: t, m, h => by
    rw [dumpList] at h
    cases hv : dump lib v with
    | error e => rw [hv] at h; cases h
    | ok w =>
      rw [hv] at h
      cases ht : dumpList lib t with
      | error e => simp [ht, Except.map] at h
      | ok m' =>
        intro x hx
        rcases List.mem_cons.1 hx with hx | hx
        · exact hx ▸ writable_of_dump v w hv
        · exact writable_of_list t m' ht x hx

theorem writable_of_pairs : ∀ (d e : List (Key × Val F T L)), dumpPairs lib d = .ok e → ∀ k v, (k, v) ∈ d → Writable lib v
  | [], _, _ => by simp
  | (k, v) :: t, m, h => by
    rw [dumpPairs] at h
    cases hv : dump lib v with
    | error e => rw [hv] at h; cases h
    | ok w =>
      rw [hv] at h
      cases ht : dumpPairs lib t with
      | error e => simp [ht, Except.map] at h
      | ok m' =>
        intro k' x hx
        rcases List.mem_cons.1 hx with hx | hx
        · exact (Prod.mk.inj hx).2 ▸ writable_of_dump v w hv
        · exact writable_of_pairs t m' ht k' x hx
end

/-- An object can be saved exactly if there is no sketch in it, and no labeler without a place in the library. -/
theorem C85_writes (v : Val F T L) : (∃ w, dump lib v = .ok w) ↔ Writable lib v :=
  ⟨fun ⟨w, h⟩ => writable_of_dump v w h, dump_of_writable⟩

/-- A labeler in a set in an array in an object. -/
example : Writable lib0 (.obj "X" [(.str "a", .array (.set [.labeler (some "structured_model"), .npInt 3]))]) ∧
    ¬ Writable lib0 (.obj "X" [(.str "a", .array (.set [.labeler none, .npInt 3]))]) := by
  constructor
  · exact (C85_writes _).1 ⟨_, rfl⟩
  · intro h
    obtain ⟨w, hw⟩ := (C85_writes _).2 h
    cases hw

mutual
theorem dump_error : ∀ (v : Val F T L) (e : Err), dump lib v = .error e → e = .typeError ∨ e = .valueError
  | .none, _, h => by rw [dump] at h; cases h
  | .bool b, _, h => by rw [dump] at h; cases h
  | .int _, _, h => by rw [dump] at h; cases h
  | .float _, _, h => by rw [dump] at h; cases h
  | .str s, _, h => by rw [dump] at h; cases h
  | .npInt _, _, h => by rw [dump] at h; cases h
  | .npFloat _, _, h => by rw [dump] at h; cases h
  | .list l, e, h => by
    rw [dump] at h
    cases hl : dumpList lib l with
    | error e' => rw [hl] at h; cases h; exact dumpList_error l _ hl
    | ok m => rw [hl] at h; cases h
  | .set l, e, h => by
    rw [dump] at h
    cases hl : dumpList lib l with
    | error e' => rw [hl] at h; cases h; exact dumpList_error l _ hl
    | ok m => rw [hl] at h; cases h
  | .array v, e, h => by rw [dump] at h; exact dump_error v e h
  | .dict d, e, h => by
    rw [dump] at h
    cases hl : dumpPairs lib d with
    | error e' => rw [hl] at h; cases h; exact dumpPairs_error d _ hl
    | ok m => rw [hl] at h; cases h
  | .ddict _ d, e, h => by
    rw [dump] at h
    cases hl : dumpPairs lib d with
    | error e' => rw [hl] at h; cases h; exact dumpPairs_error d _ hl
    | ok m => rw [hl] at h; cases h
  | .stamp _, _, h => by rw [dump] at h; cases h
  | .date _, _, h => by rw [dump] at h; cases h
  | .func s, _, h => by rw [dump] at h; cases h
  | .flag _, _, h => by rw [dump] at h; cases h
  | .labeler l, e, h => by
    rw [dump] at h
    cases hl : lib.location l with
    | none => rw [hl] at h; cases h; exact .inr rfl
    | some s => rw [hl] at h; cases h
  | .sketch, _, h => by rw [dump] at h; cases h; exact .inl rfl
  | .obj _ d, e, h => by
    rw [dump] at h
    cases hl : dumpPairs lib d with
    | error e' => rw [hl] at h; cases h; exact dumpPairs_error d _ hl
    | ok m => rw [hl] at h; cases h

theorem dumpList_error : ∀ (l : List (Val F T L)) (e : Err), dumpList lib l = .error e → e = .typeError ∨ e = .valueError
  | [], _, h => by rw [dumpList] at h; cases h
  | v :: t, e, h => by
    rw [dumpList] at h
    cases hv : dump lib v with
    | error e' => rw [hv] at h; cases h; exact dump_error v _ hv
    | ok w =>
      rw [hv] at h
      cases ht : dumpList lib t with
      | error e' => simp only [ht, Except.map, Except.error.injEq] at h; subst h; exact dumpList_error t _ ht
      | ok m' => simp [ht, Except.map] at h

theorem dumpPairs_error : ∀ (d : List (Key × Val F T L)) (e : Err), dumpPairs lib d = .error e → e = .typeError ∨ e = .valueError
  | [], _, h => by rw [dumpPairs] at h; cases h
  | (k, v) :: t, e, h => by
    rw [dumpPairs] at h
    cases hv : dump lib v with
    | error e' => rw [hv] at h; cases h; exact dump_error v _ hv
    | ok w =>
      rw [hv] at h
      cases ht : dumpPairs lib t with
      | error e' => simp only [ht, Except.map, Except.error.injEq] at h; subst h; exact dumpPairs_error t _ ht
      | ok m' => simp [ht, Except.map] at h
end

/-- What cannot be saved raises a `TypeError` or a `ValueError`. -/
theorem C85_write_errors (v : Val F T L) (h : ¬ Writable lib v) : dump lib v = .error .typeError ∨ dump lib v = .error .valueError := by
  cases hv : dump lib v with
  | ok w => exact absurd ((C85_writes v).1 ⟨w, hv⟩) h
  | error e => rcases dump_error v e hv with rfl | rfl <;> simp

/-! ### New profiles -/

theorem fits_fresh {c : Cls} {name lab : Val F T L} (hn : Plain name) (hl : c = .labeler → ALabeler lib lab) :
    ∀ s v, (Key.str s, v) ∈ fresh lib c name lab → Fits lib c s v := by
  have hh : Histogram (freshHist lib) := by
    refine ⟨_, rfl, ⟨by simp, by simp⟩, ?_, ⟨.npFloat (lib.ofRat 0), by simp, .inr ⟨_, .inr rfl⟩⟩,
      ⟨.npFloat (lib.ofRat 0), by simp, .inr ⟨_, .inr rfl⟩⟩, _, by simp; rfl, _, rfl, ⟨by simp, by simp⟩, ?_⟩
    · intro k w hw hk
      simp only [List.mem_cons, Prod.mk.injEq, List.not_mem_nil, or_false] at hw
      rcases hw with ⟨rfl, rfl⟩ | ⟨rfl, rfl⟩ | ⟨rfl, rfl⟩ | ⟨rfl, rfl⟩
      · exact .num rfl
      · exact .num rfl
      · exact .num rfl
      · exact absurd rfl hk
    · intro k w hw
      simp only [List.mem_cons, Prod.mk.injEq, List.not_mem_nil, or_false] at hw
      rcases hw with ⟨rfl, rfl⟩ | ⟨rfl, rfl⟩ <;> exact .inl rfl
  have hms : Histograms (.dict (binMethods.map fun m => (Key.str m, freshHist lib))) := by
    refine ⟨_, rfl, ⟨by rw [List.map_map]; exact List.Nodup.map (f := Key.str) (fun a b h => Key.str.inj h) (l := binMethods) (by decide +kernel), by simp⟩, ?_⟩
    intro k w hw
    obtain ⟨m, _, hm⟩ := List.mem_map.1 hw
    cases hm; exact hh
  have hnil : ∀ m, Calculations (F := F) (T := T) (L := L) m (.dict []) := fun m => ⟨[], rfl, ⟨by simp, by simp⟩, by simp⟩
  have hbins : Plain (.list (binMethods.map .str) : Val F T L) := .list fun v hv => by
    obtain ⟨s, _, rfl⟩ := List.mem_map.1 hv; exact .str s
  have hnl : Plain (.list [] : Val F T L) := .list (by simp)
  have hnd : Plain (.dict [] : Val F T L) := .dict ⟨by simp, by simp⟩ (by simp)
  have htimes : Times (.ddict .float [] : Val F T L) := ⟨[], rfl, ⟨by simp, by simp⟩, by simp⟩
  have hcalc : ∀ (m : List String) (l : List (String × String)), (l.map Prod.fst).Nodup → (∀ x ∈ l, x.2 ∈ m) →
      Calculations (F := F) (T := T) (L := L) m (funcs l) := by
    intro m l h1 h2
    refine ⟨_, rfl, ⟨?_, ?_⟩, ?_⟩
    · rw [List.map_map, show (Prod.fst ∘ fun x : String × String => (Key.str x.1, (Val.func x.2 : Val F T L))) = Key.str ∘ Prod.fst from rfl,
        ← List.map_map]
      exact List.Nodup.map (f := Key.str) (fun a b h => Key.str.inj h) h1
    · intro k hk
      rw [List.map_map] at hk
      obtain ⟨x, _, rfl⟩ := List.mem_map.1 hk
      exact ⟨_, rfl⟩
    · intro k w hw
      obtain ⟨x, hx, h⟩ := List.mem_map.1 hw
      cases h; exact ⟨x.2, h2 x hx, rfl⟩
  have hprec : Precision (F := F) (T := T) (L := L) (.dict [(.str "min", .none), (.str "max", .none), (.str "sum", .none), (.str "mean", .none),
      (.str "biased_var", .none), (.str "sample_size", .none), (.str "confidence_level", .float (lib.ofRat (999 / 1000)))]) := by
    refine ⟨_, rfl, ⟨⟨by simp, by simp⟩, ?_⟩, ?_⟩
    · intro k w hw
      simp only [List.mem_cons, Prod.mk.injEq, List.not_mem_nil, or_false] at hw
      rcases hw with ⟨rfl, rfl⟩ | ⟨rfl, rfl⟩ | ⟨rfl, rfl⟩ | ⟨rfl, rfl⟩ | ⟨rfl, rfl⟩ | ⟨rfl, rfl⟩ | ⟨rfl, rfl⟩
      all_goals first | exact .none | exact .num rfl
    · intro s hs
      refine ⟨.none, ?_, .inl rfl⟩
      simp only [List.mem_cons, List.not_mem_nil, or_false] at hs
      rcases hs with rfl | rfl | rfl | rfl | rfl <;> simp
  have hall : ∀ p ∈ fresh lib c name lab, ∀ s, p.1 = Key.str s → Fits lib c s p.2 := by
    cases c
    all_goals
      simp only [fresh, freshNumeric, freshBase, List.cons_append, List.nil_append, List.forall_mem_cons, Key.str.injEq, forall_eq']
      simp only [List.not_mem_nil, false_implies, implies_true, and_true]
      repeat' apply And.intro
    all_goals simp [Fits]
    all_goals first
      | assumption
      | exact .none
      | exact .bool _
      | exact .str _
      | exact .num rfl
      | exact .inl rfl
      | exact .inr rfl
      | exact .inr ⟨_, .inl rfl⟩
      | exact .inr ⟨_, .inr rfl⟩
      | exact ⟨_, .inl rfl⟩
      | exact hnil _
      | exact hl rfl
      | exact ⟨[], .inr rfl, ⟨by simp, by simp⟩, by simp⟩
      | exact hcalc _ _ (by decide +kernel) (by decide +kernel)
  exact fun s v h => hall _ h s rfl

/-- A new profile of any class survives: the theorems below apply to it. -/
theorem C85_new (c : Cls) {name lab : Val F T L} (hn : Plain name) (hl : c = .labeler → ALabeler lib lab) :
    ColumnOk lib c (fresh lib c name lab) := by
  refine ⟨fresh_nodup c name lab, ?_, ?_, fits_fresh hn hl, ?_⟩
  · intro s hs
    have : ∀ c, ∀ s ∈ required c, s ∈ freshNames c := by intro c; cases c <;> decide +kernel
    rw [fresh_keys]; exact List.mem_map.2 ⟨s, this c s hs, rfl⟩
  · intro k hk
    obtain ⟨s, hs, rfl⟩ := fresh_required c name lab k hk
    exact ⟨s, rfl, .inl hs⟩
  · intro h
    refine .inl ?_
    cases c <;> simp [fresh, freshBase, freshNumeric]

/-! ### Saving and loading -/

/-- `f` applied again and again. -/
def times (f : Val F T L → Except Err (Val F T L)) : ℕ → Val F T L → Except Err (Val F T L)
  | 0, v => .ok v
  | n + 1, v =>
    match f v with
    | .error e => .error e
    | .ok w => times f n w

/-- Standing for another value is transitive. -/
theorem same_trans {v w : Val F T L} (h : Same lib v w) : ∀ {u : Val F T L}, Same lib w u → Same lib v u := by
  have keys : ∀ {d e : List (Key × Val F T L)} {k : Key} {v : Val F T L}, (∀ k, k ∈ d.map Prod.fst ↔ k ∈ e.map Prod.fst) →
      PyDict.get? d k = some v → ∃ w, PyDict.get? e k = some w := by
    intro d e k v he hv
    exact (PyDict.mem_keys_iff e k).1 ((he k).1 ((PyDict.mem_keys_iff d k).2 ⟨v, hv⟩))
  induction h with
  | none => exact id
  | bool => exact id
  | str => exact id
  | func => exact id
  | @num v w x hv hw =>
    intro u hu
    cases hu with
    | num h1 h2 => rw [hw] at h1; cases h1; exact .num hv h2
    | time h1 h2 => cases w <;> simp [number, moment] at hw h1
    | _ => simp [number] at hw
  | @time v w x hv hw =>
    intro u hu
    cases hu with
    | time h1 h2 => rw [hw] at h1; cases h1; exact .time hv h2
    | num h1 h2 => cases w <;> simp [number, moment] at hw h1
    | _ => simp [moment] at hw
  | labeler h1 h2 =>
    intro u hu
    cases hu with
    | labeler h3 h4 => rw [h2] at h3; cases h3; exact .labeler h1 h4
    | num h => simp [number] at h
    | time h => simp [moment] at h
  | @list l m hlen _ ih =>
    intro u hu
    cases hu with
    | @list _ m' hlen' h' =>
      refine .list (hlen.trans hlen') fun i x z hx hz => ?_
      have hi : i < m.length := by
        rw [← hlen]; by_contra hc; rw [List.getElem?_eq_none (by omega)] at hx; cases hx
      exact ih i x m[i] hx (List.getElem?_eq_getElem hi) (h' i m[i] z (List.getElem?_eq_getElem hi) hz)
    | num h => simp [number] at h
    | time h => simp [moment] at h
  | @set l m hlen _ ih =>
    intro u hu
    cases hu with
    | @set _ m' hlen' h' =>
      refine .set (hlen.trans hlen') fun i x z hx hz => ?_
      have hi : i < m.length := by
        rw [← hlen]; by_contra hc; rw [List.getElem?_eq_none (by omega)] at hx; cases hx
      exact ih i x m[i] hx (List.getElem?_eq_getElem hi) (h' i m[i] z (List.getElem?_eq_getElem hi) hz)
    | num h => simp [number] at h
    | time h => simp [moment] at h
  | array _ ih =>
    intro u hu
    cases hu with
    | array h => exact .array (ih h)
    | num h => simp [number] at h
    | time h => simp [moment] at h
  | @dict d e hk _ ih =>
    intro u hu
    cases hu with
    | dict hk' h' =>
      refine .dict (hk.trans hk') fun k x z hx hz => ?_
      obtain ⟨y, hy⟩ := keys (e := e) (fun k => by rw [hk]) hx
      exact ih k x y hx hy (h' k y z hy hz)
    | default hk' h' =>
      refine .default (hk.trans hk') fun k x z hx hz => ?_
      obtain ⟨y, hy⟩ := keys (e := e) (fun k => by rw [hk]) hx
      exact ih k x y hx hy (h' k y z hy hz)
    | num h => simp [number] at h
    | time h => simp [moment] at h
  | @ddict f d e hk _ ih =>
    intro u hu
    cases hu with
    | ddict hk' h' =>
      refine .ddict (hk.trans hk') fun k x z hx hz => ?_
      obtain ⟨y, hy⟩ := keys (e := e) (fun k => by rw [hk]) hx
      exact ih k x y hx hy (h' k y z hy hz)
    | num h => simp [number] at h
    | time h => simp [moment] at h
  | @default f d e hk _ ih =>
    intro u hu
    cases hu with
    | ddict hk' h' =>
      refine .default (hk.trans hk') fun k x z hx hz => ?_
      obtain ⟨y, hy⟩ := keys (e := e) (fun k => by rw [hk]) hx
      exact ih k x y hx hy (h' k y z hy hz)
    | num h => simp [number] at h
    | time h => simp [moment] at h
  | @obj c a b hk _ ih =>
    intro u hu
    cases hu with
    | obj hk' h' =>
      refine .obj (fun k => (hk k).trans (hk' k)) fun k x z hx hz => ?_
      obtain ⟨y, hy⟩ := keys hk hx
      exact ih k x y hx hy (h' k y z hy hz)
    | num h => simp [number] at h
    | time h => simp [moment] at h

theorem reload_of_trip {f : Val F T L → Except Err (Val F T L)} {v : Val F T L} {Q : Val F T L → Prop} (h : Trip lib f v Q) :
    ∃ u, reload lib f v = .ok u ∧ Q u := by
  obtain ⟨w, u, h1, h2, h3⟩ := h
  exact ⟨u, by rw [reload, h1]; exact h2, h3⟩

theorem rounds {f : Val F T L → Except Err (Val F T L)} {P : Val F T L → Prop} (h : ∀ v, P v → ∃ u, f v = .ok u ∧ Same lib v u ∧ P u) :
    ∀ (n : ℕ) (v : Val F T L), P v → ∃ u, times f (n + 1) v = .ok u ∧ Same lib v u ∧ P u
  | 0, v, hv => by
    obtain ⟨u, hu, h1, h2⟩ := h v hv
    exact ⟨u, by simp only [times, hu], h1, h2⟩
  | n + 1, v, hv => by
    obtain ⟨w, hw, h1, h2⟩ := h v hv
    obtain ⟨u, hu, h3, h4⟩ := rounds h n w h2
    exact ⟨u, by rw [times, hw]; exact hu, same_trans h1 h3, h4⟩

/-- A profile of numbers, text, dates, orders, categories or labels that is saved and loaded, once or more often, is a profile of the
same class with the same attributes, and each attribute stands for what it was. -/
theorem C85_profile (hl : LibOk lib) {c : Cls} {a : Dict F T L} (h : ColumnOk lib c a) (n : ℕ) :
    ∃ r, times (reload lib (loadColumn lib)) (n + 1) (.obj c.name a) = .ok (.obj c.name r) ∧
      Same lib (.obj c.name a) (.obj c.name r) ∧ ColumnOk lib c r := by
  obtain ⟨u, h1, h2, r, rfl, h3⟩ := rounds (lib := lib) (P := fun v => ∃ r, v = .obj c.name r ∧ ColumnOk lib c r)
    (f := reload lib (loadColumn lib)) (fun v ⟨r, hv, hr⟩ => by
      subst hv
      obtain ⟨u, hu, r', rfl, h1, h2⟩ := reload_of_trip (column_trip hl hr)
      exact ⟨_, hu, h1, r', rfl, h2⟩) n _ ⟨a, rfl, h⟩
  exact ⟨r, h1, h2, h3⟩

/-- A new profile of labels, and one of numbers with a histogram. -/
example : ColumnOk lib0 .labeler (fresh lib0 .labeler (.str "x") (.labeler (some "structured_model"))) :=
  C85_new .labeler (.str _) fun _ => ⟨_, _, rfl, rfl⟩

/-- The attributes loaded are those saved: no key is new, none is lost, and what they stand for is the same. -/
theorem C85_attributes (hl : LibOk lib) {c : Cls} {a : Dict F T L} (h : ColumnOk lib c a) :
    ∃ r, reload lib (loadColumn lib) (.obj c.name a) = .ok (.obj c.name r) ∧
      ∀ k, (PyDict.get? a k = none ∧ PyDict.get? r k = none) ∨
        ∃ v u, PyDict.get? a k = some v ∧ PyDict.get? r k = some u ∧ Same lib v u := by
  obtain ⟨u, hu, r, rfl, h1, h2⟩ := reload_of_trip (column_trip hl h)
  refine ⟨r, hu, fun k => ?_⟩
  cases h1 with
  | num h => simp [number] at h
  | time h => simp [moment] at h
  | obj hk hs =>
    cases hv : PyDict.get? a k with
    | none =>
      refine .inl ⟨rfl, ?_⟩
      rw [PyDict.get?_eq_none_iff] at hv ⊢
      exact fun hm => hv ((hk k).2 hm)
    | some v =>
      obtain ⟨u, hu⟩ := (PyDict.mem_keys_iff r k).1 ((hk k).1 ((PyDict.mem_keys_iff a k).2 ⟨v, hv⟩))
      exact .inr ⟨v, u, rfl, hu, hs k v u hv hu⟩

/-- Numbers stay the numbers they were: what is loaded for a number is that number, of Python or of numpy. -/
theorem C85_numbers (hl : LibOk lib) {c : Cls} {a : Dict F T L} (h : ColumnOk lib c a) {k : Key} {v : Val F T L} {x : ℤ ⊕ F}
    (hv : PyDict.get? a k = some v) (hx : number v = some x) :
    ∃ r u, reload lib (loadColumn lib) (.obj c.name a) = .ok (.obj c.name r) ∧ PyDict.get? r k = some u ∧ number u = some x := by
  obtain ⟨r, hr, hk⟩ := C85_attributes hl h
  rcases hk k with ⟨h1, _⟩ | ⟨v', u, h1, h2, h3⟩
  · rw [hv] at h1; cases h1
  · rw [hv] at h1; cases h1
    refine ⟨r, u, hr, h2, ?_⟩
    cases h3 with
    | num h4 h5 => rw [hx] at h4; cases h4; exact h5
    | time h4 => cases v <;> simp [number, moment] at hx h4
    | _ => simp [number] at hx

/-- The seed of `match_count` of a new profile of numbers. -/
example : number (.int 0 : Val ℤ String (Option String)) = some (.inl 0) ∧
    PyDict.get? (fresh lib0 .int .none .none) (.str "match_count") = some (.int 0) := ⟨rfl, rfl⟩

/-- The same for compilers: their profiles are there, in the same order. -/
theorem C85_compiler (hl : LibOk lib) {v : Val F T L} (h : CompilerOk lib v) (n : ℕ) :
    ∃ u, times (reload lib (loadCompiler lib)) (n + 1) v = .ok u ∧ Same lib v u ∧ CompilerOk lib u :=
  rounds (fun _ hv => reload_of_trip (compiler_trip hl hv)) n v h

/-- A compiler with two of its profiles. -/
theorem compiler_example : CompilerOk lib0 (.obj "ColumnPrimitiveTypeProfileCompiler" [(.str "name", .str "x"), (.str "_profiles", .dict
    [(.str "int", .obj "IntColumn" (fresh lib0 .int (.str "x") .none)), (.str "text", .obj "TextColumn" (fresh lib0 .text (.str "x") .none))])]) := by
  refine ⟨_, _, _, _, rfl, by simp [members], rfl, .str _, by simp only [members, List.map_cons, List.map_nil]; decide +kernel, ?_⟩
  intro s k w hk hw
  simp only [members, List.mem_cons, Prod.mk.injEq, List.not_mem_nil, or_false] at hk hw
  rcases hk with ⟨rfl, rfl⟩ | ⟨rfl, rfl⟩ | ⟨rfl, rfl⟩ | ⟨rfl, rfl⟩
  · simp at hw
  · simp at hw; exact ⟨_, hw, C85_new .int (.str _) (by simp)⟩
  · simp at hw
  · simp at hw; exact ⟨_, hw, C85_new .text (.str _) (by simp)⟩

/-- The same for options: options within options and the labeler are there. -/
theorem C85_options (hl : LibOk lib) {new : String → Dict F T L} (hnew : NewOk new) {v : Val F T L} (h : OptionOk lib new v) (n : ℕ) :
    ∃ u, times (reload lib (loadOption lib new)) (n + 1) v = .ok u ∧ Same lib v u ∧ OptionOk lib new u :=
  rounds (fun _ hv => reload_of_trip (loadOption_trip hl hnew hv)) n v h

/-- New options for the example. -/
def new0 : String → Dict ℤ String (Option String)
  | "DataLabelerOptions" => [(.str "is_enabled", .bool true), (.str "data_labeler_object", .none)]
  | "StructuredOptions" => [(.str "data_labeler", .none), (.str "null_values", .none)]
  | _ => []

theorem new0_ok : NewOk new0 := by
  refine ⟨fun c => ?_, rfl⟩
  unfold new0
  split <;> simp

theorem labeler_option : OptionOk lib0 new0 (.obj "DataLabelerOptions"
    [(.str "is_enabled", .bool false), (.str "data_labeler_object", .labeler (some "structured_model"))]) := by
  refine .obj (by decide +kernel) ⟨by simp, by simp⟩ (by simp [new0]) ?_ ?_ ?_
  · rintro k v hv c' b rfl
    simp at hv
  · intro k v hv
    simp only [List.mem_cons, Prod.mk.injEq, List.not_mem_nil, or_false] at hv
    rcases hv with ⟨rfl, rfl⟩ | ⟨rfl, rfl⟩
    · exact .inr (.inl ⟨.bool _, by simp⟩)
    · exact .inr (.inr ⟨rfl, rfl, _, _, rfl, rfl⟩)
  · intro v _ hv
    simp at hv
    exact .inr ⟨_, _, hv, rfl⟩

/-- Options within options. -/
theorem option_example : OptionOk lib0 new0 (.obj "StructuredOptions" [(.str "data_labeler", .obj "DataLabelerOptions"
    [(.str "is_enabled", .bool false), (.str "data_labeler_object", .labeler (some "structured_model"))]),
    (.str "null_values", .dict [(.str "-", .flag 2)])]) := by
  refine .obj (by decide +kernel) ⟨by simp, by simp⟩ (by simp [new0]) ?_ ?_ (by simp)
  · intro k v hv c' b hb
    simp only [List.mem_cons, Prod.mk.injEq, List.not_mem_nil, or_false] at hv
    rcases hv with ⟨rfl, rfl⟩ | ⟨rfl, rfl⟩
    · exact labeler_option
    · cases hb
  · intro k v hv
    simp only [List.mem_cons, Prod.mk.injEq, List.not_mem_nil, or_false] at hv
    rcases hv with ⟨rfl, rfl⟩ | ⟨rfl, rfl⟩
    · exact .inl ⟨_, _, rfl⟩
    · refine .inr (.inl ⟨.dict ⟨by simp, by simp⟩ fun k v hv => ?_, ?_⟩)
      · simp at hv; rw [hv.2]; exact .num rfl
      · intro d hd; cases hd; simp

/-- The same for columns, with their compilers, options, flags and rows of missing values. -/
theorem C85_column (hl : LibOk lib) {new : String → Dict F T L} (hnew : NewOk new) {a : Dict F T L} (h : StructuredOk lib new a) (n : ℕ) :
    ∃ r, times (reload lib (loadStructured lib new)) (n + 1) (.obj "StructuredColProfiler" a) = .ok (.obj "StructuredColProfiler" r) ∧
      Same lib (.obj "StructuredColProfiler" a) (.obj "StructuredColProfiler" r) ∧ StructuredOk lib new r := by
  obtain ⟨u, h1, h2, r, rfl, h3⟩ := rounds (lib := lib) (P := fun v => ∃ r, v = .obj "StructuredColProfiler" r ∧ StructuredOk lib new r)
    (f := reload lib (loadStructured lib new)) (fun v ⟨r, hv, hr⟩ => by
      subst hv
      obtain ⟨u, hu, r', rfl, h1, h2⟩ := reload_of_trip (structured_trip hl hnew hr)
      exact ⟨_, hu, h1, r', rfl, h2⟩) n _ ⟨a, rfl, h⟩
  exact ⟨r, h1, h2, h3⟩

/-- A column with options, a compiler and rows without values. -/
def column0 : Dict ℤ String (Option String) :=
  [(.str "name", .str "x"), (.str "options", .obj "StructuredOptions" [(.str "data_labeler", .obj "DataLabelerOptions"
      [(.str "is_enabled", .bool false), (.str "data_labeler_object", .labeler (some "structured_model"))]),
      (.str "null_values", .dict [(.str "-", .flag 2)])]),
    (.str "_min_sample_size", .int 5000), (.str "_sampling_ratio", .float 0), (.str "_min_true_samples", .int 0),
    (.str "sample_size", .int 3), (.str "sample", .list [.str "1", .str "2"]), (.str "null_count", .int 1), (.str "null_ratio", .npFloat 0),
    (.str "null_types", .list [.str "-"]), (.str "null_types_index", .dict [(.str "-", .set [.npInt 1])]), (.str "_min_id", .npInt 0),
    (.str "_max_id", .npInt 2), (.str "_index_shift", .none), (.str "_last_batch_size", .int 3),
    (.str "profiles", .dict [(.str "data_type_profile", .obj "ColumnPrimitiveTypeProfileCompiler" [(.str "name", .str "x"), (.str "_profiles",
      .dict [(.str "int", .obj "IntColumn" (fresh lib0 .int (.str "x") .none)),
        (.str "text", .obj "TextColumn" (fresh lib0 .text (.str "x") .none))])])]),
    (.str "_null_values", .dict [(.str "-", .flag 2)])]

example : StructuredOk lib0 new0 column0 := by
  refine ⟨by simp [column0], ?_, ?_, ?_, ?_, ?_, ?_⟩
  · intro k
    constructor
    · intro h
      have : ∀ k ∈ column0.map Prod.fst, ∃ s ∈ columnNames, k = .str s := by decide +kernel
      exact this k h
    · rintro ⟨s, hs, rfl⟩
      have : ∀ s ∈ columnNames, Key.str s ∈ column0.map Prod.fst := by decide +kernel
      exact this s hs
  · intro v hv
    simp [column0] at hv
    refine ⟨_, hv, ⟨by simp, by simp⟩, fun k w hw => ?_⟩
    simp at hw; rw [hw.2]; exact compiler_example
  · intro v hv
    simp [column0] at hv
    rw [hv]; exact .inr option_example
  · intro v hv
    simp [column0] at hv
    refine ⟨_, hv, ⟨by simp, by simp⟩, fun k w hw => ?_⟩
    simp at hw; exact ⟨2, .inr hw.2⟩
  · intro v hv
    simp [column0] at hv
    refine ⟨_, hv, ⟨by simp, by simp⟩, fun k w hw => ?_⟩
    simp at hw; exact ⟨_, hw.2, by simp [number]⟩
  · intro s v hv hs
    simp [column0] at hv
    simp at hs
    rcases hv with ⟨rfl, rfl⟩ | ⟨rfl, rfl⟩ | ⟨rfl, rfl⟩ | ⟨rfl, rfl⟩ | ⟨rfl, rfl⟩ | ⟨rfl, rfl⟩ | ⟨rfl, rfl⟩ | ⟨rfl, rfl⟩ | ⟨rfl, rfl⟩ |
      ⟨rfl, rfl⟩ | ⟨rfl, rfl⟩ | ⟨rfl, rfl⟩ | ⟨rfl, rfl⟩ | ⟨rfl, rfl⟩ | ⟨rfl, rfl⟩ | ⟨rfl, rfl⟩ | ⟨rfl, rfl⟩
    all_goals first
      | exact .none
      | exact .str _
      | exact .num rfl
      | exact .list (by simp; exact ⟨.str _, .str _⟩)
      | exact .list (by simp; exact .str _)
      | simp at hs

/-! ### Classes that are not known -/

/-- What was saved under a name that is no class of the library is not loaded: a `ValueError`. -/
theorem C85_unknown (new : String → Dict F T L) (s : String) (data : Val F T L) :
    (s ∉ ["IntColumn", "FloatColumn", "TextColumn", "DateTimeColumn", "OrderColumn", "CategoricalColumn", "DataLabelerColumn"] →
      loadColumn lib (.dict [(.str "class", .str s), (.str "data", data)]) = .error .valueError) ∧
    (s ∉ ["ColumnPrimitiveTypeProfileCompiler", "ColumnStatsProfileCompiler", "ColumnDataLabelerCompiler"] →
      loadCompiler lib (.dict [(.str "class", .str s), (.str "data", data)]) = .error .valueError) ∧
    (s ∉ "HistogramOption" :: optionNames →
      loadOption lib new (.dict [(.str "class", .str s), (.str "data", data)]) = .error .valueError) ∧
    (s ≠ "StructuredColProfiler" →
      loadStructured lib new (.dict [(.str "class", .str s), (.str "data", data)]) = .error .valueError) := by
  refine ⟨fun h => ?_, fun h => ?_, fun h => ?_, fun h => ?_⟩
  · have key : ∀ c : Cls, c.name ∈ ["IntColumn", "FloatColumn", "TextColumn", "DateTimeColumn", "OrderColumn", "CategoricalColumn",
        "DataLabelerColumn"] := by intro c; cases c <;> decide +kernel
    have : classOf s = .error .valueError := by
      rw [classOf]
      have : classes.find? (fun c => c.name == s) = none := by
        rw [List.find?_eq_none]
        intro c _ hc
        apply h
        have hc : c.name = s := by simpa using hc
        rw [← hc]
        exact key c
      rw [this]
    simp [loadColumn, opened, item, PyDict.get?_cons, this]
  · have : compilerOf s = .error .valueError := by
      rw [compilerOf]
      have : compilers.find? (fun c => c.1 == s) = none := by
        rw [List.find?_eq_none]
        intro c hm hc
        have hc : c.1 = s := by simpa using hc
        have key : ∀ c ∈ compilers, c.1 ∈ ["ColumnPrimitiveTypeProfileCompiler", "ColumnStatsProfileCompiler", "ColumnDataLabelerCompiler"] := by
          decide +kernel
        exact h (hc ▸ key c hm)
      rw [this]
    simp [loadCompiler, opened, item, PyDict.get?_cons, this]
  · have : optionOf (.str s : Val F T L) = .error .valueError := by
      rw [optionOf]
      have : options.find? (fun c => c.1 == s) = none := by
        rw [List.find?_eq_none]
        intro c hm hc
        have hc : c.1 = s := by simpa using hc
        have key : ∀ c ∈ options, c.1 ∈ "HistogramOption" :: optionNames := by decide +kernel
        exact h (hc ▸ key c hm)
      rw [this]
    have hh : PyDict.has [(Key.str "class", Val.str s), (Key.str "data", data)] (Key.str "class") = true :=
      (PyDict.has_iff _ _).2 (by simp [PyDict.keys])
    simp only [loadOption, hh, if_true]
    rw [loadValue, PyDict.get?_cons, if_pos rfl]
    simp only [this]
  · simp [loadStructured, opened, item, PyDict.get?_cons, columnOf, h]

/-- The names are not those of other kinds of classes. -/
example : "IntColumn" ∉ "HistogramOption" :: optionNames ∧ "Profiler" ≠ "StructuredColProfiler" := by decide +kernel

/-- Options of histograms saved under their former name are loaded as those of today. -/
theorem C85_former_name (new : String → Dict F T L) (data : Val F T L) :
    loadOption lib new (.dict [(.str "class", .str "HistogramOption"), (.str "data", data)]) =
      loadOption lib new (.dict [(.str "class", .str "HistogramAndQuantilesOption"), (.str "data", data)]) := by
  have h1 : optionOf (.str "HistogramOption" : Val F T L) = .ok "HistogramAndQuantilesOption" := rfl
  have h2 : optionOf (.str "HistogramAndQuantilesOption" : Val F T L) = .ok "HistogramAndQuantilesOption" := rfl
  have hh : ∀ s, PyDict.has [(Key.str "class", Val.str s), (Key.str "data", data)] (Key.str "class") = true :=
    fun s => (PyDict.has_iff _ _).2 (by simp [PyDict.keys])
  have hd : ∀ s, loadData lib new [(Key.str "class", Val.str s), (Key.str "data", data)] = loadEntry lib new data := fun s => by
    rw [loadData, if_neg (by decide), loadData, if_pos rfl]
  simp only [loadOption, hh, if_true]
  rw [loadValue, loadValue, PyDict.get?_cons, if_pos rfl, PyDict.get?_cons, if_pos rfl]
  simp only [h1, h2, hd]

/-! ### What does not survive -/

/-- A profile of categories with a sketch cannot be saved. -/
theorem C85_sketch_fails : reload lib0 (loadColumn lib0) (.obj "CategoricalColumn"
    (PyDict.set (fresh lib0 .category (.str "x") .none) (.str "cms") .sketch)) = .error .typeError := by rfl

/-- A profile of labels cannot be saved if its labeler was made by the user. -/
theorem C85_labeler_fails : reload lib0 (loadColumn lib0) (.obj "DataLabelerColumn"
    (fresh lib0 .labeler (.str "x") (.labeler none))) = .error .valueError := by rfl

/-- A profile of dates with a date the library has no timestamp for is saved, but cannot be loaded. -/
theorem C85_date_fails : ∃ w, dump lib0 (.obj "DateTimeColumn" (PyDict.set (fresh lib0 .datetime (.str "x") .none) (.str "_dt_obj_min")
    (.date "0001-01-01"))) = .ok w ∧ loadColumn lib0 w = .error .valueError := ⟨_, rfl, rfl⟩

/-- The stored histogram of profiles that were merged has losses beside its bins; they are loaded as arrays, which do not stand for
numbers. -/
theorem C85_merged_fails : ∃ u w, (loadColumn lib0 <$> dump lib0 (.obj "IntColumn" (PyDict.set (fresh lib0 .int (.str "x") .none)
    (.str "_stored_histogram") (.dict [(.str "total_loss", .npFloat 0), (.str "current_loss", .npFloat 0),
      (.str "suggested_bin_count", .int 2), (.str "histogram", .dict [(.str "bin_counts", .array (.list [.int 1])),
        (.str "bin_edges", .array (.list [.float 0, .float 1])), (.str "current_loss", .npFloat 3)])])))) =
      .ok (.ok (.obj "IntColumn" u)) ∧ PyDict.get? u (.str "_stored_histogram") = some (.dict [(.str "total_loss", .npFloat 0),
      (.str "current_loss", .npFloat 0), (.str "suggested_bin_count", .int 2), (.str "histogram", .dict [(.str "bin_counts",
        .array (.list [.int 1])), (.str "bin_edges", .array (.list [.float 0, .float 1])), (.str "current_loss", w)])]) ∧
      w = .array (.float 3) ∧ ¬ Same lib0 (.npFloat 3) w := by
  refine ⟨_, .array (.float 3), rfl, rfl, rfl, ?_⟩
  intro h
  cases h with
  | num h1 h2 => simp [number] at h2
  | time h1 => simp [moment] at h1

/-- Options with the missing value `class` are saved, but cannot be loaded. -/
theorem C85_class_fails : ∃ w, dump lib0 (.obj "StructuredOptions" [(.str "data_labeler", .none),
    (.str "null_values", .dict [(.str "class", .int 0)])]) = .ok w ∧ loadOption lib0 new0 w = .error .valueError := ⟨_, rfl, rfl⟩

/-- Missing values by number of column are loaded with strings in place of the numbers, so no column finds its own. -/
theorem C85_keys_fails : ∃ u, reload lib0 (loadOption lib0 new0) (.obj "StructuredOptions" [(.str "column_null_values",
    .dict [(.int 1, .dict [(.str "-", .int 0)])])]) = .ok (.obj "StructuredOptions" u) ∧
    PyDict.get? u (.str "column_null_values") = some (.dict [(.str (lib0.fmt 1), .dict [(.str "-", .int 0)])]) ∧
    PyDict.get? ([(.str (lib0.fmt 1), .dict [(.str "-", .int 0)])] : Dict ℤ String (Option String)) (.int 1) = none := by
  exact ⟨_, rfl, rfl, rfl⟩

theorem loadValues_keys (lib : Lib F T L) (new : String → Dict F T L) : ∀ (a b : Dict F T L), loadValues lib new a = .ok b →
    b.map Prod.fst = a.map Prod.fst
  | [], b, h => by rw [loadValues] at h; cases h; rfl
  | (k, v) :: t, b, h => by
    rw [loadValues] at h
    cases hv : loadValue lib new v with
    | error e => rw [hv] at h; cases h
    | ok w =>
      rw [hv] at h
      cases ht : loadValues lib new t with
      | error e => rw [ht] at h; cases h
      | ok r =>
        rw [ht] at h
        cases h
        simp [loadValues_keys lib new t r ht]

/-- Whatever was written for the labeler of options, after loading there is a labeler or what new options have there. -/
theorem C85_labeler_option (lib : Lib F T L) (new : String → Dict F T L) (a u : Dict F T L) (hn : (a.map Prod.fst).Nodup)
    (h : loadOption lib new (.dict [(.str "class", .str "DataLabelerOptions"), (.str "data", .dict a)]) =
      .ok (.obj "DataLabelerOptions" u)) :
    (∃ l, PyDict.get? u (.str "data_labeler_object") = some (.labeler l)) ∨
      PyDict.get? u (.str "data_labeler_object") = PyDict.get? (new "DataLabelerOptions") (.str "data_labeler_object") := by
  have h1 : loadOption lib new (.dict [(.str "class", .str "DataLabelerOptions"), (.str "data", .dict a)]) =
      (match loadValues lib new a with
        | .error e => .error e
        | .ok b => (optionData lib "DataLabelerOptions" b).map fun a' => .obj "DataLabelerOptions" (overwrite (new "DataLabelerOptions") a')) := by
    rw [loadOption, if_pos (by rfl), loadValue]
    rfl
  rw [h1] at h
  cases hb : loadValues lib new a with
  | error e => rw [hb] at h; cases h
  | ok b =>
    rw [hb] at h
    have hbn : (b.map Prod.fst).Nodup := by rw [loadValues_keys lib new a b hb]; exact hn
    have hdn : ((PyDict.del b (.str "data_labeler_object")).map Prod.fst).Nodup := PyDict.WF_del hbn _
    have hdel : PyDict.get? (PyDict.del b (.str "data_labeler_object")) (.str "data_labeler_object") = none := by
      rw [PyDict.get?_del hbn, if_pos rfl]
    have hplain : PyDict.get? (overwrite (new "DataLabelerOptions") (PyDict.del b (.str "data_labeler_object"))) (.str "data_labeler_object") =
        PyDict.get? (new "DataLabelerOptions") (.str "data_labeler_object") := by
      rw [overwrite_get _ _ hdn, hdel]; rfl
    dsimp only at h
    unfold optionData at h
    rw [if_pos rfl] at h
    dsimp only at h
    cases hg : PyDict.get? b (.str "data_labeler_object") with
    | none => rw [hg] at h; cases h; exact Or.inr hplain
    | some v =>
    rw [hg] at h
    dsimp only at h
    by_cases ht : truthy v = true
    · rw [if_pos ht] at h
      cases hl : reloadLabeler lib v with
      | error e => rw [hl] at h; cases h
      | ok o =>
        rw [hl] at h
        cases o with
        | none => cases h; exact Or.inr hplain
        | some l =>
          cases h
          refine Or.inl ⟨l, ?_⟩
          have hs : ((PyDict.set (PyDict.del b (.str "data_labeler_object")) (.str "data_labeler_object") (.labeler l)).map Prod.fst).Nodup :=
            PyDict.WF_set hdn _ _
          rw [overwrite_get _ _ hs, PyDict.get?_set]
          simp
    · rw [if_neg ht] at h
      cases h; exact Or.inr hplain

example : ∃ u, loadOption lib0 new0 (.dict [(.str "class", .str "DataLabelerOptions"), (.str "data",
    .dict [(.str "data_labeler_object", .dict [(.str "by_hand", .str "x")])])]) = .ok (.obj "DataLabelerOptions" u) := ⟨_, rfl⟩

end Verif.Props.ColumnJson
