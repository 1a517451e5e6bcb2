import Verif.Spec.Persist
import Verif.Lemmas.PyDict
import Mathlib.Tactic.SplitIfs
import Mathlib.Data.List.Nodup

namespace Verif.Persist

open Verif Verif.Spec.Persist
open Verif.Schema (Key)

variable {L A : Type}

theorem removeSlots_length (repl : L) (use : Bool) (found : Option L) (ss : List (Slot L)) :
    (removeSlots repl use found ss).1.length = ss.length := by
  induction ss generalizing found with
  | nil => rfl
  | cons s ss ih =>
    cases s with
    | absent => simp [removeSlots, ih]
    | bare => simp only [removeSlots]; split_ifs <;> simp [ih]
    | labelled l => simp [removeSlots, ih]

theorem restoreSlots_length (kind : Kind) (l : Option L) (ss : List (Slot L)) :
    (restoreSlots kind l ss).1.length = ss.length := by
  induction ss with
  | nil => rfl
  | cons s ss ih => cases s <;> simp [restoreSlots, ih]

theorem removeSlots_agree (repl l : L) (n : ℕ) :
    removeSlots repl true (some l) (List.replicate n (.labelled (some l))) =
      (List.replicate n (.labelled (some repl)), .ok (some l)) := by
  induction n with
  | zero => rfl
  | succ n ih => simp [List.replicate_succ, removeSlots, ih]

theorem removeSlots_disabled (repl : L) {ss : List (Slot L)}
    (h : ∀ s ∈ ss, s ≠ .labelled none ∧ ∀ l', s ≠ .labelled (some l')) : removeSlots repl false none ss = (ss, .ok none) := by
  induction ss with
  | nil => rfl
  | cons s ss ih =>
    have ih := ih fun s hs => h s (List.mem_cons_of_mem _ hs)
    have hs := h s List.mem_cons_self
    cases s with
    | absent => simp [removeSlots, ih]
    | bare => simp [removeSlots, ih]
    | labelled l =>
      cases l with
      | none => exact absurd rfl hs.1
      | some l => exact absurd rfl (hs.2 l)

theorem restoreSlots_labelled (kind : Kind) (l l' : Option L) (n : ℕ) :
    restoreSlots kind l (List.replicate n (.labelled l')) = (List.replicate n (.labelled l), none) := by
  induction n with
  | zero => rfl
  | succ n ih => simp [List.replicate_succ, restoreSlots, ih]

theorem slots_withSlots (cols : List (Col L A)) (ss : List (Slot L)) (h : ss.length = cols.length) :
    (withSlots cols ss).map (·.slot) = ss := by
  unfold withSlots
  induction cols generalizing ss with
  | nil => cases ss with
    | nil => rfl
    | cons s ss => simp at h
  | cons c cols ih => cases ss with
    | nil => simp at h
    | cons s ss => simp only [List.zipWith_cons_cons, List.map_cons]; rw [ih ss (by simpa using h)]

theorem rest_withSlots (cols : List (Col L A)) (ss : List (Slot L)) (h : ss.length = cols.length) :
    (withSlots cols ss).map (·.rest) = cols.map (·.rest) := by
  unfold withSlots
  induction cols generalizing ss with
  | nil => cases ss with
    | nil => rfl
    | cons s ss => simp at h
  | cons c cols ih => cases ss with
    | nil => simp at h
    | cons s ss => simp only [List.zipWith_cons_cons, List.map_cons]; rw [ih ss (by simpa using h)]

theorem withSlots_withSlots (cols : List (Col L A)) (ss ts : List (Slot L)) (h : ss.length = cols.length) :
    withSlots (withSlots cols ss) ts = withSlots cols ts := by
  unfold withSlots
  induction cols generalizing ss ts with
  | nil => simp
  | cons c cols ih => cases ss with
    | nil => simp at h
    | cons s ss => cases ts with
      | nil => simp
      | cons t ts => simp only [List.zipWith_cons_cons]; rw [ih ss ts (by simpa using h)]

theorem withSlots_self (cols : List (Col L A)) : withSlots cols (cols.map (·.slot)) = cols := by
  unfold withSlots
  induction cols with
  | nil => rfl
  | cons c cols ih => simp only [List.map_cons, List.zipWith_cons_cons]; rw [ih]

theorem withSlots_length (cols : List (Col L A)) (ss : List (Slot L)) (h : ss.length = cols.length) :
    (withSlots cols ss).length = cols.length := by simp [withSlots, h]

theorem eq_replicate {ss : List (Slot L)} {s : Slot L} (h : ∀ x ∈ ss, x = s) : ss = List.replicate ss.length s :=
  List.eq_replicate_iff.2 ⟨rfl, h⟩

/-- A successful save of a profiler whose labelers agree: the profiler is as before, the file holds it
with placeholders for the labelers. -/
theorem save_agree (mk : Option String → Except Err L) (repl l : L) (p : Prof L A)
    (h : Agree l p.options (p.columns.map (·.slot))) :
    savePickle mk repl none p = (p, .ok (dump (if p.options.enabled then
      withLabelers p ({ p.options with object := some repl }, p.columns.map fun _ => .labelled (some repl)) else p))) := by
  unfold Agree at h
  cases he : p.options.enabled with
  | true =>
    rw [he, if_pos rfl] at h
    have hrep := eq_replicate h.2
    have hlen : (p.columns.map (·.slot)).length = p.columns.length := by simp
    have hrem : remove repl p.options (p.columns.map (·.slot)) =
        (({ p.options with object := some repl }, List.replicate p.columns.length (.labelled (some repl))), .ok (some l)) := by
      unfold remove
      rw [he, h.1]
      simp only [if_true, Option.isSome_some, and_self]
      rw [hrep, removeSlots_agree, hlen]
      simp [he]
    unfold savePickle
    simp only [hrem, withLabelers]
    rw [slots_withSlots _ _ (by simp)]
    unfold restore
    simp only [he, if_true]
    rw [restoreSlots_labelled]
    simp only
    rw [withSlots_withSlots _ _ _ (by simp)]
    have hself : withSlots p.columns (List.replicate p.columns.length (Slot.labelled (some l))) = p.columns := by
      rw [← hlen, ← hrep]; exact withSlots_self _
    have hcol : (p.columns.map fun _ => Slot.labelled (some repl)) = List.replicate p.columns.length (.labelled (some repl)) := by
      simp
    rw [hself, hcol]
    congr 1
    cases p with
    | mk _ _ _ _ _ _ _ _ _ _ _ _ _ _ _ o cols =>
      simp only at h ⊢
      congr 1
      cases o with
      | mk _ _ _ _ _ _ => obtain ⟨h1, _⟩ := h; simp only at h1 he; subst h1; subst he; rfl
  | false =>
    rw [he, if_neg (by simp)] at h
    have hrem : remove repl p.options (p.columns.map (·.slot)) = ((p.options, p.columns.map (·.slot)), .ok none) := by
      unfold remove
      rw [he]
      simp only [Bool.false_eq_true, if_false, false_and]
      rw [removeSlots_disabled repl h]
    unfold savePickle
    simp only [hrem, withLabelers]
    rw [withSlots_self]
    unfold restore
    simp only [he, Bool.false_eq_true, if_false]
    rw [withSlots_self]

theorem same_of (p : Prof L A) (x : Opts L A × List (Slot L)) (hl : x.2.length = (p.columns.map (·.slot)).length)
    (ho : { p.options with enabled := x.1.enabled, object := x.1.object } = x.1) :
    SameButLabelers p (withLabelers p x) :=
  ⟨rfl, ho, (rest_withSlots _ _ (hl.trans (List.length_map _))).symm⟩

theorem same_trans {p q r : Prof L A} (h1 : SameButLabelers p q) (h2 : SameButLabelers q r) : SameButLabelers p r := by
  obtain ⟨a1, a2, a3⟩ := h1
  obtain ⟨b1, b2, b3⟩ := h2
  refine ⟨?_, ?_, a3.trans b3⟩
  · rw [← b1, ← a1]
  · rw [← b2, ← a2]

theorem remove_length (repl : L) (o : Opts L A) (ss : List (Slot L)) : (remove repl o ss).1.2.length = ss.length :=
  removeSlots_length _ _ _ _

theorem remove_opts (repl : L) (o : Opts L A) (ss : List (Slot L)) :
    { o with enabled := (remove repl o ss).1.1.enabled, object := (remove repl o ss).1.1.object } = (remove repl o ss).1.1 := by
  unfold remove
  simp only
  split_ifs <;> rfl

theorem restore_length (mk : Option String → Except Err L) (kind : Kind) (given : Option L) (o : Opts L A)
    (ss : List (Slot L)) : (restore mk kind given o ss).1.2.length = ss.length := by
  unfold restore
  split_ifs
  · dsimp only
    split <;> simp [restoreSlots_length]
  · rfl

theorem restore_opts (mk : Option String → Except Err L) (kind : Kind) (given : Option L) (o : Opts L A)
    (ss : List (Slot L)) :
    { o with enabled := (restore mk kind given o ss).1.1.enabled, object := (restore mk kind given o ss).1.1.object } =
      (restore mk kind given o ss).1.1 := by
  unfold restore
  split_ifs
  · dsimp only
    split <;> rfl
  · rfl

/-- Whatever happens while saving, only labelers change. -/
theorem save_same (mk : Option String → Except Err L) (repl : L) (written : Option Err) (p : Prof L A) :
    SameButLabelers p (savePickle mk repl written p).1 := by
  have h1 : SameButLabelers p (withLabelers p (remove repl p.options (p.columns.map (·.slot))).1) :=
    same_of p _ (remove_length _ _ _) (remove_opts _ _ _)
  unfold savePickle
  dsimp only
  split
  · exact h1
  · split
    · exact h1
    · have h2 : ∀ (found : Option L) (q : Prof L A), SameButLabelers q (withLabelers q (restore mk .structured found q.options (q.columns.map (·.slot))).1) :=
        fun _ q => same_of q _ (restore_length _ _ _ _ _) (restore_opts _ _ _ _ _)
      split
      · exact same_trans h1 (h2 _ _)
      · exact same_trans h1 (h2 _ _)

/-! ### JSON dictionaries -/

theorem set_new {K V : Type} [DecidableEq K] {d : PyDict K V} {k : K} (h : k ∉ PyDict.keys d) (v : V) :
    PyDict.set d k v = d ++ [(k, v)] := by
  induction d with
  | nil => rfl
  | cons p d ih =>
    simp only [PyDict.keys, List.map_cons, List.mem_cons, not_or] at h
    simp only [PyDict.set, if_neg (fun h' => h.1 h'.symm : ¬p.1 = k), List.cons_append]
    rw [ih h.2]

theorem foldl_set_new {K V : Type} [DecidableEq K] (l : List (K × V)) (acc : PyDict K V)
    (h : ((PyDict.keys acc) ++ l.map (·.1)).Nodup) : l.foldl (fun a kv => PyDict.set a kv.1 kv.2) acc = acc ++ l := by
  induction l generalizing acc with
  | nil => simp
  | cons p l ih =>
    rw [List.foldl_cons, set_new, ih]
    · simp
    · simpa [PyDict.keys] using h
    · rw [List.map_cons, List.nodup_append'] at h
      exact fun hp => (List.disjoint_left.1 h.2.2 hp) List.mem_cons_self

theorem foldl_map' {B : Type} (g : Key → String) (l : List (Key × B)) (acc : PyDict String B) :
    l.foldl (fun a kv => PyDict.set a (g kv.1) kv.2) acc =
      (l.map fun kv => (g kv.1, kv.2)).foldl (fun a kv => PyDict.set a kv.1 kv.2) acc := by
  rw [List.foldl_map]

theorem jsonDict_of_nodup {B : Type} (fmt : ℤ → String) (d : PyDict Key B) (h : (d.map fun kv => jsonKey fmt kv.1).Nodup) :
    jsonDict fmt d = d.map fun kv => (jsonKey fmt kv.1, kv.2) := by
  unfold jsonDict
  rw [foldl_map', foldl_set_new]
  · rfl
  · simpa [PyDict.keys, Function.comp_def] using h

theorem jsonDict_str {B : Type} (fmt : ℤ → String) {d : PyDict Key B} (h : StrKeyed d) : strKeys (jsonDict fmt d) = d := by
  obtain ⟨l, hl, rfl⟩ := h
  rw [jsonDict_of_nodup _ _ (by simpa [Function.comp_def, jsonKey] using hl)]
  simp [strKeys, Function.comp_def, jsonKey]

theorem intKeys_ok {B : Type} (parse : String → Option ℤ) (l : List (String × B)) (ns : List ℤ)
    (h : l.map (fun x => parse x.1) = ns.map some) (acc : PyDict Key B)
    (hn : (PyDict.keys acc ++ ns.map Key.int).Nodup) :
    l.foldl (intKeyStep parse) (.ok acc) = .ok (acc ++ List.zipWith (fun n x => (Key.int n, x.2)) ns l) := by
  induction l generalizing acc ns with
  | nil => cases ns with
    | nil => simp
    | cons n ns => simp at h
  | cons x l ih => cases ns with
    | nil => simp at h
    | cons n ns =>
      simp only [List.map_cons, List.cons.injEq] at h
      rw [List.foldl_cons]
      simp only [intKeyStep, h.1]
      rw [set_new, ih ns h.2]
      · simp
      · simpa [PyDict.keys] using hn
      · rw [List.map_cons, List.nodup_append'] at hn
        exact fun hp => (List.disjoint_left.1 hn.2.2 hp) List.mem_cons_self

theorem jsonDict_int {B : Type} (fmt : ℤ → String) (parse : String → Option ℤ) (hp : ∀ n, parse (fmt n) = some n)
    {d : PyDict Key B} (h : IntKeyed d) : intKeys parse (jsonDict fmt d) = .ok d := by
  obtain ⟨l, hl, rfl⟩ := h
  have hinj : Function.Injective fmt := fun a b hab => by
    have := hp a; rw [hab, hp b] at this; exact (Option.some.inj this).symm
  have hnd : ((l.map fun x => (Key.int x.1, x.2)).map fun kv => jsonKey fmt kv.1).Nodup := by
    have : ((l.map fun x => (Key.int x.1, x.2)).map fun kv => jsonKey fmt kv.1) = (l.map (·.1)).map fmt := by
      simp [Function.comp_def, jsonKey]
    rw [this]
    exact hl.map hinj
  rw [jsonDict_of_nodup _ _ hnd]
  unfold intKeys
  rw [intKeys_ok parse _ (l.map (·.1))]
  · simp only [List.nil_append, Except.ok.injEq]
    clear hnd hl
    induction l with
    | nil => rfl
    | cons x l ih => simp only [List.map_cons, List.zipWith_cons_cons, ih]
  · simp [Function.comp_def, jsonKey, hp]
  · simp only [PyDict.keys, List.map_nil, List.nil_append]
    exact hl.map fun a b h => by cases h; rfl

theorem intKeys_error {B : Type} (parse : String → Option ℤ) (l : List (String × B)) (h : ∃ x ∈ l, parse x.1 = none)
    (acc : Except Err (PyDict Key B)) :
    ∃ e, l.foldl (intKeyStep parse) acc = .error e := by
  induction l generalizing acc with
  | nil => obtain ⟨x, hx, _⟩ := h; cases hx
  | cons y l ih =>
    rw [List.foldl_cons]
    have herr : ∀ (l : List (String × B)) (e : Err), l.foldl (intKeyStep parse) (.error e) = .error e := by
      intro l e
      induction l with
      | nil => rfl
      | cons z l ih => rw [List.foldl_cons]; exact ih
    obtain ⟨x, hx, hxn⟩ := h
    rcases List.mem_cons.1 hx with rfl | hx
    · cases acc with
      | error e => exact ⟨e, herr l e⟩
      | ok a => simp only [intKeyStep, hxn]; exact ⟨_, herr l _⟩
    · exact ih ⟨x, hx, hxn⟩ _

theorem loadNames_str {B : Type} (fmt : ℤ → String) (parse : String → Option ℤ) {d : PyDict Key B} (h : StrKeyed d)
    (hn : ∃ s b, (Key.str s, b) ∈ d ∧ parse s = none) : loadNames parse (jsonDict fmt d) = d := by
  have hs := jsonDict_str fmt h
  obtain ⟨l, hl, rfl⟩ := h
  have hj := jsonDict_of_nodup fmt (l.map fun x => (Key.str x.1, x.2)) (by simpa [Function.comp_def, jsonKey] using hl)
  obtain ⟨s, b, hm, hp⟩ := hn
  unfold loadNames
  have : ∃ e, intKeys parse (jsonDict fmt (l.map fun x => (Key.str x.1, x.2))) = .error e := by
    unfold intKeys
    refine intKeys_error parse _ ⟨(s, b), ?_, hp⟩ _
    rw [hj]
    exact List.mem_map.2 ⟨_, hm, rfl⟩
  obtain ⟨e, he⟩ := this
  rw [he]
  exact hs

theorem loadNames_int {B : Type} (fmt : ℤ → String) (parse : String → Option ℤ) (hp : ∀ n, parse (fmt n) = some n)
    {d : PyDict Key B} (h : IntKeyed d) : loadNames parse (jsonDict fmt d) = d := by
  unfold loadNames
  rw [jsonDict_int fmt parse hp h]

theorem jsonCols_id (loc : L → Option String) (library : String → Except Err L) {cols : List (Col L A)}
    (h : ∀ c ∈ cols, ∀ l, c.slot = .labelled (some l) → ∃ s, loc l = some s ∧ library s = .ok l) :
    jsonCols loc library cols = .ok cols := by
  induction cols with
  | nil => rfl
  | cons c cols ih =>
    have hc : jsonCol loc library c = .ok c := by
      unfold jsonCol
      obtain ⟨slot, rest⟩ := c
      cases slot with
      | absent => rfl
      | bare => rfl
      | labelled l =>
        cases l with
        | none => rfl
        | some l =>
          obtain ⟨s, h1, h2⟩ := h _ List.mem_cons_self l rfl
          simp [jsonLabeler, encodeLabeler, h1, h2, Except.map]
    simp only [jsonCols, hc, ih fun c hc => h c (List.mem_cons_of_mem _ hc)]

end Verif.Persist
