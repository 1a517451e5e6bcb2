import Verif.Spec.Attribute
import Mathlib.Tactic.Common

/-!
# C101: a dataset has the attributes of its data
-/

namespace Verif.Props.Attribute

open Verif Verif.Attribute Verif.Spec.Attribute

variable {R V S : Type}

theorem get?_none_iff {A : Type} (d : PyDict String A) (name : String) : PyDict.get? d name = none ↔ ∀ x, (name, x) ∉ d := by
  induction d with
  | nil => simp [PyDict.get?]
  | cons kv d ih =>
    obtain ⟨k, v⟩ := kv
    simp only [PyDict.get?]
    split_ifs with h
    · subst h
      exact ⟨nofun, fun g => absurd List.mem_cons_self (g v)⟩
    · rw [ih]
      simp only [List.mem_cons, Prod.mk.injEq, not_or]
      exact ⟨fun g x => ⟨fun e => h e.1.symm, g x⟩, fun g x => (g x).2⟩

theorem find_iff (mro : List (PyDict String (Member S V))) (name : String) (m : Member S V) :
    find mro name = some m ↔ First mro name m := by
  induction mro with
  | nil => simp [find, First]
  | cons d ds ih =>
    simp only [find]
    cases h : PyDict.get? d name with
    | some m' =>
      simp only [Option.some.injEq]
      constructor
      · rintro rfl
        exact ⟨[], d, ds, rfl, by simp, h⟩
      · rintro ⟨pre, e, post, e1, e2, e3⟩
        cases pre with
        | nil =>
          cases e1
          rw [h] at e3
          exact Option.some.inj e3
        | cons p pre =>
          cases e1
          rw [(get?_none_iff _ _).2 (e2 _ (by simp))] at h
          cases h
    | none =>
      simp only
      rw [ih]
      constructor
      · rintro ⟨pre, e, post, e1, e2, e3⟩
        refine ⟨d :: pre, e, post, by rw [e1]; rfl, ?_, e3⟩
        intro x hx
        rcases List.mem_cons.1 hx with rfl | hx
        · exact (get?_none_iff _ _).1 h
        · exact e2 x hx
      · rintro ⟨pre, e, post, e1, e2, e3⟩
        cases pre with
        | nil =>
          cases e1
          rw [h] at e3
          cases e3
        | cons p pre =>
          cases e1
          exact ⟨pre, e, post, rfl, fun x hx => e2 x (by simp [hx]), e3⟩

theorem find_none {mro : List (PyDict String (Member S V))} {name : String} (h : ∀ d ∈ mro, ∀ m, (name, m) ∉ d) : find mro name = none := by
  cases hf : find mro name with
  | none => rfl
  | some m =>
    obtain ⟨pre, d, post, e1, -, e3⟩ := (find_iff _ _ _).1 hf
    rw [(get?_none_iff _ _).2 (h d (by rw [e1]; simp))] at e3
    cases e3

theorem lookup_finds {c : Class S V} {inst : PyDict String V} {name : String} {s : S} {v : V} {s' : S} (h : Finds c inst name s v s') :
    lookup c inst name s = (.ok v, s') := by
  unfold lookup
  cases h with
  | prop h1 h2 =>
    rw [(find_iff _ _ _).2 h1]
    exact h2
  | inst h1 h2 =>
    cases hf : find c.mro name with
    | none => simp [h2]
    | some m =>
      cases m with
      | prop g f => exact absurd ((find_iff _ _ _).1 hf) (h1 g f)
      | plain v => simp [h2]
  | cls h1 h2 =>
    rw [(find_iff _ _ _).2 h2]
    simp [(get?_none_iff _ _).2 h1]

theorem lookup_unknown {c : Class S V} {inst : PyDict String V} {name : String} (h : Unknown c inst name) (s : S) :
    lookup c inst name s = (.error (.attr (missing c.shown name)), s) := by
  unfold lookup
  rw [find_none h.1]
  simp [(get?_none_iff _ _).2 h.2]

variable {w : World R V} {name : String} {s s1 s2 : Dataset R V} {d v : V}

theorem shown_prop {r : R} (h : Shown w s r d) : present w s.format r = .ok d := by
  unfold present
  cases h with
  | whole h => rcases h with h | h <;> simp [h]
  | format h1 h2 h3 => simp [h1, h2, h3]

theorem dataProp_loads (h : Loads w s d s1) : dataProp w s = (.ok d, s1) := by
  unfold dataProp ensure
  cases h with
  | memory h1 h2 => simp only [h1, shown_prop h2]
  | file h1 h2 h3 => simp only [h1, h2, shown_prop h3]

theorem loads_again (h : Loads w s d s1) : Loads w s1 d s1 := by
  cases h with
  | memory h1 h2 => exact .memory h1 h2
  | file h1 h2 h3 =>
    refine .memory rfl ?_
    cases h3 with
    | whole h => exact .whole h
    | format a b c => exact .format a b c

/-- **C101** A dataset's own attributes are what Python finds in its class and instance; the data are not looked at. -/
theorem C101_own (hn : name ≠ "data") (h : Finds w.cls s.inst name s v s1) (k : ℕ) : access w (k + 1) name s = (.ok v, s1) := by
  simp only [access, own, if_neg hn, lookup_finds h]

/-- **C101** `data` are the data in the selected format, read if they have not been. -/
theorem C101_data (h : Loads w s d s1) (k : ℕ) : access w (k + 1) "data" s = (.ok d, s1) := by
  simp only [access, own, if_true, dataProp_loads h]

/-- An unknown name: the data are read and asked. -/
theorem get_unknown (hn : name ≠ "data") (hc : w.cls.shown = w.cls.name) (hu : Unknown w.cls s.inst name) (hl : Loads w s d s1) (k : ℕ) :
    access w (k + 2) name s = match attrOf w d name s1 with
      | (.error (.attr m'), s4) =>
        if m' ≠ missing (w.clsOf d).name name then (.error (.attr m'), s4)
        else (.error (.attr (neither w.cls.name (w.clsOf d).name name)), s4)
      | r => r := by
  rw [access]
  simp only [own, if_neg hn, lookup_unknown hu, C101_data hl k, C101_data (loads_again hl) k, hc]
  rw [if_neg (fun h => h rfl)]
  rcases attrOf w d name s1 with ⟨(m | r), s4⟩
  · cases m <;> rfl
  · rfl

/-- **C101** Any other name is an attribute of the data in the selected format. -/
theorem C101_of_data (hn : name ≠ "data") (hc : w.cls.shown = w.cls.name) (hu : Unknown w.cls s.inst name) (hl : Loads w s d s1)
    (hf : Finds (w.clsOf d) (w.instOf d) name s1 v s2) (k : ℕ) : access w (k + 2) name s = (.ok v, s2) := by
  rw [get_unknown hn hc hu hl, attrOf, lookup_finds hf]

/-- **C101** A name that neither has is an `AttributeError` naming both classes; the data have been read. -/
theorem C101_neither (hn : name ≠ "data") (hc : w.cls.shown = w.cls.name) (hu : Unknown w.cls s.inst name) (hl : Loads w s d s1)
    (hd : (w.clsOf d).shown = (w.clsOf d).name) (hv : Unknown (w.clsOf d) (w.instOf d) name) (k : ℕ) :
    access w (k + 2) name s =
      (.error (.attr s!"Neither '{w.cls.name}' nor '{(w.clsOf d).name}' objects have attribute '{name}'"), s1) := by
  rw [get_unknown hn hc hu hl, attrOf, lookup_unknown hv]
  simp only [hd]
  rw [if_neg (fun h => h rfl)]
  rfl

/-- **C101** `hasattr` is true exactly for the attributes of the dataset and of its data. -/
theorem C101_hasattr (hn : name ≠ "data") (hc : w.cls.shown = w.cls.name) (hl : Loads w s d s1)
    (p1 : ∀ g f, ¬ First w.cls.mro name (.prop g f)) (p2 : ∀ g f, ¬ First (w.clsOf d).mro name (.prop g f)) (k : ℕ) :
    ∃ b s', hasAttr w (k + 2) name s = (.ok b, s') ∧
      (b = true ↔ ¬ Unknown w.cls s.inst name ∨ ¬ Unknown (w.clsOf d) (w.instOf d) name) := by
  have known : ∀ (c : Class (Dataset R V) V) (inst : PyDict String V) (t : Dataset R V), (∀ g f, ¬ First c.mro name (.prop g f)) →
      ¬ Unknown c inst name → ∃ v, Finds c inst name t v t := by
    intro c inst t hp hk
    cases hi : PyDict.get? inst name with
    | some v => exact ⟨v, .inst hp hi⟩
    | none =>
      have hi' := (get?_none_iff _ _).1 hi
      cases hf : find c.mro name with
      | some m =>
        cases m with
        | prop g f => exact absurd ((find_iff _ _ _).1 hf) (hp g f)
        | plain v => exact ⟨v, .cls hi' ((find_iff _ _ _).1 hf)⟩
      | none =>
        exfalso
        apply hk
        refine ⟨fun e he m hm => ?_, hi'⟩
        have key : ∀ l : List (PyDict String (Member (Dataset R V) V)), find l name = none → ∀ e ∈ l, PyDict.get? e name = none := by
          intro l
          induction l with
          | nil => simp
          | cons x l ih =>
            intro h e he
            simp only [find] at h
            cases hx : PyDict.get? x name with
            | some y => rw [hx] at h; cases h
            | none =>
              rw [hx] at h
              rcases List.mem_cons.1 he with rfl | he
              · exact hx
              · exact ih h e he
        exact (get?_none_iff _ _).1 (key _ hf e he) m hm
  by_cases hu : Unknown w.cls s.inst name
  · by_cases hv : Unknown (w.clsOf d) (w.instOf d) name
    · refine ⟨false, s1, ?_, by simp [hu, hv]⟩
      rw [hasAttr, get_unknown hn hc hu hl, attrOf, lookup_unknown hv]
      simp only
      by_cases hm : missing (w.clsOf d).shown name = missing (w.clsOf d).name name
      · rw [if_neg (fun h => h hm)]
      · rw [if_pos hm]
    · obtain ⟨v, hv'⟩ := known (w.clsOf d) (w.instOf d) s1 p2 hv
      exact ⟨true, s1, by rw [hasAttr, C101_of_data hn hc hu hl hv'], by simp [hv]⟩
  · obtain ⟨v, hv⟩ := known w.cls s.inst s p1 hu
    exact ⟨true, s, by rw [hasAttr, C101_own hn hv], by simp [hu]⟩

/-- **C101** When the file cannot be read, asking for any name the dataset does not have raises that error, also for `hasattr`. -/
theorem C101_unreadable (hn : name ≠ "data") (hu : Unknown w.cls s.inst name) (hr : s.raw = none) {e : Exc}
    (he : w.load s.reads = .error e) (hne : ∀ m, e ≠ .attr m) (k : ℕ) :
    (access w (k + 2) name s).1 = .error e ∧ (hasAttr w (k + 2) name s).1 = .error e := by
  have hd : access w (k + 1) "data" s = (.error e, { s with reads := s.reads + 1 }) := by
    simp only [access, own, if_true, dataProp, ensure, hr, he]
    cases e with
    | attr m => exact absurd rfl (hne m)
    | _ => rfl
  have hg : access w (k + 2) name s = (.error e, { s with reads := s.reads + 1 }) := by
    rw [access]
    simp only [own, if_neg hn, lookup_unknown hu, hd]
  refine ⟨by rw [hg], ?_⟩
  rw [hasAttr, hg]
  cases e with
  | attr m => exact absurd rfl (hne m)
  | _ => rfl

/-- **C101** An `AttributeError` inside a property of the dataset is raised as it is, after the data have been read for nothing. -/
theorem C101_property (hn : name ≠ "data") {g : Dataset R V → Res (Dataset R V) V} {f : Option (V → Dataset R V → Res (Dataset R V) Unit)}
    (hp : First w.cls.mro name (.prop g f)) {m : String} (hg : g s = (.error (.attr m), s1)) (hm : m ≠ missing w.cls.name name)
    (hl : Loads w s1 d s2) (k : ℕ) : access w (k + 2) name s = (.error (.attr m), s2) := by
  rw [access]
  simp only [own, if_neg hn, lookup, (find_iff _ _ _).2 hp, hg, C101_data hl k]
  rw [if_pos hm]

/-- **C101** is false of readers whose file cannot be opened because of what was given as the file (nothing, or a path object): that is
an `AttributeError` (filepath_or_buffer.py:74-80), for which the data are asked for again, until the recursion limit: the user gets a
`RecursionError` from `data` and from every unknown name, after as many attempts to read. -/
theorem C101_recursion_fails (hr : s.raw = none) (he : ∀ n, ∃ m, w.load n = .error (.attr m)) (k : ℕ) :
    access w k "data" s = (.error .recursion, { s with reads := s.reads + k }) ∧
    (name ≠ "data" → Unknown w.cls s.inst name → access w (k + 1) name s = (.error .recursion, { s with reads := s.reads + k })) := by
  have key : ∀ (k : ℕ) (s : Dataset R V), s.raw = none → access w k "data" s = (.error .recursion, { s with reads := s.reads + k }) := by
    intro k
    induction k with
    | zero => intro s _; rfl
    | succ k ih =>
      intro s hr
      obtain ⟨m, hm⟩ := he s.reads
      rw [access]
      simp only [own, if_true, dataProp, ensure, hr, hm]
      rw [ih _ rfl]
      simp only [Nat.add_assoc, Nat.add_comm 1 k]
  refine ⟨key k s hr, fun hn hu => ?_⟩
  rw [access]
  simp only [own, if_neg hn, lookup_unknown hu, key k s hr]

theorem once_dataProp (h : ∃ r, w.load 0 = .ok r) (hs : Once s) : Once (dataProp w s).2 := by
  have he : Once (ensure w s).2 := by
    unfold ensure
    rcases hs with ⟨h1, h2⟩ | ⟨h1, h2⟩
    · obtain ⟨r, hr⟩ := h
      simp only [h1, h2, hr]
      exact .inr ⟨rfl, Nat.le_refl _⟩
    · obtain ⟨r, hr⟩ := Option.isSome_iff_exists.1 h1
      simp only [hr]
      exact .inr ⟨h1, h2⟩
  unfold dataProp
  cases hx : ensure w s with
  | mk a b =>
    rw [hx] at he
    cases a with
    | error e => exact he
    | ok r => exact he

theorem once_lookup {c : Class (Dataset R V) V} (hc : Calm c) (inst : PyDict String V) (name : String) (hs : Once s) :
    Once (lookup c inst name s).2 := by
  unfold lookup
  split
  · rename_i g f hf
    exact hc name g f ((find_iff _ _ _).1 hf) s hs
  · split
    · exact hs
    · split <;> exact hs

theorem once_get (h : ∃ r, w.load 0 = .ok r) (h1 : Calm w.cls) (h2 : ∀ d, Calm (w.clsOf d)) (k : ℕ) (name : String) (s : Dataset R V)
    (hs : Once s) : Once (access w k name s).2 := by
  induction k generalizing name s with
  | zero => exact hs
  | succ k ih =>
    have ho : Once (own w name s).2 := by
      unfold own
      split_ifs
      · exact once_dataProp h hs
      · exact once_lookup h1 _ _ hs
    rw [access]
    split
    · rename_i m t1 e1
      rw [e1] at ho
      have i1 := ih "data" t1 ho
      split
      · rename_i e t2 e2
        rw [e2] at i1
        exact i1
      · rename_i d t2 e2
        rw [e2] at i1
        split_ifs
        · exact i1
        · have i2 := ih "data" t2 i1
          split
          · rename_i e t3 e3
            rw [e3] at i2
            exact i2
          · rename_i d' t3 e3
            rw [e3] at i2
            have i3 := once_lookup (h2 d') (w.instOf d') name i2
            split
            · rename_i m' t4 e4
              rw [show lookup (w.clsOf d') (w.instOf d') name t3 = _ from e4] at i3
              split_ifs <;> exact i3
            · exact i3
    · exact ho

/-- **C101** However often and whatever is asked for, a file that can be read is read at most once. -/
theorem C101_once (h : ∃ r, w.load 0 = .ok r) (h1 : Calm w.cls) (h2 : ∀ d, Calm (w.clsOf d)) (k : ℕ) (names : List String)
    (s : Dataset R V) (hs : Once s) : Once (accesses w k names s).2 := by
  induction names generalizing s with
  | nil => exact hs
  | cons n ns ih => exact ih _ (once_get h h1 h2 k n s hs)

/-- **C101** An attribute that is set is found again, whatever the data have under that name, and the data stay as they are. -/
theorem C101_set (hn : name ≠ "data") (hp : ∀ g f, ¬ First w.cls.mro name (.prop g f)) (v : V) :
    ∃ s1, assign w name v s = (.ok (), s1) ∧ s1.raw = s.raw ∧ s1.reads = s.reads ∧ s1.format = s.format ∧
      ∀ k, access w (k + 1) name s1 = (.ok v, s1) := by
  refine ⟨{ s with inst := PyDict.set s.inst name v }, ?_, rfl, rfl, rfl, fun k => C101_own hn (.inst hp ?_) k⟩
  · unfold assign
    rw [if_neg hn]
    split
    · rename_i f hf
      exact absurd ((find_iff _ _ _).1 hf) (hp _ _)
    · rename_i hf
      exact absurd ((find_iff _ _ _).1 hf) (hp _ _)
    · rfl
  · induction s.inst with
    | nil => simp [PyDict.set, PyDict.get?]
    | cons kv l ih =>
      obtain ⟨a, b⟩ := kv
      simp only [PyDict.set]
      split_ifs with h
      · simp [PyDict.get?]
      · simp [PyDict.get?, h, ih]

/-- **C101** `data` itself cannot be set. -/
theorem C101_set_data (v : V) : assign w "data" v s = (.error (.attr w.readOnly), s) := by
  simp [assign]

/-! ## Concrete cases -/

/-- Objects: texts, lists of texts, tables with their columns, and functions. -/
inductive Obj where
  | text (s : String)
  | list (l : List String)
  | table (cols : List String)
  | func (name : String)
  deriving DecidableEq

/-- The classes of the objects. -/
def classOf : Obj → Class (Dataset (List String) Obj) Obj
  | .text _ => ⟨"str", "str", [[("upper", .plain (.func "str.upper"))]]⟩
  | .list _ => ⟨"list", "list", [[("count", .plain (.func "list.count")), ("__len__", .plain (.func "list.__len__"))]]⟩
  | .table _ => ⟨"DataFrame", "DataFrame", [[("head", .plain (.func "DataFrame.head"))]]⟩
  | .func _ => ⟨"function", "function", []⟩

/-- A reader of texts; `data_format` is a property, `is_match` a function of the class. -/
def textClass : Class (Dataset (List String) Obj) Obj :=
  ⟨"TextData", "TextData", [[("is_match", .plain (.func "TextData.is_match"))],
    [("data_format", .prop (fun s => (.ok (.text (s.format.getD "")), s)) none), ("info", .plain (.text ""))]]⟩

/-- The text reader with what its file holds. -/
def textWorld (file : ℕ → Except Exc (List String)) : World (List String) Obj :=
  ⟨textClass, file, [("text", .list)], .list, .other 0, classOf, fun _ => [], fun _ => none, "can't set attribute"⟩

/-- A new reader. -/
def fresh : Dataset (List String) Obj := ⟨none, some "text", [("input_file_path", .text "a.txt")], 0⟩

/-- The data are read for `count`, which the reader does not have, not for what it has; a second access does not read them again; the
name of an attribute that is missing is reported with both classes. -/
example : accesses (textWorld fun _ => .ok ["x", "y"]) 5 ["info", "is_match", "input_file_path", "data_format"] fresh =
      ([.ok (.text ""), .ok (.func "TextData.is_match"), .ok (.text "a.txt"), .ok (.text "text")], fresh) ∧
    accesses (textWorld fun _ => .ok ["x", "y"]) 5 ["count", "nothing", "data"] fresh =
      ([.ok (.func "list.count"), .error (.attr "Neither 'TextData' nor 'list' objects have attribute 'nothing'"), .ok (.list ["x", "y"])],
        { fresh with raw := some ["x", "y"], reads := 1 }) := by
  decide +kernel

/-- A file that is not there, and no file at all. -/
example : (hasAttr (textWorld fun _ => .error (.other 2)) 5 "count" fresh).1 = .error (.other 2) ∧
    access (textWorld fun _ => .error (.attr "Type <class 'NoneType'> is invalid.")) 5 "data" fresh =
      (.error .recursion, { fresh with reads := 5 }) := by
  decide +kernel

theorem demo_calm (file : ℕ → Except Exc (List String)) : Calm (textWorld file).cls ∧ ∀ d, Calm ((textWorld file).clsOf d) := by
  constructor
  · intro name g f hf s hs
    rw [← find_iff] at hf
    simp only [textWorld, textClass, find, PyDict.get?] at hf
    split at hf
    · rename_i m hm
      split_ifs at hm
      cases hm
      cases hf
    · split at hf
      · rename_i m hm
        split_ifs at hm
        · cases hm; cases hf; exact hs
        · cases hm; cases hf
      · cases hf
  · intro d name g f hf s hs
    rw [← find_iff] at hf
    cases d <;> simp only [textWorld, classOf, find, PyDict.get?] at hf <;> (try split_ifs at hf) <;> simp_all

example : Once (accesses (textWorld fun _ => .ok ["x"]) 9 ["count", "upper", "data", "count"] fresh).2 :=
  C101_once ⟨_, rfl⟩ (demo_calm _).1 (demo_calm _).2 _ _ _ (.inl ⟨rfl, rfl⟩)

/-- The reader of a table with a column `age`, which the table has as an attribute by its `__getattr__`. -/
def tableWorld : World (List String) Obj :=
  ⟨⟨"CSVData", "CSVData", []⟩, fun _ => .ok ["age"], [("dataframe", .table)], .table, .other 0, classOf, fun _ => [],
    fun d => match d with
      | .table cols => some fun name => if name ∈ cols then .ok (.func name) else .error (.attr (missing "DataFrame" name))
      | _ => none, "can't set attribute"⟩

/-- **C101** is false of attributes that the class of the data makes up in `__getattr__`, as data frames do for their columns: they are
attributes of `data`, and not of the dataset. -/
theorem C101_column_fails : ∃ (w : World (List String) Obj) (s s1 : Dataset (List String) Obj) (d : Obj), Loads w s d s1 ∧
    ask w d "age" s1 = (.ok (.func "age"), s1) ∧ ∀ k, access w (k + 2) "age" s =
      (.error (.attr "Neither 'CSVData' nor 'DataFrame' objects have attribute 'age'"), s1) := by
  have hl : Loads tableWorld ⟨none, some "dataframe", [], 0⟩ (.table ["age"]) ⟨some ["age"], some "dataframe", [], 1⟩ :=
    .file rfl rfl (.format rfl (by decide) rfl)
  refine ⟨tableWorld, _, _, _, hl, by decide +kernel, fun k => ?_⟩
  refine C101_neither (by decide) rfl ⟨fun d hd => absurd hd (by simp [tableWorld]), by simp⟩ hl rfl ⟨fun e he m hm => ?_, by simp [tableWorld]⟩ k
  simp only [tableWorld, classOf, List.mem_singleton] at he
  subst he
  simp at hm

end Verif.Props.Attribute
