import Verif.Spec.Avro
import Verif.Lemmas.PyDict

/-!
# Lemmas about schemas of records
-/

namespace Verif.Avro

open Verif Verif.Json Verif.Spec.Avro

variable {A : Type}

/-- What is known of a path: the keys below it (`true`), or one. -/
def look : List Key → PyDict Key Nested → Option Bool
  | [], _ => none
  | k :: p, d =>
    match PyDict.get? d k with
    | none => none
    | some .one => if p = [] then some false else none
    | some (.keys e) => if p = [] then some true else look p e

theorem look_empty (p : List Key) : look p [] = none := by cases p <;> rfl

theorem at_nonempty {o : List (Key × J A)} {p v} (h : At o p v) : p ≠ [] := by cases h <;> simp

theorem at_nil {p} {v : J A} : ¬ At [] p v := by intro h; cases h with | here h => cases h | deeper h _ => cases h

theorem at_cons {x : Key × J A} {rest p v} : At (x :: rest) p v ↔ At [x] p v ∨ At rest p v := by
  constructor
  · intro h
    cases h with
    | here h =>
      rcases List.mem_cons.1 h with h | h
      · exact .inl (.here (by simp [h]))
      · exact .inr (.here h)
    | deeper h hp =>
      rcases List.mem_cons.1 h with h | h
      · exact .inl (.deeper (by simp [h]) hp)
      · exact .inr (.deeper h hp)
  · rintro (h | h)
    · cases h with
      | here h => exact .here (by simp at h; simp [h])
      | deeper h hp => exact .deeper (by simp at h; simp [h]) hp
    · cases h with
      | here h => exact .here (List.mem_cons_of_mem _ h)
      | deeper h hp => exact .deeper (List.mem_cons_of_mem _ h) hp

theorem at_single {k v} {p} {w : J A} : At [(k, v)] p w ↔ (p = [k] ∧ w = v) ∨ ∃ o q, v = .obj o ∧ p = k :: q ∧ At o q w := by
  constructor
  · intro h
    cases h with
    | here h => simp at h; exact .inl ⟨by rw [h.1], h.2⟩
    | deeper h hp => simp at h; exact .inr ⟨_, _, h.2.symm, by rw [h.1], hp⟩
  · rintro (⟨rfl, rfl⟩ | ⟨o, q, rfl, rfl, h⟩)
    · exact .here (by simp)
    · exact .deeper (by simp) h

theorem has_cons {x : Key × J A} {rest p b} : Has (x :: rest) p b ↔ Has [x] p b ∨ Has rest p b := by
  constructor
  · rintro ⟨v, h, hb⟩
    rcases at_cons.1 h with h | h
    · exact .inl ⟨v, h, hb⟩
    · exact .inr ⟨v, h, hb⟩
  · rintro (⟨v, h, hb⟩ | ⟨v, h, hb⟩)
    · exact ⟨v, at_cons.2 (.inl h), hb⟩
    · exact ⟨v, at_cons.2 (.inr h), hb⟩

theorem has_obj {k} {o : List (Key × J A)} {p b} : Has [(k, .obj o)] p b ↔ (p = [k] ∧ b = true) ∨ ∃ q, p = k :: q ∧ Has o q b := by
  constructor
  · rintro ⟨v, h, hb⟩
    rcases at_single.1 h with ⟨rfl, rfl⟩ | ⟨o', q, ho, rfl, h⟩
    · exact .inl ⟨rfl, hb.2 trivial⟩
    · cases ho; exact .inr ⟨q, rfl, v, h, hb⟩
  · rintro (⟨rfl, rfl⟩ | ⟨q, rfl, v, h, hb⟩)
    · exact ⟨_, at_single.2 (.inl ⟨rfl, rfl⟩), by simp [Object]⟩
    · exact ⟨v, at_single.2 (.inr ⟨o, q, rfl, rfl, h⟩), hb⟩

theorem has_leaf {k} {v : J A} (hv : ¬ Object v) {p b} : Has [(k, v)] p b ↔ p = [k] ∧ b = false := by
  constructor
  · rintro ⟨w, h, hb⟩
    rcases at_single.1 h with ⟨rfl, rfl⟩ | ⟨o', q, ho, rfl, h⟩
    · exact ⟨rfl, by cases b <;> simp_all⟩
    · exact absurd (by rw [ho]; trivial) hv
  · rintro ⟨rfl, rfl⟩
    exact ⟨v, at_single.2 (.inl ⟨rfl, rfl⟩), by simp [hv]⟩

/-- What is known grows by what is there. -/
def Grow (H : List Key → Bool → Prop) (a b : PyDict Key Nested) : Prop :=
  (∀ p x, look p a = some x → look p b = some x) ∧
    (∀ p x, look p a = none → look p b = some x → H p x) ∧ (∀ p x, H p x → look p b ≠ none)

theorem Grow.trans {H G a b c} (h : Grow H a b) (g : Grow G b c) : Grow (fun p x => H p x ∨ G p x) a c := by
  refine ⟨fun p x e => g.1 p x (h.1 p x e), ?_, ?_⟩
  · intro p x ha hc
    cases hb : look p b with
    | none => exact .inr (g.2.1 p x hb hc)
    | some y =>
      have := g.1 p y hb
      rw [hc] at this
      cases this
      exact .inl (h.2.1 p x ha hb)
  · rintro p x (hh | hg)
    · have := h.2.2 p x hh
      cases hb : look p b with
      | none => exact absurd hb this
      | some y => rw [g.1 p y hb]; simp
    · exact g.2.2 p x hg

theorem Grow.congr {H G a b} (h : Grow H a b) (e : ∀ p x, H p x ↔ G p x) : Grow G a b :=
  ⟨h.1, fun p x ha hb => (e p x).1 (h.2.1 p x ha hb), fun p x hg => h.2.2 p x ((e p x).2 hg)⟩

theorem look_set (d : PyDict Key Nested) (k k' n p) :
    look (k' :: p) (PyDict.set d k n) = if k = k' then (match n with
      | .one => if p = [] then some false else none
      | .keys e => if p = [] then some true else look p e) else look (k' :: p) d := by
  by_cases h : k = k'
  · subst h; rw [if_pos rfl, look, PyDict.get?_set, if_pos rfl]; cases n <;> rfl
  · rw [if_neg h, look, look, PyDict.get?_set, if_neg h]

theorem look_keys {d : PyDict Key Nested} {k e} (h : PyDict.get? d k = some (.keys e)) (p) :
    look (k :: p) d = if p = [] then some true else look p e := by rw [look, h]

theorem look_one {d : PyDict Key Nested} {k} (h : PyDict.get? d k = some .one) (p) :
    look (k :: p) d = if p = [] then some false else none := by rw [look, h]

theorem look_none {d : PyDict Key Nested} {k} (h : PyDict.get? d k = none) (p) : look (k :: p) d = none := by rw [look, h]

theorem grow_leaf (k : Key) (known : PyDict Key Nested) (v : J A) (hv : ¬ Object v) :
    Grow (Has [(k, v)]) known (if PyDict.has known k then known else PyDict.set known k .one) := by
  cases hk : PyDict.get? known k with
  | some n =>
    rw [if_pos (by simp [PyDict.has, hk])]
    refine ⟨fun _ _ h => h, fun p x h g => ?_, fun p x h => ?_⟩
    · rw [h] at g; cases g
    · obtain ⟨rfl, rfl⟩ := (has_leaf hv).1 h
      cases n with
      | one => rw [look_one hk]; simp
      | keys e => rw [look_keys hk]; simp
  | none =>
    rw [if_neg (by simp [PyDict.has, hk])]
    refine ⟨fun p x h => ?_, fun p x h g => ?_, fun p x h => ?_⟩
    · cases p with
      | nil => cases h
      | cons k' p =>
        rw [look_set]
        by_cases e : k = k'
        · subst e; rw [look_none hk] at h; cases h
        · rw [if_neg e]; exact h
    · cases p with
      | nil => cases g
      | cons k' p =>
        rw [look_set] at g
        by_cases e : k = k'
        · subst e
          rw [if_pos rfl] at g
          dsimp only at g
          by_cases hp : p = []
          · subst hp; simp at g; exact (has_leaf hv).2 ⟨rfl, g⟩
          · rw [if_neg hp] at g; cases g
        · rw [if_neg e, h] at g; cases g
    · obtain ⟨rfl, rfl⟩ := (has_leaf hv).1 h
      rw [look_set]; simp

theorem grow_keys {k : Key} {known : PyDict Key Nested} {o : List (Key × J A)} {d d' : PyDict Key Nested}
    (hk : PyDict.get? known k = some (.keys d) ∨ (PyDict.get? known k = none ∧ d = [])) (h : Grow (Has o) d d') :
    Grow (Has [(k, .obj o)]) known (PyDict.set known k (.keys d')) := by
  refine ⟨fun p x hp => ?_, fun p x hp hq => ?_, fun p x hp => ?_⟩
  · cases p with
    | nil => cases hp
    | cons k' p =>
      rw [look_set]
      by_cases e : k = k'
      · subst e
        rw [if_pos rfl]
        rcases hk with hk | ⟨hk, -⟩
        · rw [look_keys hk] at hp
          dsimp only
          by_cases hn : p = []
          · rw [if_pos hn] at hp ⊢; exact hp
          · rw [if_neg hn] at hp ⊢; exact h.1 _ _ hp
        · rw [look_none hk] at hp; cases hp
      · rw [if_neg e]; exact hp
  · cases p with
    | nil => cases hq
    | cons k' p =>
      rw [look_set] at hq
      by_cases e : k = k'
      · subst e
        rw [if_pos rfl] at hq
        dsimp only at hq
        by_cases hn : p = []
        · rw [if_pos hn] at hq; cases hq; exact has_obj.2 (.inl ⟨by rw [hn], rfl⟩)
        · rw [if_neg hn] at hq
          refine has_obj.2 (.inr ⟨p, rfl, ?_⟩)
          rcases hk with hk | ⟨hk, rfl⟩
          · rw [look_keys hk, if_neg hn] at hp; exact h.2.1 _ _ hp hq
          · exact h.2.1 _ _ (look_empty p) hq
      · rw [if_neg e, hp] at hq; cases hq
  · rcases has_obj.1 hp with ⟨rfl, rfl⟩ | ⟨q, rfl, hq⟩
    · rw [look_set]; simp
    · rw [look_set, if_pos rfl]
      dsimp only
      have hn : q ≠ [] := by obtain ⟨v, hv, -⟩ := hq; exact at_nonempty hv
      rw [if_neg hn]
      exact h.2.2 _ _ hq

/-- Something at the path is not an object but is taken for one. -/
def Clash (known : PyDict Key Nested) (H : List Key → Bool → Prop) : Prop :=
  ∃ p, (look p known = some false ∨ H p false) ∧ H p true

theorem clash_keys {k : Key} {known : PyDict Key Nested} {o : List (Key × J A)} {d : PyDict Key Nested}
    (hk : PyDict.get? known k = some (.keys d) ∨ (PyDict.get? known k = none ∧ d = [])) (h : Clash d (Has o)) :
    Clash known (Has [(k, .obj o)]) := by
  obtain ⟨p, h1, h2⟩ := h
  have hn : p ≠ [] := by obtain ⟨v, hv, -⟩ := h2; exact at_nonempty hv
  refine ⟨k :: p, ?_, has_obj.2 (.inr ⟨p, rfl, h2⟩)⟩
  rcases h1 with h1 | h1
  · rcases hk with hk | ⟨-, rfl⟩
    · left; rw [look_keys hk, if_neg hn]; exact h1
    · rw [look_empty] at h1; cases h1
  · exact .inr (has_obj.2 (.inr ⟨p, rfl, h1⟩))

mutual
theorem mergeField_spec (k : Key) (known : PyDict Key Nested) : ∀ v : J A,
    (∀ out, mergeField k known v = .ok out → Grow (Has [(k, v)]) known out) ∧
    (∀ e, mergeField k known v = .error e → e = .typeError ∧ Clash known (Has [(k, v)]))
  | .val a => by
    have := grow_leaf k known (.val a) (by simp [Object])
    refine ⟨fun out h => ?_, fun e h => ?_⟩
    · rw [mergeField] at h
      split at h <;> rename_i hk
      · rw [if_pos hk] at this; cases h; exact this
      · rw [if_neg hk] at this; cases h; exact this
    · rw [mergeField] at h; split at h <;> cases h
  | .list a => by
    have := grow_leaf k known (.list a) (by simp [Object])
    refine ⟨fun out h => ?_, fun e h => ?_⟩
    · rw [mergeField] at h
      split at h <;> rename_i hk
      · rw [if_pos hk] at this; cases h; exact this
      · rw [if_neg hk] at this; cases h; exact this
    · rw [mergeField] at h; split at h <;> cases h
  | .obj fields => by
    rw [mergeField]
    cases hk : PyDict.get? known k with
    | none =>
      have ih := mergeFields_spec fields []
      dsimp only
      cases hm : mergeFields fields [] with
      | error e => exact ⟨fun _ h => (by cases h), fun e' h => by cases h; exact ⟨(ih.2 _ hm).1, clash_keys (.inr ⟨hk, rfl⟩) (ih.2 _ hm).2⟩⟩
      | ok d' => exact ⟨fun _ h => (by cases h; exact grow_keys (.inr ⟨hk, rfl⟩) (ih.1 _ hm)), fun e' h => by cases h⟩
    | some n =>
      cases n with
      | one =>
        dsimp only
        cases fields with
        | nil =>
          refine ⟨fun out h => ?_, fun e h => by cases h⟩
          simp at h
          subst h
          have hl : ∀ p, look p (PyDict.set known k .one) = look p known := by
            intro p
            cases p with
            | nil => rfl
            | cons k' p =>
              rw [look_set]
              by_cases e : k = k'
              · subst e; rw [if_pos rfl, look_one hk]
              · rw [if_neg e]
          refine ⟨fun p x h => (by rw [hl]; exact h), fun p x h g => (by rw [hl, h] at g; cases g), fun p x h => ?_⟩
          rw [hl]
          rcases has_obj.1 h with ⟨rfl, rfl⟩ | ⟨q, rfl, v, hq, -⟩
          · rw [look_one hk]; simp
          · exact absurd hq at_nil
        | cons f fs =>
          refine ⟨fun out h => (by simp at h), fun e h => ?_⟩
          simp at h
          exact ⟨h.symm, [k], .inl (by rw [look_one hk]; simp), has_obj.2 (.inl ⟨rfl, rfl⟩)⟩
      | keys d =>
        have ih := mergeFields_spec fields d
        dsimp only
        cases hm : mergeFields fields d with
        | error e => exact ⟨fun _ h => (by cases h), fun e' h => by cases h; exact ⟨(ih.2 _ hm).1, clash_keys (.inl hk) (ih.2 _ hm).2⟩⟩
        | ok d' => exact ⟨fun _ h => (by cases h; exact grow_keys (.inl hk) (ih.1 _ hm)), fun e' h => by cases h⟩

theorem mergeFields_spec : ∀ (fields : List (Key × J A)) (known : PyDict Key Nested),
    (∀ out, mergeFields fields known = .ok out → Grow (Has fields) known out) ∧
    (∀ e, mergeFields fields known = .error e → e = .typeError ∧ Clash known (Has fields))
  | [], known => by
    rw [mergeFields]
    refine ⟨fun out h => ?_, fun e h => by cases h⟩
    cases h
    exact ⟨fun _ _ h => h, fun p x h g => (by rw [h] at g; cases g), fun p x ⟨v, hv, _⟩ => absurd hv at_nil⟩
  | (k, v) :: rest, known => by
    have h1 := mergeField_spec k known v
    rw [mergeFields]
    cases hm : mergeField k known v with
    | error e =>
      refine ⟨fun _ h => (by cases h), fun e' h => ?_⟩
      cases h
      obtain ⟨a, p, b, c⟩ := h1.2 _ hm
      exact ⟨a, p, b.imp id fun b => has_cons.2 (.inl b), has_cons.2 (.inl c)⟩
    | ok known' =>
      have ih := mergeFields_spec rest known'
      have hg := h1.1 _ hm
      dsimp only
      refine ⟨fun out h => ((hg.trans (ih.1 _ h)).congr fun p x => has_cons.symm), fun e h => ?_⟩
      obtain ⟨a, p, b, c⟩ := ih.2 _ h
      refine ⟨a, p, ?_, has_cons.2 (.inr c)⟩
      rcases b with b | b
      · cases hl : look p known with
        | none => exact .inr (has_cons.2 (.inl (hg.2.1 _ _ hl b)))
        | some y => left; rw [hg.1 _ _ hl] at b; exact b
      · exact .inr (has_cons.2 (.inr b))
end

/-- Some of the records have it. -/
def Any (records : List (List (Key × J A))) (p : List Key) (b : Bool) : Prop := ∃ r ∈ records, Has r p b

theorem mergeAll_ok : ∀ (records : List (List (Key × J A))) (known out : PyDict Key Nested),
    mergeAll records known = .ok out → Grow (Any records) known out
  | [], known, out, h => by
    cases h
    exact ⟨fun _ _ h => h, fun p x h g => (by rw [h] at g; cases g), fun p x ⟨v, hv, _⟩ => by cases hv⟩
  | r :: rs, known, out, h => by
    rw [mergeAll] at h
    cases hm : mergeFields r known with
    | error e => rw [hm] at h; cases h
    | ok known' =>
      rw [hm] at h
      refine (((mergeFields_spec r known).1 _ hm).trans (mergeAll_ok rs known' out h)).congr fun p x => ?_
      simp [Any]

theorem mergeAll_error : ∀ (records : List (List (Key × J A))) (known : PyDict Key Nested) (e : Err),
    mergeAll records known = .error e → e = .typeError ∧ ∃ before r after p, records = before ++ r :: after ∧
      (look p known = some false ∨ Any (before ++ [r]) p false) ∧ Has r p true
  | [], _, _, h => by cases h
  | r :: rs, known, e, h => by
    rw [mergeAll] at h
    cases hm : mergeFields r known with
    | error e' =>
      rw [hm] at h
      cases h
      obtain ⟨a, p, b, c⟩ := (mergeFields_spec r known).2 _ hm
      exact ⟨a, [], r, rs, p, rfl, b.imp id fun b => ⟨r, by simp, b⟩, c⟩
    | ok known' =>
      rw [hm] at h
      have hg := (mergeFields_spec r known).1 _ hm
      obtain ⟨a, before, s, after, p, hr, b, c⟩ := mergeAll_error rs known' e h
      refine ⟨a, r :: before, s, after, p, by rw [hr]; rfl, ?_, c⟩
      rcases b with b | ⟨t, ht, b⟩
      · cases hl : look p known with
        | none => exact .inr ⟨r, by simp, hg.2.1 _ _ hl b⟩
        | some y => left; rw [hg.1 _ _ hl] at b; exact b
      · exact .inr ⟨t, by simp at ht ⊢; exact .inr ht, b⟩

theorem mergeAll_append (a b : List (List (Key × J A))) (known : PyDict Key Nested) :
    mergeAll (a ++ b) known = match mergeAll a known with
      | .error e => .error e
      | .ok k => mergeAll b k := by
  induction a generalizing known with
  | nil => rfl
  | cons r rs ih =>
    rw [List.cons_append, mergeAll, mergeAll]
    cases mergeFields r known with
    | error e => rfl
    | ok k => exact ih k

/-! ## Keys stay distinct -/

/-- Keys are distinct at every level. -/
inductive Deep : List (Key × Nested) → Prop
  | mk {d} (h : PyDict.WF d) (hb : ∀ k e, (k, .keys e) ∈ d → Deep e) : Deep d

theorem Deep.wf {d} (h : Deep d) : PyDict.WF d := by cases h; assumption

theorem Deep.sub {d} (h : Deep d) {k e} (hk : (k, .keys e) ∈ d) : Deep e := by cases h with | mk _ hb => exact hb _ _ hk

theorem deep_nil : Deep [] := .mk PyDict.WF_nil (by simp)

theorem deep_set {d : PyDict Key Nested} (h : Deep d) (k n) (hn : ∀ e, n = .keys e → Deep e) : Deep (PyDict.set d k n) := by
  have hw := PyDict.WF_set h.wf k n
  refine .mk hw fun k' e hk => ?_
  rw [PyDict.mem_iff_get? hw, PyDict.get?_set] at hk
  by_cases e' : k = k'
  · rw [if_pos e'] at hk; cases hk; exact hn _ rfl
  · rw [if_neg e'] at hk; exact h.sub (PyDict.mem_of_get? hk)

mutual
theorem mergeField_deep (k : Key) (known out : PyDict Key Nested) (hd : Deep known) : ∀ v : J A, mergeField k known v = .ok out → Deep out
  | .val a, h => by
    rw [mergeField] at h
    split at h <;> cases h
    · exact hd
    · exact deep_set hd _ _ (by simp)
  | .list a, h => by
    rw [mergeField] at h
    split at h <;> cases h
    · exact hd
    · exact deep_set hd _ _ (by simp)
  | .obj fields, h => by
    rw [mergeField] at h
    cases hk : PyDict.get? known k with
    | none =>
      rw [hk] at h
      dsimp only at h
      cases hm : mergeFields fields [] with
      | error e => rw [hm] at h; cases h
      | ok d' =>
        rw [hm] at h
        cases h
        exact deep_set hd _ _ fun e he => by cases he; exact mergeFields_deep fields _ _ deep_nil hm
    | some n =>
      rw [hk] at h
      cases n with
      | one =>
        dsimp only at h
        split at h <;> cases h
        exact deep_set hd _ _ (by simp)
      | keys d =>
        dsimp only at h
        cases hm : mergeFields fields d with
        | error e => rw [hm] at h; cases h
        | ok d' =>
          rw [hm] at h
          cases h
          exact deep_set hd _ _ fun e he => by cases he; exact mergeFields_deep fields _ _ (hd.sub (PyDict.mem_of_get? hk)) hm

theorem mergeFields_deep : ∀ (fields : List (Key × J A)) (known out : PyDict Key Nested), Deep known →
    mergeFields fields known = .ok out → Deep out
  | [], _, _, hd, h => by cases h; exact hd
  | (k, v) :: rest, known, out, hd, h => by
    rw [mergeFields] at h
    cases hm : mergeField k known v with
    | error e => rw [hm] at h; cases h
    | ok known' =>
      rw [hm] at h
      exact mergeFields_deep rest _ _ (mergeField_deep k known known' hd v hm) h
end

theorem mergeAll_deep : ∀ (records : List (List (Key × J A))) (known out : PyDict Key Nested), Deep known →
    mergeAll records known = .ok out → Deep out
  | [], _, _, hd, h => by cases h; exact hd
  | r :: rs, known, out, hd, h => by
    rw [mergeAll] at h
    cases hm : mergeFields r known with
    | error e => rw [hm] at h; cases h
    | ok known' =>
      rw [hm] at h
      exact mergeAll_deep rs _ _ (mergeFields_deep r _ _ hd hm) h

/-! ## The schema -/

theorem schemaFields_map (d : List (Key × Nested)) : schemaFields d = d.map fun x => (x.1, match x.2 with
    | .one => Ty.text
    | .keys e => .record x.1 (schemaFields e)) := by
  induction d with
  | nil => rw [schemaFields, List.map_nil]
  | cons x d ih =>
    obtain ⟨k, n⟩ := x
    cases n <;> rw [schemaFields, ih, List.map_cons]

theorem schemaFields_keys (d : List (Key × Nested)) : (schemaFields d).map Prod.fst = PyDict.keys d := by
  rw [schemaFields_map, List.map_map]; rfl

theorem mem_text {d : List (Key × Nested)} {k} : (k, Ty.text) ∈ schemaFields d ↔ (k, Nested.one) ∈ d := by
  rw [schemaFields_map, List.mem_map]
  constructor
  · rintro ⟨⟨k', n⟩, hm, h⟩
    cases n <;> simp at h
    subst h; exact hm
  · intro h; exact ⟨_, h, rfl⟩

theorem mem_record {d : List (Key × Nested)} {k n f} :
    (k, Ty.record n f) ∈ schemaFields d ↔ n = k ∧ ∃ e, (k, Nested.keys e) ∈ d ∧ f = schemaFields e := by
  rw [schemaFields_map, List.mem_map]
  constructor
  · rintro ⟨⟨k', m⟩, hm, h⟩
    cases m with
    | one => simp at h
    | keys e =>
      simp at h
      obtain ⟨rfl, rfl, rfl⟩ := h
      exact ⟨rfl, e, hm, rfl⟩
  · rintro ⟨rfl, e, h, rfl⟩; exact ⟨_, h, rfl⟩

theorem distinct_schema {d} (h : Deep d) : Distinct (schemaFields d) := by
  induction h with
  | mk h _ ih =>
    refine .mk (by rw [schemaFields_keys]; exact h) fun k n f hk => ?_
    obtain ⟨-, e, he, rfl⟩ := mem_record.1 hk
    exact ih k e he

theorem field_nonempty {f p t} (h : Field f p t) : p ≠ [] := by cases h <;> simp

theorem field_look : ∀ (p : List Key) {d : List (Key × Nested)}, Deep d → ∀ b,
    look p d = some b ↔ ∃ t, Field (schemaFields d) p t ∧ (b = true ↔ Record t)
  | [], _, _, b => ⟨fun h => (by cases h), fun ⟨_, h, _⟩ => absurd rfl (field_nonempty h)⟩
  | k :: p, d, hd, b => by
    constructor
    · intro h
      cases hk : PyDict.get? d k with
      | none => rw [look_none hk] at h; cases h
      | some n =>
        cases n with
        | one =>
          rw [look_one hk] at h
          by_cases hp : p = []
          · subst hp; simp at h; subst h
            exact ⟨_, .here (mem_text.2 (PyDict.mem_of_get? hk)), by simp [Record]⟩
          · rw [if_neg hp] at h; cases h
        | keys e =>
          have hm := PyDict.mem_of_get? hk
          rw [look_keys hk] at h
          by_cases hp : p = []
          · subst hp; simp at h; subst h
            exact ⟨_, .here (mem_record.2 ⟨rfl, e, hm, rfl⟩), by simp [Record]⟩
          · rw [if_neg hp] at h
            obtain ⟨t, ht, hb⟩ := (field_look p (hd.sub hm) b).1 h
            exact ⟨t, .deeper (mem_record.2 ⟨rfl, e, hm, rfl⟩) ht, hb⟩
    · rintro ⟨t, h, hb⟩
      cases h with
      | here h =>
        cases t with
        | text =>
          rw [look_one ((PyDict.mem_iff_get? hd.wf _ _).1 (mem_text.1 h)), if_pos rfl]
          cases b <;> simp [Record] at hb ⊢
        | record n f =>
          obtain ⟨-, e, he, -⟩ := mem_record.1 h
          rw [look_keys ((PyDict.mem_iff_get? hd.wf _ _).1 he), if_pos rfl]
          cases b <;> simp [Record] at hb ⊢
      | deeper h hp =>
        obtain ⟨-, e, he, rfl⟩ := mem_record.1 h
        rw [look_keys ((PyDict.mem_iff_get? hd.wf _ _).1 he), if_neg (field_nonempty hp)]
        exact (field_look p (hd.sub he) b).2 ⟨t, hp, hb⟩

theorem field_some (p : List Key) {d : List (Key × Nested)} (hd : Deep d) : look p d ≠ none ↔ ∃ t, Field (schemaFields d) p t := by
  constructor
  · intro h
    cases hl : look p d with
    | none => exact absurd hl h
    | some b => obtain ⟨t, ht, -⟩ := (field_look p hd b).1 hl; exact ⟨t, ht⟩
  · rintro ⟨t, ht⟩
    cases t with
    | text => rw [(field_look p hd false).2 ⟨_, ht, by simp [Record]⟩]; simp
    | record n f => rw [(field_look p hd true).2 ⟨_, ht, by simp [Record]⟩]; simp

theorem schemaOf_ok {name : Key} {records : List (List (Key × J A))} {ty} (h : schemaOf name records = .ok ty) :
    ∃ known, mergeAll records [] = .ok known ∧ Deep known ∧ ty = .record name (schemaFields known) := by
  rw [schemaOf, nestedKeys] at h
  cases hm : mergeAll records [] with
  | error e => rw [hm] at h; cases h
  | ok known =>
    rw [hm] at h
    cases h
    exact ⟨known, rfl, mergeAll_deep _ _ _ deep_nil hm, by rw [schema]; rfl⟩

/-! ## Order -/

theorem mergeField_keys (k : Key) (known out : PyDict Key Nested) : ∀ v : J A, mergeField k known v = .ok out →
    PyDict.keys out = if k ∈ PyDict.keys known then PyDict.keys known else PyDict.keys known ++ [k]
  | .val a, h => by
    rw [mergeField] at h
    split at h <;> cases h <;> rename_i hk
    · rw [if_pos ((PyDict.has_iff _ _).1 hk)]
    · rw [PyDict.keys_set]; congr
  | .list a, h => by
    rw [mergeField] at h
    split at h <;> cases h <;> rename_i hk
    · rw [if_pos ((PyDict.has_iff _ _).1 hk)]
    · rw [PyDict.keys_set]; congr
  | .obj fields, h => by
    rw [mergeField] at h
    split at h
    · split at h <;> cases h; rw [PyDict.keys_set]; congr
    · split at h <;> cases h; rw [PyDict.keys_set]; congr
    · split at h <;> cases h; rw [PyDict.keys_set]; congr

theorem mergeFields_keys : ∀ (fields : List (Key × J A)) (known out : PyDict Key Nested), mergeFields fields known = .ok out →
    PyDict.keys out = (fields.map Prod.fst).foldl (fun seen k => if k ∈ seen then seen else seen ++ [k]) (PyDict.keys known)
  | [], _, _, h => by cases h; rfl
  | (k, v) :: rest, known, out, h => by
    rw [mergeFields] at h
    cases hm : mergeField k known v with
    | error e => rw [hm] at h; cases h
    | ok known' =>
      rw [hm] at h
      rw [mergeFields_keys rest known' out h, mergeField_keys k known known' v hm]
      rfl

theorem mergeAll_keys : ∀ (records : List (List (Key × J A))) (known out : PyDict Key Nested), mergeAll records known = .ok out →
    PyDict.keys out =
      (records.flatMap fun r => r.map Prod.fst).foldl (fun seen k => if k ∈ seen then seen else seen ++ [k]) (PyDict.keys known)
  | [], _, _, h => by cases h; rfl
  | r :: rs, known, out, h => by
    rw [mergeAll] at h
    cases hm : mergeFields r known with
    | error e => rw [hm] at h; cases h
    | ok known' =>
      rw [hm] at h
      rw [mergeAll_keys rs known' out h, mergeFields_keys r known known' hm, List.flatMap_cons, List.foldl_append]

end Verif.Avro
