import Verif.Spec.Prepare
import Mathlib.Tactic.SplitIfs
import Mathlib.Tactic.Tauto
import Mathlib.Data.List.Basic

/-!
# Lemmas on preparing a report
-/

namespace Verif.Prepare

open Verif Flat PrepareSpec

variable {V : Type}

/-! ### Patterns -/

theorem segments_cons (c : Char) (cs : List Char) : segments (c :: cs) = if c = '.' then [] :: segments cs
    else match segments cs with
      | [] => [[c]]
      | s :: ss => (c :: s) :: ss := rfl

theorem segments_ne_nil (s : List Char) : segments s ≠ [] := by
  cases s with
  | nil => simp [segments]
  | cons c cs =>
      unfold segments
      split_ifs
      · simp
      · cases segments cs <;> simp

theorem segments_plain {s : List Char} (h : '.' ∉ s) : segments s = [s] := by
  induction s with
  | nil => rfl
  | cons c cs ih =>
      have hc : c ≠ '.' := fun e => h (e ▸ List.mem_cons_self ..)
      unfold segments
      rw [if_neg hc, ih fun hm => h (List.mem_cons_of_mem _ hm)]

theorem segments_dot {a : List Char} (h : '.' ∉ a) (r : List Char) : segments (a ++ '.' :: r) = a :: segments r := by
  induction a with
  | nil => simp [segments]
  | cons c a ih =>
      have hc : c ≠ '.' := fun e => h (e ▸ List.mem_cons_self ..)
      have ih := ih fun hm => h (List.mem_cons_of_mem _ hm)
      rw [List.cons_append, segments_cons, if_neg hc, ih]

theorem split1_plain {s : List Char} (h : '.' ∉ s) : split1 s = (s, none) := by
  have : s.dropWhile (fun c => decide (c ≠ '.')) = [] := by
    have hp : ∀ c ∈ s, decide (c ≠ '.') = true := fun c hc => decide_eq_true fun e => h (e ▸ hc)
    rw [← List.append_nil s, List.dropWhile_append_of_pos hp]
    rfl
  unfold split1
  rw [this]

theorem split1_dot {a : List Char} (h : '.' ∉ a) (r : List Char) : split1 (a ++ '.' :: r) = (a, some r) := by
  have hp : ∀ c ∈ a, decide (c ≠ '.') = true := fun c hc => decide_eq_true fun e => h (e ▸ hc)
  have h1 : (a ++ '.' :: r).dropWhile (fun c => decide (c ≠ '.')) = '.' :: r := by
    rw [List.dropWhile_append_of_pos hp]; simp
  have h2 : (a ++ '.' :: r).takeWhile (fun c => decide (c ≠ '.')) = a := by
    rw [List.takeWhile_append_of_pos hp]; simp
  unfold split1
  rw [h1, h2]

/-- Every pattern has no dot or is split at its first one. -/
theorem pattern_cases (o : List Char) : '.' ∉ o ∨ ∃ a r, '.' ∉ a ∧ o = a ++ '.' :: r := by
  induction o with
  | nil => left; simp
  | cons c o ih =>
      by_cases hc : c = '.'
      · right; exact ⟨[], o, by simp, by rw [hc]; rfl⟩
      · rcases ih with h | ⟨a, r, h, e⟩
        · left
          intro hm
          rcases List.mem_cons.1 hm with h' | h'
          · exact hc h'.symm
          · exact h h'
        · right
          refine ⟨c :: a, r, ?_, by rw [e]; rfl⟩
          intro hm
          rcases List.mem_cons.1 hm with h' | h'
          · exact hc h'.symm
          · exact h h'

theorem covers_plain {s : List Char} (n : Option (List Char)) (rest : List (Option (List Char))) :
    covers [s] (n :: rest) = fits s n := by
  simp [covers]

theorem not_covered_nil (pats : List (List Char)) : covered pats [] = false := by
  unfold covered
  rw [List.any_eq_false]
  intro o _
  obtain ⟨s, ss, e⟩ := List.exists_cons_of_ne_nil (segments_ne_nil o)
  rw [e]
  simp [covers]

/-- Names that do not start with an empty text. -/
def Solid (names : List (Option (List Char))) : Prop := ∀ n ns, names = n :: ns → n ≠ some []

theorem fits_iff (s : List Char) (e : Option (List Char)) : fits s e = true ↔ s = star ∨ e = some s := by
  unfold fits star
  simp

theorem key_eq_iff {k : Key} {s : List Char} : Key.str s = k ↔ keyName k = some s := by
  cases k <;> simp [keyName, eq_comm]

/-- One pattern at a key. -/
theorem covers_key {k : Key} (hk : Addressable k) {rest : List (Option (List Char))} (hr : Solid rest) (o : List Char) :
    covers (segments o) (keyName k :: rest) = true ↔
      Key.str o = k ∨ o = star ∨ ∃ x, nextKey k o = some x ∧ covers (segments x) rest = true := by
  have hdot : ∀ a r, Key.str (a ++ '.' :: r) ≠ k := by
    rintro a r rfl
    exact hk.2 (by simp)
  rcases pattern_cases o with h | ⟨a, r, h, rfl⟩
  · rw [segments_plain h, covers_plain, fits_iff, key_eq_iff]
    have : nextKey k o = none := by unfold nextKey; rw [split1_plain h]
    rw [this]
    constructor
    · rintro (h | h)
      · exact Or.inr (Or.inl h)
      · exact Or.inl h
    · rintro (h | h | ⟨x, h, _⟩)
      · exact Or.inr h
      · exact Or.inl h
      · exact nomatch h
  · rw [segments_dot h]
    have hstar : a ++ '.' :: r ≠ star := by
      intro e
      have : '.' ∈ star := e ▸ (by simp)
      simp [star] at this
    have hn : nextKey k (a ++ '.' :: r) = if r ≠ [] ∧ (a = star ∨ Key.str a = k) then some r else none := by
      unfold nextKey; rw [split1_dot h]
    simp only [covers, Bool.and_eq_true, fits_iff]
    rw [hn]
    constructor
    · rintro ⟨h1, h2⟩
      right; right
      have hne : r ≠ [] := by
        rintro rfl
        rcases rest with _ | ⟨n, ns⟩
        · simp [segments, covers] at h2
        · simp only [segments, covers, Bool.and_eq_true, fits_iff] at h2
          rcases h2.1 with h | h
          · simp [star] at h
          · exact hr n ns rfl h
      refine ⟨r, ?_, h2⟩
      rw [if_pos ⟨hne, h1.imp id key_eq_iff.2⟩]
    · rintro (h' | h' | ⟨x, h', h2⟩)
      · exact absurd h' (hdot a r)
      · exact absurd h' hstar
      · split_ifs at h' with hc
        · obtain rfl := Option.some.inj h'
          exact ⟨hc.2.imp id key_eq_iff.1, h2⟩

theorem covered_key {k : Key} (hk : Addressable k) {rest : List (Option (List Char))} (hr : Solid rest)
    (pats : List (List Char)) :
    covered pats (keyName k :: rest) = true ↔
      listed pats k = true ∨ star ∈ pats ∨ covered (nextLayer k pats) rest = true := by
  unfold covered nextLayer
  simp only [List.any_eq_true, List.mem_filterMap]
  have hl : listed pats k = true ↔ ∃ o ∈ pats, Key.str o = k := by
    cases k <;> simp [listed]
  rw [hl]
  constructor
  · rintro ⟨o, ho, hc⟩
    rcases (covers_key hk hr o).1 hc with h | h | ⟨x, h1, h2⟩
    · exact Or.inl ⟨o, ho, h⟩
    · exact Or.inr (Or.inl (h ▸ ho))
    · exact Or.inr (Or.inr ⟨x, ⟨o, ho, h1⟩, h2⟩)
  · rintro (⟨o, ho, h⟩ | h | ⟨x, ⟨o, ho, h1⟩, h2⟩)
    · exact ⟨o, ho, (covers_key hk hr o).2 (Or.inl h)⟩
    · exact ⟨star, h, (covers_key hk hr star).2 (Or.inr (Or.inl rfl))⟩
    · exact ⟨o, ho, (covers_key hk hr o).2 (Or.inr (Or.inr ⟨x, h1, h2⟩))⟩

theorem dataStats_plain : '.' ∉ dataStats := by decide +kernel

theorem star_plain : '.' ∉ star := by decide +kernel

/-- What the keys to omit in a column cover. -/
def colCovered : Option (List (List Char)) → List (Option (List Char)) → Bool
  | none, _ => true
  | some next, rest => covered next rest

/-- Columns and their patterns. -/
theorem colOmit_spec {col : List Char} (hcol : '.' ∉ col) {pats : List (List Char)} (h1 : star ∉ pats) (h2 : dataStats ∉ pats)
    {r : Option (List (List Char))} (h : colOmit col pats = .ok r) (rest : List (Option (List Char))) :
    covered pats (some dataStats :: some col :: rest) = colCovered r rest := by
  induction pats generalizing r with
  | nil =>
      simp only [colOmit, Except.ok.injEq] at h
      subst h
      rfl
  | cons o pats ih =>
      have h1' : star ∉ pats := fun hm => h1 (List.mem_cons_of_mem _ hm)
      have h2' : dataStats ∉ pats := fun hm => h2 (List.mem_cons_of_mem _ hm)
      have ho1 : o ≠ star := fun e => h1 (e ▸ List.mem_cons_self ..)
      have ho2 : o ≠ dataStats := fun e => h2 (e ▸ List.mem_cons_self ..)
      have hcons : covered (o :: pats) (some dataStats :: some col :: rest) =
          (covers (segments o) (some dataStats :: some col :: rest) || covered pats (some dataStats :: some col :: rest)) := by
        unfold covered; rw [List.any_cons]
      unfold colOmit at h
      split_ifs at h with hset
      · obtain rfl := Except.ok.inj h
        have : covers (segments o) (some dataStats :: some col :: rest) = true := by
          rcases hset with rfl | rfl | rfl
          · rw [segments_dot star_plain, segments_plain hcol]
            simp [covers, fits, star]
          · rw [show dataStats ++ ['.', '*'] = dataStats ++ '.' :: star from rfl, segments_dot dataStats_plain,
              segments_plain star_plain]
            simp [covers, fits, star]
          · rw [segments_dot dataStats_plain, segments_plain hcol]
            simp [covers, fits]
        rw [hcons, this]
        rfl
      rcases pattern_cases o with hp | ⟨a, r1, hp, rfl⟩
      · rw [split1_plain hp] at h
        have : covers (segments o) (some dataStats :: some col :: rest) = false := by
          rw [segments_plain hp, covers_plain, Bool.eq_false_iff]
          intro hf
          rcases (fits_iff _ _).1 hf with e | e
          · exact ho1 e
          · exact ho2 (Option.some.inj e).symm
        rw [hcons, this, Bool.false_or]
        exact ih h1' h2' h
      · rw [split1_dot hp] at h
        dsimp only at h
        rw [segments_dot hp] at hcons
        by_cases ha : a ≠ dataStats ∧ a ≠ star
        · rw [if_pos ha] at h
          have : covers (a :: segments r1) (some dataStats :: some col :: rest) = false := by
            simp only [covers, Bool.and_eq_false_iff]
            left
            rw [Bool.eq_false_iff]
            intro hf
            rcases (fits_iff _ _).1 hf with e | e
            · exact ha.2 e
            · exact ha.1 (Option.some.inj e).symm
          rw [hcons, this, Bool.false_or]
          exact ih h1' h2' h
        · rw [if_neg ha] at h
          have hfit : fits a (some dataStats) = true := by
            rw [fits_iff]
            by_cases e : a = star
            · exact Or.inl e
            · right
              by_cases e' : a = dataStats
              · rw [e']
              · exact absurd ⟨e', e⟩ ha
          have hcov : ∀ es, covers (a :: segments r1) (some dataStats :: es) = covers (segments r1) es := by
            intro es; simp only [covers, hfit, Bool.true_and]
          rw [hcov] at hcons
          rcases pattern_cases r1 with hq | ⟨b, r2, hq, rfl⟩
          · rw [split1_plain hq] at h
            dsimp only at h
            split_ifs at h with hb
            · have : covers (segments r1) (some col :: rest) = false := by
                rw [segments_plain hq, covers_plain, Bool.eq_false_iff]
                intro hf
                rcases (fits_iff _ _).1 hf with e | e
                · exact hb (Or.inl e)
                · exact hb (Or.inr (Option.some.inj e).symm)
              rw [hcons, this, Bool.false_or]
              exact ih h1' h2' h
          · rw [split1_dot hq] at h
            dsimp only at h
            rw [segments_dot hq] at hcons
            split_ifs at h with hb
            · have hfb : fits b (some col) = true := by
                rw [fits_iff]; exact hb.imp id fun e => by rw [e]
              cases hc : colOmit col pats with
              | error e => rw [hc] at h; exact nomatch h
              | ok r' =>
                  rw [hc] at h
                  have := ih h1' h2' hc
                  have h : r'.map (r2 :: ·) = r := Except.ok.inj h
                  subst h
                  rw [hcons, this]
                  simp only [covers, hfb, Bool.true_and]
                  cases r' with
                  | none => simp [colCovered]
                  | some next => simp [covered, colCovered]
            · have : covers (b :: segments r2) (some col :: rest) = false := by
                simp only [covers, Bool.and_eq_false_iff]
                left
                rw [Bool.eq_false_iff]
                intro hf
                rcases (fits_iff _ _).1 hf with e | e
                · exact hb (Or.inl e)
                · exact hb (Or.inr (Option.some.inj e).symm)
              rw [hcons, this, Bool.false_or]
              exact ih h1' h2' h

/-! ### Positions -/

variable {fmt : V → V} {colName : List (Key × Rep V) → List Char}

/-- Path and content. -/
def Entry.proj (e : Entry V) : List Step × Option (Rep V) := (e.path, e.content)

/-- Path and formatted content. -/
def Entry.show (fmt : V → V) (e : Entry V) : List Step × Option (Rep V) := (e.path, shown fmt e.content)

/-- The positions that are kept. -/
def kept (fmt : V → V) (pats : List (List Char)) (pre : List (Option (List Char))) (es : List (Entry V)) :
    List (List Step × Option (Rep V)) :=
  (es.filter fun e => !covered pats (pre ++ e.names)).map (Entry.show fmt)

theorem kept_nil (pats pre) : kept fmt pats pre ([] : List (Entry V)) = [] := rfl

theorem kept_append (pats pre) (a b : List (Entry V)) :
    kept fmt pats pre (a ++ b) = kept fmt pats pre a ++ kept fmt pats pre b := by
  simp [kept]

theorem kept_cons (pats pre) (a : Entry V) (b : List (Entry V)) :
    kept fmt pats pre (a :: b) = kept fmt pats pre [a] ++ kept fmt pats pre b := kept_append pats pre [a] b

theorem kept_push (pats : List (List Char)) (pre n : List (Option (List Char))) (s : List Step) (es : List (Entry V)) :
    kept fmt pats pre (es.map (Entry.push s n)) = (kept fmt pats (pre ++ n) es).map fun pc => (s ++ pc.1, pc.2) := by
  unfold kept
  rw [List.filter_map, List.map_map, List.map_map]
  have : ((fun e : Entry V => !covered pats (pre ++ e.names)) ∘ Entry.push s n) =
      fun e => !covered pats (pre ++ n ++ e.names) := by
    funext e; simp [Entry.push, List.append_assoc]
  rw [this]
  rfl

theorem proj_push (s : List Step) (n : List (Option (List Char))) (es : List (Entry V)) :
    (es.map (Entry.push s n)).map Entry.proj = (es.map Entry.proj).map fun pc => (s ++ pc.1, pc.2) := by
  rw [List.map_map, List.map_map]; rfl

theorem kept_all {pats : List (List Char)} {pre : List (Option (List Char))} {es : List (Entry V)}
    (h : ∀ e ∈ es, covered pats (pre ++ e.names) = true) : kept fmt pats pre es = [] := by
  unfold kept
  rw [List.filter_eq_nil_iff.2 fun e he => by simp [h e he]]
  rfl

theorem kept_congr {pats pats' : List (List Char)} {pre pre' : List (Option (List Char))} {es : List (Entry V)}
    (h : ∀ e ∈ es, covered pats (pre ++ e.names) = covered pats' (pre' ++ e.names)) :
    kept fmt pats pre es = kept fmt pats' pre' es := by
  unfold kept
  rw [List.filter_congr fun e he => by rw [h e he]]

theorem addressable_solid {k : Key} (hk : Addressable k) (ns : List (Option (List Char))) : Solid (keyName k :: ns) := by
  rintro n ns' h
  obtain ⟨rfl, rfl⟩ := List.cons.inj h
  cases k with
  | str s => simpa [keyName] using hk.1
  | int i => simp [keyName]

theorem proper_solid : ∀ {is : List (Key × Rep V)}, Proper colName is → ∀ e ∈ entries colName is, Solid e.names
  | [], _, e, he => by simp [entries] at he
  | (k, v) :: rest, h, e, he => by
      simp only [Proper] at h
      simp only [entries] at he
      rcases List.mem_append.1 he with he | he
      · obtain ⟨e', _, rfl⟩ := List.mem_map.1 he
        exact addressable_solid h.1 _
      · exact proper_solid h.2.2 e he

theorem bind_ok {α β : Type} {x : Except Err α} {f : α → Except Err β} {b : β} (h : (x >>= f) = .ok b) :
    ∃ a, x = .ok a ∧ f a = .ok b := by
  cases x with
  | error e => exact nomatch h
  | ok a => exact ⟨a, rfl, h⟩

theorem map_ok {α β : Type} {x : Except Err α} {f : α → β} {b : β} (h : x.map f = .ok b) : ∃ a, x = .ok a ∧ f a = b := by
  cases x with
  | error e => exact nomatch h
  | ok a => exact ⟨a, rfl, Except.ok.inj h⟩

theorem solid_nil : Solid [] := fun _ _ h => nomatch h

/-- Nothing covers the position of a value that is reached. -/
theorem not_covered_here {k : Key} (hk : Addressable k) {pats : List (List Char)} (h1 : listed pats k = false)
    (h2 : star ∉ pats) : covered pats [keyName k] = false := by
  rw [Bool.eq_false_iff]
  intro hc
  rcases (covered_key hk solid_nil pats).1 hc with h | h | h
  · rw [h1] at h; exact nomatch h
  · exact h2 h
  · rw [not_covered_nil] at h; exact nomatch h

theorem kept_single {k : Key} (hk : Addressable k) {pats : List (List Char)} (h1 : listed pats k = false)
    (h2 : star ∉ pats) (c : Option (Rep V)) :
    kept fmt pats [keyName k] [⟨[], [], c⟩] = [([], shown fmt c)] := by
  unfold kept
  rw [List.filter_cons_of_pos (by
    show (!covered pats ([keyName k] ++ [])) = true
    rw [List.append_nil, not_covered_here hk h1 h2]; rfl)]
  rfl

mutual
theorem items_spec : ∀ (is : List (Key × Rep V)) (pats : List (List Char)) (out : List (Key × Rep V)),
    Proper colName is → items fmt colName pats is = .ok out →
      (entries colName out).map Entry.proj = kept fmt pats [] (entries colName is)
  | [], pats, out, _, h => by
      simp only [items, Except.ok.injEq] at h
      subst h
      simp [entries, kept]
  | (k, v) :: rest, pats, out, hp, h => by
      simp only [Proper] at hp
      simp only [items] at h
      simp only [entries]
      rw [kept_append, kept_push, List.nil_append]
      split_ifs at h with hc
      · rw [kept_all, List.map_nil, List.nil_append]
        · exact items_spec rest pats out hp.2.2 h
        · intro e he
          show covered pats (keyName k :: e.names) = true
          have hs : listed pats k = true ∨ star ∈ pats := by simpa using hc
          have key : ∀ ns, covered pats (keyName k :: ns) = true := by
            intro ns
            unfold covered
            rw [List.any_eq_true]
            rcases hs with hs | hs
            · cases k with
              | int i => simp [listed] at hs
              | str s =>
                  refine ⟨s, by simpa [listed] using hs, ?_⟩
                  rw [segments_plain hp.1.2]
                  simp [covers, fits, keyName]
            · exact ⟨star, hs, by simp [star, segments, covers, fits]⟩
          exact key _
      · have hs : ¬(listed pats k = true ∨ star ∈ pats) := by simpa using hc
        have h1 : listed pats k = false := by
          rw [Bool.eq_false_iff]; exact fun h => hs (Or.inl h)
        have h2 : star ∉ pats := fun h => hs (Or.inr h)
        obtain ⟨v', hv, h⟩ := bind_ok h
        obtain ⟨rest', hr, h⟩ := bind_ok h
        obtain rfl := Except.ok.inj h
        simp only [entries, List.map_append]
        rw [proj_push, value_spec v pats k v' hp.1 hp.2.1 h1 h2 hv, items_spec rest pats rest' hp.2.2 hr]

theorem value_spec : ∀ (v : Rep V) (pats : List (List Char)) (k : Key) (v' : Rep V), Addressable k →
    ProperValue colName k v → listed pats k = false → star ∉ pats → value fmt colName pats k v = .ok v' →
      (valueEntries colName k v').map Entry.proj = kept fmt pats [keyName k] (valueEntries colName k v)
  | .leaf v, pats, k, v', hk, _, h1, h2, h => by
      simp only [value, Except.ok.injEq] at h
      subst h
      simp only [valueEntries]
      rw [kept_single hk h1 h2]
      rfl
  | .null, pats, k, v', hk, _, h1, h2, h => by
      simp only [value, Except.ok.injEq] at h
      subst h
      simp only [valueEntries]
      rw [kept_single hk h1 h2]
      rfl
  | .node is, pats, k, v', hk, hp, h1, h2, h => by
      simp only [value] at h
      by_cases hks : k = .str profileSchema
      · rw [if_pos hks] at h
        obtain rfl := Except.ok.inj h
        have hks' : k = .str "profile_schema".toList := hks
        simp only [valueEntries, if_pos hks']
        rw [kept_single hk h1 h2]
        rfl
      · rw [if_neg hks] at h
        have hks' : ¬k = .str "profile_schema".toList := hks
        obtain ⟨is', hi, rfl⟩ := map_ok h
        have hp' : Proper colName is := by
          simp only [ProperValue] at hp
          exact hp.resolve_left hks'
        simp only [valueEntries, if_neg hks']
        rw [kept_cons, kept_single hk h1 h2, List.map_cons, items_spec is (nextLayer k pats) is' hp' hi]
        congr 1
        refine kept_congr fun e he => ?_
        rw [Bool.eq_iff_iff]
        show covered (nextLayer k pats) e.names = true ↔ covered pats (keyName k :: e.names) = true
        rw [covered_key hk (proper_solid hp' e he)]
        rw [h1]
        simp [h2]
  | .cols cs, pats, k, v', hk, hp, h1, h2, h => by
      simp only [value] at h
      by_cases hks : k = .str dataStats
      · rw [if_pos hks] at h
        have hks' : k = .str "data_stats".toList := hks
        obtain ⟨cs', hi, rfl⟩ := map_ok h
        have hp' : ProperCols colName cs := by
          simp only [ProperValue] at hp
          exact hp.resolve_left fun hne => hne hks'
        have h3 : dataStats ∉ pats := by
          intro hm
          rw [hks] at h1
          simp [listed, hm] at h1
        simp only [valueEntries, if_pos hks']
        rw [kept_cons, kept_single hk h1 h2, List.map_cons, columns_spec cs 0 pats cs' hp' h2 h3 hi, hks]
        rfl
      · rw [if_neg hks] at h
        obtain rfl := Except.ok.inj h
        have hks' : ¬k = .str "data_stats".toList := hks
        simp only [valueEntries, if_neg hks']
        rw [kept_single hk h1 h2]
        rfl

theorem columns_spec : ∀ (cs : List (Rep V)) (i : ℕ) (pats : List (List Char)) (out : List (Rep V)), ProperCols colName cs →
    star ∉ pats → dataStats ∉ pats → columns fmt colName pats cs = .ok out →
      (colsEntries colName i out).map Entry.proj = kept fmt pats [some dataStats] (colsEntries colName i cs)
  | [], i, pats, out, _, _, _, h => by
      simp only [columns, Except.ok.injEq] at h
      subst h
      simp [colsEntries, kept]
  | c :: rest, i, pats, out, hp, h1, h2, h => by
      simp only [ProperCols] at hp
      simp only [columns] at h
      obtain ⟨c', hc, h⟩ := bind_ok h
      obtain ⟨rest', hr, h⟩ := bind_ok h
      obtain rfl := Except.ok.inj h
      simp only [colsEntries]
      rw [List.map_append, kept_append, column_spec c i pats c' hp.1 h1 h2 hc,
        columns_spec rest (i + 1) pats rest' hp.2 h1 h2 hr]

theorem column_spec : ∀ (c : Rep V) (i : ℕ) (pats : List (List Char)) (out : Rep V), ProperCol colName c →
    star ∉ pats → dataStats ∉ pats → column fmt colName pats c = .ok out →
      (colEntries colName i out).map Entry.proj = kept fmt pats [some dataStats] (colEntries colName i c)
  | .leaf _, _, _, _, hp, _, _, _ => by simp only [ProperCol] at hp
  | .null, _, _, _, hp, _, _, _ => by simp only [ProperCol] at hp
  | .cols _, _, _, _, hp, _, _, _ => by simp only [ProperCol] at hp
  | .node is, i, pats, out, hp, h1, h2, h => by
      simp only [ProperCol] at hp
      simp only [column] at h
      simp only [colEntries]
      rw [kept_push]
      cases hc : colOmit (colName is) pats with
      | error e => rw [hc] at h; exact nomatch h
      | ok r =>
          have hs := fun rest => colOmit_spec hp.1 h1 h2 hc rest
          rw [hc] at h
          cases r with
          | none =>
              obtain rfl := Except.ok.inj h
              rw [kept_all]
              · simp [colEntries]
              · intro e _; exact hs e.names
          | some next =>
              obtain ⟨is', hi, rfl⟩ := map_ok h
              simp only [colEntries]
              rw [proj_push]
              congr 1
              rw [show kept fmt pats ([some dataStats] ++ [some (colName is)]) (⟨[], [], none⟩ :: entries colName is) =
                kept fmt next [] (⟨[], [], none⟩ :: entries colName is) from kept_congr fun e _ => hs e.names]
              rw [kept_cons, List.map_cons, items_spec is next is' hp.2 hi]
              unfold kept
              rw [List.filter_cons_of_pos (by
                show (!covered next []) = true
                rw [not_covered_nil]; rfl)]
              rfl
end

/-! ### Success -/

/-- `*.*` -/
def starStar : List Char := ['*', '.', '*']

theorem colOmit_ok {col : List Char} (hcol : '.' ∉ col) {pats : List (List Char)} (h : ∀ o ∈ pats, ¬starStar <:+ o) :
    ∃ r, colOmit col pats = .ok r ∧ ∀ next, r = some next → ∀ o ∈ next, ¬starStar <:+ o := by
  induction pats with
  | nil => exact ⟨some [], by simp [colOmit], fun next e o ho => by rw [← Option.some.inj e] at ho; exact nomatch ho⟩
  | cons o pats ih =>
      obtain ⟨r, hr, hn⟩ := ih fun o ho => h o (List.mem_cons_of_mem _ ho)
      have ho := h o (List.mem_cons_self ..)
      unfold colOmit
      split_ifs with hset
      · exact ⟨none, rfl, fun _ e => nomatch e⟩
      rcases pattern_cases o with hp | ⟨a, r1, hp, rfl⟩
      · rw [split1_plain hp]; exact ⟨r, hr, hn⟩
      · rw [split1_dot hp]
        dsimp only
        split_ifs with h1 h2
        · exact ⟨r, hr, hn⟩
        · rcases pattern_cases r1 with hq | ⟨b, r2, hq, rfl⟩
          · exfalso
            rw [split1_plain hq] at h2
            have ha : a = dataStats ∨ a = star := by
              by_cases e : a = dataStats
              · exact Or.inl e
              · right
                by_contra e'
                exact h1 ⟨e, e'⟩
            rcases h2 with e | e <;> dsimp only at e <;> subst e
            · rcases ha with e' | e' <;> subst e'
              · exact hset (Or.inr (Or.inl rfl))
              · exact ho ⟨[], rfl⟩
            · rcases ha with e' | e' <;> subst e'
              · exact hset (Or.inr (Or.inr rfl))
              · exact hset (Or.inl rfl)
          · rw [split1_dot hq, hr]
            refine ⟨r.map (r2 :: ·), rfl, ?_⟩
            intro next e o' ho'
            cases r with
            | none => exact nomatch e
            | some next' =>
                simp only [Option.map_some, Option.some.injEq] at e
                subst e
                rcases List.mem_cons.1 ho' with e | ho'
                · subst e
                  intro hs
                  refine ho (hs.trans ⟨a ++ '.' :: b ++ ['.'], by simp⟩)
                · exact hn next' rfl o' ho'
        · exact ⟨r, hr, hn⟩

theorem nextLayer_free {k : Key} {pats : List (List Char)} (h : ∀ o ∈ pats, ¬starStar <:+ o) :
    ∀ o ∈ nextLayer k pats, ¬starStar <:+ o := by
  intro o ho
  obtain ⟨p, hp, e⟩ := List.mem_filterMap.1 ho
  unfold nextKey at e
  rcases pattern_cases p with hd | ⟨a, r, hd, rfl⟩
  · rw [split1_plain hd] at e; exact nomatch e
  · rw [split1_dot hd] at e
    dsimp only at e
    split_ifs at e
    obtain rfl := Option.some.inj e
    exact fun hs => h _ hp (hs.trans ⟨a ++ ['.'], by simp⟩)

mutual
theorem items_ok : ∀ (is : List (Key × Rep V)) (pats : List (List Char)), Proper colName is →
    (∀ o ∈ pats, ¬starStar <:+ o) → ∃ out, items fmt colName pats is = .ok out
  | [], pats, _, _ => ⟨[], by simp only [items]⟩
  | (k, v) :: rest, pats, hp, h => by
      simp only [Proper] at hp
      obtain ⟨out, ho⟩ := items_ok rest pats hp.2.2 h
      obtain ⟨v', hv⟩ := value_ok v pats k hp.2.1 h
      simp only [items]
      split_ifs
      · exact ⟨out, ho⟩
      · exact ⟨(k, v') :: out, by rw [hv, ho]; rfl⟩

theorem value_ok : ∀ (v : Rep V) (pats : List (List Char)) (k : Key), ProperValue colName k v →
    (∀ o ∈ pats, ¬starStar <:+ o) → ∃ v', value fmt colName pats k v = .ok v'
  | .leaf v, pats, k, _, _ => ⟨.leaf (fmt v), by simp only [value]⟩
  | .null, pats, k, _, _ => ⟨.null, by simp only [value]⟩
  | .node is, pats, k, hp, h => by
      simp only [value]
      split_ifs with hk
      · exact ⟨_, rfl⟩
      · simp only [ProperValue] at hp
        obtain ⟨out, ho⟩ := items_ok is (nextLayer k pats) (hp.resolve_left hk) (nextLayer_free h)
        exact ⟨.node out, by rw [ho]; rfl⟩
  | .cols cs, pats, k, hp, h => by
      simp only [value]
      split_ifs with hk
      · simp only [ProperValue] at hp
        obtain ⟨out, ho⟩ := columns_ok cs pats (hp.resolve_left fun hne => hne hk) h
        exact ⟨.cols out, by rw [ho]; rfl⟩
      · exact ⟨_, rfl⟩

theorem columns_ok : ∀ (cs : List (Rep V)) (pats : List (List Char)), ProperCols colName cs →
    (∀ o ∈ pats, ¬starStar <:+ o) → ∃ out, columns fmt colName pats cs = .ok out
  | [], pats, _, _ => ⟨[], by simp only [columns]⟩
  | c :: rest, pats, hp, h => by
      simp only [ProperCols] at hp
      obtain ⟨c', hc⟩ := column_ok c pats hp.1 h
      obtain ⟨out, ho⟩ := columns_ok rest pats hp.2 h
      simp only [columns]
      exact ⟨c' :: out, by rw [hc, ho]; rfl⟩

theorem column_ok : ∀ (c : Rep V) (pats : List (List Char)), ProperCol colName c →
    (∀ o ∈ pats, ¬starStar <:+ o) → ∃ out, column fmt colName pats c = .ok out
  | .leaf _, _, hp, _ => by simp only [ProperCol] at hp
  | .null, _, hp, _ => by simp only [ProperCol] at hp
  | .cols _, _, hp, _ => by simp only [ProperCol] at hp
  | .node is, pats, hp, h => by
      simp only [ProperCol] at hp
      simp only [column]
      obtain ⟨r, hr, hn⟩ := colOmit_ok hp.1 h
      rw [hr]
      cases r with
      | none => exact ⟨_, rfl⟩
      | some next =>
          obtain ⟨out, ho⟩ := items_ok is next hp.2 (hn next rfl)
          exact ⟨.node out, by dsimp only; rw [ho]; rfl⟩
end

theorem columns_length : ∀ {cs : List (Rep V)} {pats : List (List Char)} {out : List (Rep V)},
    columns fmt colName pats cs = .ok out → out.length = cs.length
  | [], pats, out, h => by
      simp only [columns, Except.ok.injEq] at h
      subst h; rfl
  | c :: rest, pats, out, h => by
      simp only [columns] at h
      obtain ⟨c', hc, h⟩ := bind_ok h
      obtain ⟨rest', hr, h⟩ := bind_ok h
      obtain rfl := Except.ok.inj h
      rw [List.length_cons, List.length_cons, columns_length hr]

end Verif.Prepare
