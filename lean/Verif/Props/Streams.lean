import Verif.Lemmas.Streams
import Mathlib.Tactic.Common

/-!
# C105: opening and reading datasets in streams
-/

namespace Verif.Props.Streams

open Verif Verif.Streams Verif.Spec.Streams
open Verif.Reader (Kind Opts classes typeName truthy)
open Verif.Spec.Reader (Chosen Fails Refused)

variable {R : Type}

deriving instance DecidableEq for Except

/-- A library for examples: a JSON document is between braces, a table has commas, an AVRO file starts with the byte 79. -/
def toy : Lib Content where
  first c := match c with
    | .bytes (b :: _) => if b < 128 then "ascii" else "utf-16"
    | _ => "utf-8"
  second e _ := e
  doc _ c := match c with
    | .chars l => if l.head? = some '{' ∧ l.getLast? = some '}' then some c else none
    | .bytes l => if l.head? = some 123 ∧ l.getLast? = some 125 then some c else none
  enough _ _ := false
  lines _ _ := .error .valueError
  parquet c := match c with
    | .bytes l => l.take 4 = [80, 65, 82, 49]
    | _ => false
  avro c := match c with
    | .bytes (b :: _) => b = 79
    | _ => false
  front _ c := match c with
    | .chars l => .ok l
    | .bytes l => .ok (l.map Char.ofNat)
  csv o t := .ok (decide (',' ∈ t), o)
  graph o _ := .ok (false, o)
  asks _ _ := true
  names _ _ _ := .ok ["a", "b"]
  table _ _ _ c := .ok c
  edges _ x := .ok x
  text _ c := .ok c
  records c := .ok c
  columns _ c := .ok c
  stop c := c.size

/-! ### Opening -/

/-- Opening a stream at its start is opening a file with that content; the stream stays at its start. -/
theorem C105_start (L : Lib R) (ty : String) (o : Opts) (c : Content) :
    (openStream L ty o ⟨c, 0⟩).2 = ⟨c, 0⟩ ∧
    ((∃ k r, Chosen (answer L c o) ty k r ∧ (openStream L ty o ⟨c, 0⟩).1 = .ok (k, r)) ∨
      (∃ k e, Fails (answer L c o) ty k e ∧ (openStream L ty o ⟨c, 0⟩).1 = .error e) ∨
      (Refused (answer L c o) ty ∧ (openStream L ty o ⟨c, 0⟩).1 = .error .valueError)) := by
  refine ⟨pick_start L ty c o classes, ?_⟩
  rw [show (openStream L ty o ⟨c, 0⟩).1 = scan (answer L c o) ty classes from pick_scan L ty c o classes]
  exact scan_classes _ _

example : openStream toy "" [] ⟨.chars "{a,b}".toList, 0⟩ = (.ok (.json, []), ⟨.chars "{a,b}".toList, 0⟩) ∧
    openStream toy "" [] ⟨.chars "a,b".toList, 0⟩ = (.ok (.csv, []), ⟨.chars "a,b".toList, 0⟩) := by
  decide +kernel

example : openStream toy "" [] ⟨.bytes [79, 98], 0⟩ = (.ok (.avro, []), ⟨.bytes [79, 98], 0⟩) := by decide +kernel

example : openStream toy "json" [] ⟨.bytes [79, 98], 0⟩ = (.error .valueError, ⟨.bytes [79, 98], 0⟩) ∧
    openStream toy "" [] ⟨.bytes [97, 44, 98], 0⟩ = (.ok (.csv, [("encoding", .str "ascii")]), ⟨.bytes [97, 44, 98], 0⟩) := by
  decide +kernel

/-- Wherever the stream is: if the test for JSON says the same from there, then so does `Data` without a type, or with the type of JSON,
delimited or graph files, and the stream is at its start afterwards. -/
theorem C105_anywhere (L : Lib R) (ty : String) (o : Opts) (c : Content) (p : ℕ) (h : JsonFrom L c p ↔ IsJson L c)
    (hty : ty = "" ∨ ty = "json" ∨ ty = "csv" ∨ ty = "graph") :
    openStream L ty o ⟨c, p⟩ = openStream L ty o ⟨c, 0⟩ := by
  have hs : ∀ k, (k = .json ∨ k = .csv ∨ k = .graph) → isMatch L k ⟨c, p⟩ o = isMatch L k ⟨c, 0⟩ o := fun k hk => by
    rw [isMatch_same L k c p o h hk, isMatch_start]
  have hj := hs .json (.inl rfl)
  have hc := hs .csv (.inr (.inl rfl))
  have hg := hs .graph (.inr (.inr rfl))
  unfold openStream classes
  rcases hty with rfl | rfl | rfl | rfl
  · simp only [pick, typeName, true_or, if_true, hj]
  · simp only [pick, typeName, hj, isMatch_start]
    simp
  · simp only [pick, typeName, hc, isMatch_start]
    simp
  · simp only [pick, typeName, hg, isMatch_start]
    simp

/-- So bytes may be at any position if the encoding guessed from there is the same. -/
theorem C105_bytes (L : Lib R) (l : List ℕ) (p : ℕ) (h : L.first (.bytes (l.drop p)) = L.first (.bytes l)) :
    JsonFrom L (.bytes l) p ↔ IsJson L (.bytes l) := by
  unfold JsonFrom IsJson encoding
  simp only [h]

example : openStream toy "" [] ⟨.bytes [123, 125], 1⟩ = (.ok (.json, []), ⟨.bytes [123, 125], 0⟩) ∧
    openStream toy "" [] ⟨.bytes [97, 44, 98], 2⟩ = (.ok (.csv, [("encoding", .str "ascii")]), ⟨.bytes [97, 44, 98], 0⟩) := by
  decide +kernel

/-- A text that is not JSON may be at any position from which it is not either, for instance at its end unless nothing is JSON. -/
theorem C105_chars (L : Lib R) (l : List Char) (p : ℕ) (h : ¬ IsJson L (.chars l)) (hd : L.doc none (.chars (l.drop p)) = none) :
    JsonFrom L (.chars l) p ↔ IsJson L (.chars l) := by
  refine iff_of_false ?_ h
  rintro (⟨r, hr⟩ | he)
  · rw [hd] at hr; cases hr
  · exact h (.inr he)

example : openStream toy "" [] ⟨.chars "a,b".toList, 3⟩ = (.ok (.csv, []), ⟨.chars "a,b".toList, 0⟩) := by decide +kernel

/-- A text at some position is taken for JSON exactly if what is left of it is, or enough lines of the whole. -/
theorem C105_json (L : Lib R) (o : Opts) (c : Content) (p : ℕ) :
    (openStream L "json" o ⟨c, p⟩).2 = ⟨c, 0⟩ ∧
    (JsonFrom L c p → (openStream L "json" o ⟨c, p⟩).1 = .ok (.json, o) ∧ (openStream L "" o ⟨c, p⟩) = (.ok (.json, o), ⟨c, 0⟩)) ∧
    (¬ JsonFrom L c p → (openStream L "json" o ⟨c, p⟩).1 = .error .valueError ∧ ∀ o', (openStream L "" o ⟨c, p⟩).1 ≠ .ok (.json, o')) := by
  have hl := jsonMatch_left L ⟨c, p⟩
  have hi := jsonMatch_iff L c p
  unfold openStream classes
  cases hb : jsonMatch L ⟨c, p⟩ with
  | mk b s =>
    rw [hb] at hl hi
    dsimp only at hl hi
    subst hl
    cases b with
    | true =>
      have : JsonFrom L c p := hi.1 rfl
      refine ⟨?_, fun _ => ⟨?_, ?_⟩, fun h => absurd this h⟩ <;> simp [pick, isMatch, hb, typeName]
    | false =>
      have : ¬ JsonFrom L c p := fun h => (by cases hi.2 h)
      refine ⟨?_, fun h => absurd h this, fun _ => ⟨?_, fun o' => ?_⟩⟩
      · simp [pick, isMatch, hb, typeName]
      · simp [pick, isMatch, hb, typeName]
      · intro h
        simp only [pick, isMatch, hb, typeName, true_or, if_true] at h
        repeat' (first | cases h | split at h)

/-- With the type of AVRO files the look starts at the position; with the type of Parquet files at the start. The stream is left where it
was. A text file is accepted. -/
theorem C105_typed (L : Lib R) (o : Opts) (c : Content) (p : ℕ) :
    openStream L "avro" o ⟨c, p⟩ = (if L.avro (c.rest p) = true then .ok (.avro, o) else .error .valueError, ⟨c, p⟩) ∧
    openStream L "parquet" o ⟨c, p⟩ = (if L.parquet c = true then .ok (.parquet, o) else .error .valueError, ⟨c, p⟩) ∧
    (openStream L "text" o ⟨c, p⟩).1 = .ok (.text, o) := by
  unfold openStream classes
  refine ⟨?_, ?_, ?_⟩
  · cases h : L.avro (c.rest p) <;> simp [pick, isMatch, typeName, avroMatch, Stream.seen, h]
  · cases h : L.parquet c <;> simp [pick, isMatch, typeName, parquetMatch, h]
  · simp only [pick, isMatch, typeName, textMatch]
    simp
    split
    · rename_i h; split at h <;> cases h
    · rename_i h; split at h <;> cases h <;> rfl
    · rename_i h; split at h <;> cases h

/-- Opening never changes what is in a stream, and leaves it where it was or at its start. -/
theorem C105_left (L : Lib R) (ty : String) (o : Opts) (s : Stream) :
    (openStream L ty o s).2.content = s.content ∧ ((openStream L ty o s).2.pos = 0 ∨ (openStream L ty o s).2.pos = s.pos) ∧
    (ty = "" → (openStream L ty o s).2.pos = 0) := by
  obtain ⟨h1, h2⟩ := pick_content L ty o classes s
  refine ⟨h1, h2, ?_⟩
  rintro rfl
  unfold openStream classes
  rw [pick, if_pos (.inl rfl)]
  dsimp only [isMatch]
  rw [jsonMatch_left]
  split
  · rename_i h; cases h
  · rename_i h; rw [← congrArg Prod.snd h]
  · rename_i s' h
    rw [← show (⟨s.content, 0⟩ : Stream) = s' from congrArg Prod.snd h, pick_start]

/-! ### Reading -/

/-- Reading a stream at its start is reading a file with that content. -/
theorem C105_read (L : Lib R) (k : Kind) (o : Opts) (c : Content) (r : R) :
    (readStream L k o ⟨c, 0⟩).1 = .ok r ↔ Holds L c o r k := by
  cases k with
  | json =>
    dsimp only [readStream, readJson, Stream.seen, Holds]
    rw [encodingOf_start]
    dsimp only
    rw [rest_zero]
    cases L.doc (readWith L c o) c <;> simp
  | csv =>
    dsimp only [readStream, readCsv, Stream.seen, Holds]
    rw [encodingOf_start]
    dsimp only
    rw [rest_zero]
    cases h : L.front (readWith L c o) c with
    | error e => simp
    | ok t => simp [readTable, Stream.start, Stream.seen, rest_zero]
  | text =>
    dsimp only [readStream, Stream.seen, Holds]
    rw [encodingOf_start]
    dsimp only
    rw [rest_zero]
  | avro =>
    dsimp only [readStream, Stream.seen, Holds]
    rw [rest_zero]
  | parquet => exact Iff.rfl
  | graph =>
    dsimp only [readStream, Holds, FrontOf]
    rw [encodingOf_start]
    dsimp only
    generalize readWith L c o = e
    have hfront : ∀ f, (((∃ h, PyDict.get? o "header" = some h ∧ h ≠ .str "auto") ∧
        (∃ d, PyDict.get? o "delimiter" = some d ∧ truthy d = true) ∧ f = none) ∨
        (¬ ((∃ h, PyDict.get? o "header" = some h ∧ h ≠ .str "auto") ∧ ∃ d, PyDict.get? o "delimiter" = some d ∧ truthy d = true) ∧
          ∃ t, L.front e c = .ok t ∧ f = some t)) ↔ (graphFront L o e ⟨c, 0⟩).1 = .ok f := fun f => by
      unfold graphFront
      by_cases hs : settled o = true
      · have hs' := (settled_iff o).1 hs
        rw [if_pos hs]
        constructor
        · rintro (⟨_, _, rfl⟩ | ⟨hn, _⟩)
          · rfl
          · exact absurd hs' hn
        · intro h
          cases h
          exact .inl ⟨hs'.1, hs'.2, rfl⟩
      · have hs' := mt (settled_iff o).2 hs
        rw [if_neg hs]
        dsimp only [Stream.seen]
        rw [rest_zero]
        constructor
        · rintro (⟨h1, h2, _⟩ | ⟨_, t, ht, rfl⟩)
          · exact absurd ⟨h1, h2⟩ hs'
          · rw [ht]; rfl
        · intro h
          refine .inr ⟨hs', ?_⟩
          cases ht : L.front e c with
          | error x => rw [ht] at h; cases h
          | ok t => rw [ht] at h; cases h; exact ⟨t, rfl, rfl⟩
    have hpos := graphFront_left L o e c
    have hnames : ∀ f ns, ((∃ l, PyDict.get? o "column_names" = some (.strs l) ∧ ns = some l) ∨
        ((∀ l, PyDict.get? o "column_names" ≠ some (.strs l)) ∧
          ((L.asks o f = false ∧ ns = none) ∨ (L.asks o f = true ∧ ∃ l, L.names o e c = .ok l ∧ ns = some l)))) ↔
        (graphNames L o e f ⟨c, 0⟩).1 = .ok ns := fun f ns => by
      unfold graphNames
      cases hn : named o with
      | some l =>
        have hn' := (named_some o l).1 hn
        constructor
        · rintro (⟨l', h, rfl⟩ | ⟨h, _⟩)
          · rw [hn'] at h; cases h; rfl
          · exact absurd hn' (h l)
        · intro h; cases h; exact .inl ⟨l, hn', rfl⟩
      | none =>
        have hn' : ∀ l, PyDict.get? o "column_names" ≠ some (.strs l) := fun l h => by
          rw [(named_some o l).2 h] at hn; cases hn
        dsimp only [Stream.seen]
        rw [rest_zero]
        cases ha : L.asks o f with
        | false =>
          constructor
          · rintro (⟨l', h, _⟩ | ⟨_, ⟨_, rfl⟩ | ⟨h, _⟩⟩)
            · exact absurd h (hn' l')
            · rfl
            · cases h
          · intro h; cases h; exact .inr ⟨hn', .inl ⟨rfl, rfl⟩⟩
        | true =>
          constructor
          · rintro (⟨l', h, _⟩ | ⟨_, ⟨h, _⟩ | ⟨_, l, h, rfl⟩⟩)
            · exact absurd h (hn' l')
            · cases h
            · rw [if_pos rfl, h]; rfl
          · intro h
            refine .inr ⟨hn', .inr ⟨rfl, ?_⟩⟩
            cases hl : L.names o e c with
            | error x => rw [if_pos rfl, hl] at h; cases h
            | ok l => rw [if_pos rfl, hl] at h; cases h; exact ⟨l, rfl, rfl⟩
    have hpos' := fun f => graphNames_left L o e f c
    unfold readGraph
    constructor
    · intro h
      cases h1 : graphFront L o e ⟨c, 0⟩ with
      | mk x s1 =>
        have := hpos; rw [h1] at this; dsimp only at this; subst this
        rw [h1] at h
        cases x with
        | error x => cases h
        | ok f =>
          dsimp only at h
          cases h2 : graphNames L o e f ⟨c, 0⟩ with
          | mk y s2 =>
            have := hpos' f; rw [h2] at this; dsimp only at this; subst this
            rw [h2] at h
            cases y with
            | error x => cases h
            | ok ns =>
              dsimp only [readTable, Stream.seen] at h
              rw [rest_zero] at h
              cases h3 : L.table o e f c with
              | error x => rw [h3] at h; cases h
              | ok x =>
                rw [h3] at h
                exact ⟨f, ns, x, (hfront f).2 (by rw [h1]), h3, h, (hnames f ns).2 (by rw [h2])⟩
    · rintro ⟨f, ns, x, h1, h3, h4, h2⟩
      have h1 : graphFront L o e ⟨c, 0⟩ = (.ok f, ⟨c, 0⟩) := Prod.ext ((hfront f).1 h1) hpos
      have h2 : graphNames L o e f ⟨c, 0⟩ = (.ok ns, ⟨c, 0⟩) := Prod.ext ((hnames f ns).1 h2) (hpos' f)
      rw [h1]
      dsimp only
      rw [h2]
      dsimp only [readTable, Stream.seen]
      rw [rest_zero, h3]
      exact h4

/-- Where reading leaves a stream that was at its start: at its start, but delimited and graph files at the end, and Parquet files where the
library is done. -/
theorem C105_after (L : Lib R) (k : Kind) (o : Opts) (c : Content) (r : R) (h : (readStream L k o ⟨c, 0⟩).1 = .ok r) :
    (readStream L k o ⟨c, 0⟩).2 = ⟨c, if k = .csv ∨ k = .graph then c.size else if k = .parquet then L.stop c else 0⟩ := by
  cases k with
  | json => dsimp only [readStream, readJson]; rw [encodingOf_start]; rfl
  | text => dsimp only [readStream]; rw [encodingOf_start]; rfl
  | avro => rfl
  | parquet => rfl
  | csv =>
    dsimp only [readStream, readCsv] at h ⊢
    rw [encodingOf_start] at h ⊢
    split at h
    · cases h
    · rename_i t ht
      simp [readTable, Stream.start]
  | graph =>
    dsimp only [readStream, readGraph] at h ⊢
    rw [encodingOf_start] at h ⊢
    dsimp only at h ⊢
    have hp := graphFront_left L o (readWith L c o) c
    split at h
    · cases h
    · rename_i f s1 h1
      rw [h1] at hp
      dsimp only at hp
      subst hp
      have hn := graphNames_left L o (readWith L c o) f c
      split at h
      · cases h
      · rename_i ns s2 h2
        rw [h2] at hn
        dsimp only at hn
        subst hn
        split at h
        · cases h
        · rename_i x s3 h3
          have := congrArg Prod.snd h3
          dsimp only [readTable] at this
          rw [← this]
          simp

example : readStream toy .csv [] ⟨.chars "a,b".toList, 0⟩ = (.ok (.chars "a,b".toList), ⟨.chars "a,b".toList, 3⟩) ∧
    readStream toy .json [] ⟨.bytes [123, 125], 0⟩ = (.ok (.bytes [123, 125]), ⟨.bytes [123, 125], 0⟩) := by decide +kernel

/-- Bytes whose encoding is not given may be read at any position from which the same encoding is guessed. -/
theorem C105_read_bytes (L : Lib R) (k : Kind) (o : Opts) (l : List ℕ) (p : ℕ) (h : L.first (.bytes (l.drop p)) = L.first (.bytes l))
    (ho : Spec.Streams.given o = none ∨ Spec.Streams.given o = some "") (hk : k ≠ .avro) (hq : k ≠ .parquet) :
    readStream L k o ⟨.bytes l, p⟩ = readStream L k o ⟨.bytes l, 0⟩ := by
  have he : encodingOf L ⟨.bytes l, p⟩ o = encodingOf L ⟨.bytes l, 0⟩ o := by
    have hd : detect L ⟨.bytes l, p⟩ = detect L ⟨.bytes l, 0⟩ := by
      simp only [detect, Stream.seen, Content.rest, h, List.drop_zero, Stream.start]
    unfold encodingOf
    rw [encodingIn_given]
    rcases ho with ho | ho <;> rw [ho] <;> simp [isBytes, hd]
  cases k with
  | avro => exact absurd rfl hk
  | parquet => exact absurd rfl hq
  | json => simp only [readStream, he]
  | csv => simp only [readStream, he]
  | graph => simp only [readStream, he]
  | text => simp only [readStream, he]

example : readStream toy .text [] ⟨.bytes [97, 44, 98], 2⟩ = (.ok (.bytes [97, 44, 98]), ⟨.bytes [97, 44, 98], 0⟩) := by decide +kernel

theorem encodingOf_known (L : Lib R) (o : Opts) (c : Content) (p : ℕ)
    (h : (∃ l, c = .chars l) ∨ ∃ e, e ≠ "" ∧ Spec.Streams.given o = some e) :
    encodingOf L ⟨c, p⟩ o = (readWith L c o, ⟨c, p⟩) := by
  unfold encodingOf readWith
  rw [encodingIn_given]
  rcases h with ⟨l, rfl⟩ | ⟨e, hne, hg⟩
  · cases Spec.Streams.given o with
    | none => rfl
    | some e =>
      dsimp only
      by_cases he : e = ""
      · rw [if_pos he, if_pos he]; rfl
      · rw [if_neg he, if_neg he]
  · rw [hg]
    dsimp only
    rw [if_neg hne, if_neg hne]

/-- What is read from another position of a text, or of bytes whose encoding is given: text, AVRO and graph files with known settings are
read from there on; delimited files are read from the start, only the front they take their settings from is looked for there. -/
theorem C105_read_from (L : Lib R) (o : Opts) (c : Content) (p : ℕ) (h : (∃ l, c = .chars l) ∨ ∃ e, e ≠ "" ∧ Spec.Streams.given o = some e) :
    (readStream L .text o ⟨c, p⟩).1 = L.text (readWith L c o) (c.rest p) ∧
    (readStream L .avro o ⟨c, p⟩).1 = L.records (c.rest p) ∧
    (∀ r, (readStream L .csv o ⟨c, p⟩).1 = .ok r ↔
      ∃ t, L.front (readWith L c o) (c.rest p) = .ok t ∧ L.table o (readWith L c o) (some t) c = .ok r) ∧
    (∀ r, (readStream L .json o ⟨c, p⟩).1 = .ok r ↔ L.doc (readWith L c o) (c.rest p) = some r ∨
      (L.doc (readWith L c o) (c.rest p) = none ∧ L.lines (readWith L c o) c = .ok r)) ∧
    (∀ r l hd d, PyDict.get? o "header" = some hd → hd ≠ .str "auto" → PyDict.get? o "delimiter" = some d → truthy d = true →
      PyDict.get? o "column_names" = some (.strs l) →
      ((readStream L .graph o ⟨c, p⟩).1 = .ok r ↔
        ∃ x, L.table o (readWith L c o) none (c.rest p) = .ok x ∧ L.edges (some l) x = .ok r)) := by
  have he := encodingOf_known L o c p h
  refine ⟨?_, rfl, fun r => ?_, fun r => ?_, fun r l hd d h1 h2 h3 h4 h5 => ?_⟩
  · dsimp only [readStream]
    rw [he]
    rfl
  · dsimp only [readStream, readCsv]
    rw [he]
    dsimp only [Stream.seen]
    cases L.front (readWith L c o) (c.rest p) with
    | error e => simp
    | ok t => simp [readTable, Stream.start, Stream.seen, rest_zero]
  · dsimp only [readStream, readJson]
    rw [he]
    dsimp only [Stream.seen]
    cases L.doc (readWith L c o) (c.rest p) <;> simp
  · dsimp only [readStream, readGraph, graphFront, graphNames]
    rw [he, if_pos ((settled_iff o).2 ⟨⟨hd, h1, h2⟩, d, h3, h4⟩), (named_some o l).2 h5]
    dsimp only [readTable, Stream.seen]
    cases L.table o (readWith L c o) none (c.rest p) with
    | error e => simp
    | ok x => simp

example : (readStream toy .csv [] ⟨.chars "a,b".toList, 3⟩).1 = .ok (.chars "a,b".toList) ∧
    (readStream toy .text [] ⟨.chars "a,b".toList, 2⟩).1 = .ok (.chars ['b']) := by decide +kernel

/-- The remaining cases of a graph: after a look at the front, or at the names of the columns, the table is read from the start. -/
theorem C105_graph_from (L : Lib R) (o : Opts) (c : Content) (p : ℕ) (h : (∃ l, c = .chars l) ∨ ∃ e, e ≠ "" ∧ Spec.Streams.given o = some e)
    (r : R) :
    (¬ ((∃ h, PyDict.get? o "header" = some h ∧ h ≠ .str "auto") ∧ ∃ d, PyDict.get? o "delimiter" = some d ∧ truthy d = true) →
      ((readStream L .graph o ⟨c, p⟩).1 = .ok r ↔
        ∃ t ns x, L.front (readWith L c o) (c.rest p) = .ok t ∧ L.table o (readWith L c o) (some t) c = .ok x ∧ L.edges ns x = .ok r ∧
          ((∃ l, PyDict.get? o "column_names" = some (.strs l) ∧ ns = some l) ∨
           ((∀ l, PyDict.get? o "column_names" ≠ some (.strs l)) ∧
            ((L.asks o (some t) = false ∧ ns = none) ∨ (L.asks o (some t) = true ∧ ∃ l, L.names o (readWith L c o) c = .ok l ∧ ns = some l)))))) ∧
    (∀ hd d, PyDict.get? o "header" = some hd → hd ≠ .str "auto" → PyDict.get? o "delimiter" = some d → truthy d = true →
      (∀ l, PyDict.get? o "column_names" ≠ some (.strs l)) →
      (L.asks o none = true → ((readStream L .graph o ⟨c, p⟩).1 = .ok r ↔
        ∃ l x, L.names o (readWith L c o) (c.rest p) = .ok l ∧ L.table o (readWith L c o) none c = .ok x ∧ L.edges (some l) x = .ok r)) ∧
      (L.asks o none = false → ((readStream L .graph o ⟨c, p⟩).1 = .ok r ↔
        ∃ x, L.table o (readWith L c o) none (c.rest p) = .ok x ∧ L.edges none x = .ok r))) := by
  have he := encodingOf_known L o c p h
  have hn0 : (∀ l, PyDict.get? o "column_names" ≠ some (.strs l)) → named o = none := fun hn => by
    cases hn' : named o with
    | none => rfl
    | some l => exact absurd ((named_some o l).1 hn') (hn l)
  refine ⟨fun hs => ?_, fun hd d h1 h2 h3 h4 h5 => ⟨fun ha => ?_, fun ha => ?_⟩⟩
  · dsimp only [readStream, readGraph, graphFront]
    rw [he, if_neg (mt (settled_iff o).1 hs)]
    dsimp only [Stream.seen, Stream.start]
    cases hf : L.front (readWith L c o) (c.rest p) with
    | error e => simp [Except.map]
    | ok t =>
      dsimp only [Except.map, graphNames]
      cases hn : named o with
      | some l =>
        have hn' := (named_some o l).1 hn
        dsimp only [readTable, Stream.seen]
        rw [rest_zero, hn']
        cases ht : L.table o (readWith L c o) (some t) c with
        | error e => simp [ht]
        | ok x => simp [ht]
      | none =>
        have hn' : ∀ l, PyDict.get? o "column_names" ≠ some (.strs l) := fun l hc => by
          rw [(named_some o l).2 hc] at hn; cases hn
        cases ha : L.asks o (some t) with
        | false =>
          simp only [Bool.false_eq_true, if_false, readTable, Stream.seen, rest_zero]
          cases ht : L.table o (readWith L c o) (some t) c with
          | error e => simp [ht]
          | ok x => simp [ht, ha, hn']
        | true =>
          simp only [if_true, Stream.seen, rest_zero, Stream.start]
          cases hl : L.names o (readWith L c o) c with
          | error e => simp [Except.map, ha, hn']
          | ok l =>
            simp only [Except.map, readTable, Stream.seen, rest_zero]
            cases ht : L.table o (readWith L c o) (some t) c with
            | error e => simp [ht]
            | ok x => simp [ht, ha, hn']
  · dsimp only [readStream, readGraph, graphFront, graphNames]
    rw [he, if_pos ((settled_iff o).2 ⟨⟨hd, h1, h2⟩, d, h3, h4⟩), hn0 h5]
    dsimp only
    rw [if_pos ha]
    dsimp only [Stream.seen, Stream.start]
    cases L.names o (readWith L c o) (c.rest p) with
    | error e => simp [Except.map]
    | ok l =>
      simp only [Except.map, readTable, Stream.seen, rest_zero]
      cases L.table o (readWith L c o) none c with
      | error e => simp
      | ok x => simp
  · dsimp only [readStream, readGraph, graphFront, graphNames]
    rw [he, if_pos ((settled_iff o).2 ⟨⟨hd, h1, h2⟩, d, h3, h4⟩), hn0 h5]
    dsimp only
    rw [if_neg (by rw [ha]; decide)]
    dsimp only [readTable, Stream.seen]
    cases L.table o (readWith L c o) none (c.rest p) with
    | error e => simp
    | ok x => simp

example : (readStream toy .graph [] ⟨.chars "a,b".toList, 3⟩).1 = .ok (.chars "a,b".toList) ∧
    (readStream toy .graph [("header", .int 0), ("delimiter", .str ",")] ⟨.chars "a,b".toList, 3⟩).1 = .ok (.chars "a,b".toList) := by
  decide +kernel

/-- Wherever the stream was, reading leaves its content alone, and leaves JSON, text and AVRO files at the start, delimited files at the end. -/
theorem C105_after_from (L : Lib R) (k : Kind) (o : Opts) (s : Stream) :
    (readStream L k o s).2.content = s.content ∧
    (k = .json ∨ k = .text ∨ k = .avro → (readStream L k o s).2.pos = 0) ∧
    (k = .csv → ∀ r, (readStream L k o s).1 = .ok r → (readStream L k o s).2.pos = s.content.size) ∧
    (k = .graph → ∀ r, (readStream L k o s).1 = .ok r → s.content.size ≤ (readStream L k o s).2.pos) := by
  have hc : (encodingOf L s o).2.content = s.content := by
    unfold encodingOf
    split
    · split
      · split <;> rfl
      · rfl
    · split <;> rfl
  cases k with
  | json => exact ⟨hc, fun _ => rfl, fun h => (by cases h), fun h => (by cases h)⟩
  | text => exact ⟨hc, fun _ => rfl, fun h => (by cases h), fun h => (by cases h)⟩
  | avro => exact ⟨rfl, fun _ => rfl, fun h => (by cases h), fun h => (by cases h)⟩
  | parquet => exact ⟨rfl, fun h => (by simp at h), fun h => (by cases h), fun h => (by cases h)⟩
  | csv =>
    dsimp only [readStream, readCsv]
    cases L.front (encodingOf L s o).1 (encodingOf L s o).2.seen with
    | error e => exact ⟨hc, fun h => (by simp at h), fun _ r h => (by cases h), fun h => (by cases h)⟩
    | ok t => exact ⟨hc, fun h => (by simp at h), fun _ r h => (by simp [readTable, Stream.start, hc]), fun h => (by cases h)⟩
  | graph =>
    dsimp only [readStream, readGraph]
    generalize (encodingOf L s o).1 = e
    generalize hs : (encodingOf L s o).2 = s0 at hc
    have h1 : (graphFront L o e s0).2.content = s0.content := by
      unfold graphFront; split <;> rfl
    cases hg : graphFront L o e s0 with
    | mk x s1 =>
      rw [hg] at h1
      cases x with
      | error e => exact ⟨h1.trans hc, fun h => (by simp at h), fun h => (by cases h), fun _ r h => (by cases h)⟩
      | ok f =>
        dsimp only
        have h2 : (graphNames L o e f s1).2.content = s1.content := by
          unfold graphNames; split
          · rfl
          · split <;> rfl
        cases hn : graphNames L o e f s1 with
        | mk y s2 =>
          rw [hn] at h2
          cases y with
          | error e => exact ⟨h2.trans (h1.trans hc), fun h => (by simp at h), fun h => (by cases h), fun _ r h => (by cases h)⟩
          | ok ns =>
            dsimp only [readTable]
            have h3 : s2.content = s.content := h2.trans (h1.trans hc)
            cases L.table o e f s2.seen with
            | error e => exact ⟨h3, fun h => (by simp at h), fun h => (by cases h), fun _ r h => (by cases h)⟩
            | ok x => exact ⟨h3, fun h => (by simp at h), fun h => (by cases h), fun _ r _ => (by rw [h3]; exact Nat.le_max_right _ _)⟩

/-- A dataset that was opened and read can be opened again, unless its end is taken for JSON (and except for Parquet files). -/
theorem C105_again (L : Lib R) (o r : Opts) (c : Content) (k : Kind) (x : R) (h : (openStream L "" o ⟨c, 0⟩).1 = .ok (k, r))
    (hr : (readStream L k r ⟨c, 0⟩).1 = .ok x) (hk : k ≠ .parquet) (hj : k = .csv ∨ k = .graph → ¬ JsonFrom L c c.size) :
    openStream L "" o (readStream L k r ⟨c, 0⟩).2 = (.ok (k, r), ⟨c, 0⟩) := by
  have h0 : openStream L "" o ⟨c, 0⟩ = (.ok (k, r), ⟨c, 0⟩) := Prod.ext h (C105_start L "" o c).1
  rw [C105_after L k r c x hr, ← h0]
  by_cases hc : k = .csv ∨ k = .graph
  · rw [if_pos hc]
    refine C105_anywhere L "" o c _ (iff_of_false (hj hc) fun hi => ?_) (.inl rfl)
    have hz : JsonFrom L c 0 := by rw [← jsonMatch_iff, jsonMatch_start, decide_eq_true_iff]; exact hi
    have := ((C105_json L o c 0).2.1 hz).2
    rw [h0] at this
    cases this
    rcases hc with hc | hc <;> cases hc
  · rw [if_neg hc, if_neg hk]

example : (openStream toy "" [] ⟨.chars "a,b".toList, 0⟩).1 = .ok (.csv, []) ∧
    openStream toy "" [] (readStream toy .csv [] ⟨.chars "a,b".toList, 0⟩).2 = (.ok (.csv, []), ⟨.chars "a,b".toList, 0⟩) := by
  decide +kernel

/-- A text that was written to a stream and is at its end is not recognised as JSON: the same as at the start cannot be claimed. -/
theorem C105_written_fails : ∃ (L : Lib Content) (l : List Char),
    (openStream L "" [] ⟨.chars l, 0⟩).1 = .ok (.json, []) ∧ (openStream L "" [] ⟨.chars l, l.length⟩).1 = .ok (.text, []) :=
  ⟨toy, "{a}".toList, by decide +kernel⟩

/-- A table whose last field looks like JSON is taken for JSON if the stream is at that field. -/
theorem C105_middle_fails : ∃ (L : Lib Content) (l : List Char) (p : ℕ),
    (openStream L "" [] ⟨.chars l, 0⟩).1 = .ok (.csv, []) ∧ (openStream L "" [] ⟨.chars l, p⟩).1 = .ok (.json, []) :=
  ⟨toy, "a,{b}".toList, 2, by decide +kernel⟩

/-- An AVRO file at its end is recognised without a type, but refused if its type is given. -/
theorem C105_avro_fails : ∃ (L : Lib Content) (l : List ℕ),
    (openStream L "" [] ⟨.bytes l, l.length⟩).1 = .ok (.avro, []) ∧
    (openStream L "avro" [] ⟨.bytes l, l.length⟩).1 = .error .valueError :=
  ⟨toy, [79, 98], by decide +kernel⟩

/-- Two readers of the same graph: the second one reads nothing. -/
theorem C105_graph_fails : ∃ (L : Lib Content) (o : Opts) (l : List Char),
    (readStream L .graph o ⟨.chars l, 0⟩).1 = .ok (.chars l) ∧
    (readStream L .graph o (readStream L .graph o ⟨.chars l, 0⟩).2).1 = .ok (.chars []) :=
  ⟨toy, [("header", .int 0), ("delimiter", .str ","), ("column_names", .strs ["a", "b"])], "a,b".toList, by decide +kernel⟩

end Verif.Props.Streams
