import Mathlib.Data.List.TakeWhile
import Verif.Lemmas.Source

/-!
# Files, buffers and addresses (C88)
-/

namespace Verif.Props.Source

open Verif Verif.Source Verif.Spec.Source Verif.Spec.CharProcess

/-! ### Opening and closing -/

/-- Whatever is done with the stream, short of closing it, and whether that raises or not: afterwards no more files are open than before,
a buffer is open and at its start, and nothing else has changed.  If nothing can be opened, nothing has changed at all. -/
theorem C88_handle {A : Type} (L : Lib) {w : World} {src : Src} (ho : Open w src) (mode : Mode) (enc : Option String) {body : Prog A}
    (hb : NoClose body) :
    (Opens L w mode enc src → Rewound src w (withHandle L w src mode enc none body).1) ∧
      (¬ Opens L w mode enc src → ∃ e, withHandle L w src mode enc none body = (w, .error e)) := by
  constructor
  · intro h
    obtain ⟨w', h1, h2⟩ := with_ok L ho h hb
    rw [h1]
    exact h2
  · intro h
    obtain ⟨e, he⟩ := with_error L ho h
    exact ⟨e, he body⟩

/-- A file is read like a buffer of its bytes that is at its start, by every program. -/
theorem C88_same {A : Type} (L : Lib) {w w' : World} {f : String} {i : ℕ} {b : List ℕ} (h : Holds w b 0 (.path f))
    (h' : Holds w' b 0 (.bytesIO i)) (mode : Mode) (enc : Option String) (hm : mode = .rb → enc = none) {body : Prog A} (hb : NoClose body)
    (hk : L.known enc = true) :
    (withHandle L w (.path f) mode enc none body).2 = (withHandle L w' (.bytesIO i) mode enc none body).2 := by
  have o1 : Opens L w mode enc (.path f) := ⟨by rw [h.1]; rfl, hm, fun _ => hk⟩
  have o2 : Opens L w' mode enc (.bytesIO i) := fun _ => hk
  obtain ⟨_, h1, _⟩ := with_ok L h.open o1 hb
  obtain ⟨_, h2, _⟩ := with_ok L h'.open o2 hb
  rw [h1, h2]
  cases mode with
  | rb => rw [h.live_rb, h'.live_rb]
  | r => rw [h.live_r, h'.live_r]

/-- Two codecs and no idea which one it is. -/
def lib0 : Lib where
  known e := e = some "utf-8" || e = some "latin-1"
  raw e b := if e = some "latin-1" || b.all (· < 128) then some (b.map Char.ofNat) else none
  front e b n :=
    if e = some "latin-1" || b.all (· < 128) then some ((translate (b.map Char.ofNat)).take n)
    else if (b.take n).all (· < 128) then some ((b.take n).map Char.ofNat) else none
  guess _ := none
  best _ _ _ := .ok (some "latin-1")
  lower e := e

theorem sound0 : Sound lib0 := by
  refine ⟨fun e b t h n => ?_, fun _ => ⟨rfl, rfl, rfl⟩⟩
  simp only [lib0] at h ⊢
  split_ifs at h ⊢ with hc
  rw [Option.some.inj h]

/-- A file and two buffers, one of them not at its start. -/
def world0 : World := ⟨fun f => if f = "a.txt" then some [97, 13, 10, 98] else none, 0,
  fun i => if i = 0 then ⟨[97, 13, 10, 98], 0, false⟩ else ⟨[200, 97, 10, 98], 1, false⟩, fun _ => ⟨['a', '\r', '\n', 'b'], 0, false⟩⟩

example : Holds world0 [97, 13, 10, 98] 0 (.path "a.txt") ∧ Holds world0 [97, 13, 10, 98] 0 (.bytesIO 0) ∧
    Holds world0 [200, 97, 10, 98] 1 (.bytesIO 1) ∧ NoClose (feed 1024 20 []) :=
  ⟨⟨rfl, rfl⟩, rfl, rfl, noClose_feed _ _ _⟩

/-- Reads some, then the rest. -/
def pieces (n : ℕ) : Prog (Item × Item) :=
  .read (some n) fun
    | .error e => .raise e
    | .ok a => .read none fun
      | .error e => .raise e
      | .ok b => .done (a, b)

/-- What is read in pieces is what is read at once, cut: bytes as they are, texts with their line ends translated. -/
theorem C88_pieces (L : Lib) (hL : Sound L) {w : World} {src : Src} {b : List ℕ} {p : ℕ} (h : Holds w b p src) (n : ℕ) :
    (withHandle L w src .rb none none (pieces n)).2 = .ok (.bytes ((b.drop p).take n), .bytes ((b.drop p).drop n)) ∧
    ∀ e t, L.known (some e) = true → L.raw (some e) (b.drop p) = some t → ∃ s, Newlines t s ∧
      (withHandle L w src .r (some e) none (pieces n)).2 = .ok (.text (s.take n), .text (s.drop n)) := by
  have hb : NoClose (pieces n) := by
    refine .read _ fun x => ?_
    cases x with
    | error e => exact .raise e
    | ok a =>
      refine .read _ fun y => ?_
      cases y with
      | error e => exact .raise e
      | ok c => exact .done _
  refine ⟨?_, fun e t hk ht => ⟨translate t, newlines_translate t, ?_⟩⟩
  · have o : Opens L w .rb none src := by
      cases src with
      | path f => exact ⟨by rw [h.1]; rfl, fun _ => rfl, fun h => nomatch h⟩
      | bytesIO i => exact fun h => nomatch h
      | stringIO i => exact h.elim
      | other => exact h.elim
    obtain ⟨_, h1, _⟩ := with_ok L h.open o hb
    rw [h1, h.live_rb]
    simp only [pieces, Prog.run, Live.read, upTo, Bool.false_eq_true, if_false]
    congr 3
    rw [← List.drop_drop, List.length_take]
    by_cases hn : n ≤ (b.drop p).length
    · rw [Nat.min_eq_left hn]
    · rw [Nat.min_eq_right (by omega), List.drop_length, List.drop_eq_nil_of_le (by omega)]
  · have o : Opens L w .r (some e) src := by
      cases src with
      | path f => exact ⟨by rw [h.1]; rfl, fun h => (nomatch h), fun _ => hk⟩
      | bytesIO i => exact fun _ => hk
      | stringIO i => exact h.elim
      | other => exact h.elim
    obtain ⟨_, h1, _⟩ := with_ok L h.open o hb
    rw [h1, h.live_r]
    have hf := hL.front (some e) (b.drop p) t ht n
    simp only [pieces, Prog.run, Live.read, textOf, Option.map, Nat.zero_add, hf, ht, Bool.false_eq_true, if_false, List.drop_zero]
    congr 3
    rw [List.length_take]
    by_cases hn : n ≤ (translate t).length
    · rw [Nat.min_eq_left hn]
    · rw [Nat.min_eq_right (by omega), List.drop_length, List.drop_eq_nil_of_le (by omega)]

example : (withHandle lib0 world0 (.path "a.txt") .r (some "utf-8") none (pieces 2)).2 = .ok (.text ['a', '\n'], .text ['b']) := by
  decide +kernel

/-- A closed buffer is not read: that raises, and nothing is done. -/
theorem C88_closed {A : Type} (L : Lib) {w : World} {i : ℕ} (h : (w.bytesIO i).closed = true) {enc : Option String}
    (hk : L.known enc = true) (body : Prog A) : withHandle L w (.bytesIO i) .r enc none body = (w, .error .valueError) := by
  unfold withHandle enter opened
  simp only [hk, h, Bool.true_eq_false, if_false, if_true]

/-! ### The encoding -/

/-- The encoding is found without changing anything but the position of a buffer.  It is the first of three candidates by which the first
mebi-characters can be read, or else the last: the guess of `chardet` from the first chunks, UTF-8 if it has none or says that it is ASCII,
and two opinions of `charset_normalizer` on beginnings of the file. -/
theorem C88_detect (L : Lib) (hL : ∀ s c x, L.best s c x ≠ .ok (some "")) {w : World} {src : Src} {b : List ℕ} {p : ℕ}
    (h : Holds w b p src) (size lines : ℕ) :
    ∃ w' chunks e0 r, Rewound src w w' ∧ detect L w src size lines = (w', .ok (L.lower r)) ∧
      Full size chunks ∧ chunks.flatten = (b.drop p).take (lines * size) ∧ Guess L chunks e0 ∧
      (Reads L b e0 → r = e0) ∧
      (∀ e, ¬ Reads L b e0 → L.best 5 512 (b.take 10000) = .error e → r = e0) ∧
      ∀ r1 r2, L.best 5 512 (b.take 10000) = .ok r1 → L.best lines size (b.take (lines * size)) = .ok r2 →
        Chosen L b e0 (r1.getD e0) (r2.getD (r1.getD e0)) r := by
  classical
  obtain ⟨w', h1, h2⟩ := detect_eq L h size lines
  have g := guess_first L (chunksOf size lines (b.drop p))
  have hne : ∀ {s c x r e}, L.best s c x = .ok r → e ≠ "" → r.getD e ≠ "" := by
    intro s c x r e hb he
    cases r with
    | none => exact he
    | some v =>
      rintro rfl
      exact hL s c x hb
  refine ⟨w', _, _, found L b p size lines, h2, ?_, chunksOf_full _ _ _, chunksOf_flatten _ _ _, g, ?_, ?_, ?_⟩
  · rw [h1, finish_ne]
    unfold found
    simp only
    split_ifs
    · exact guess_ne g
    · cases hb1 : L.best 5 512 (b.take 10000) with
      | error e => exact guess_ne g
      | ok r1 =>
        simp only
        split_ifs
        · exact hne hb1 (guess_ne g)
        · cases hb2 : L.best lines size (b.take (lines * size)) with
          | error e => exact hne hb1 (guess_ne g)
          | ok r2 => exact hne hb2 (hne hb1 (guess_ne g))
  · intro hr
    unfold found
    simp only [if_pos hr]
  · intro e hr hb
    unfold found
    simp only [if_neg hr, hb]
  · intro r1 r2 hb1 hb2
    unfold Chosen found
    simp only [hb1, hb2]
    by_cases hr : Reads L b (firstGuess L (chunksOf size lines (b.drop p)))
    · exact .inl ⟨hr, if_pos hr⟩
    · rw [if_neg hr]
      by_cases hr1 : Reads L b (r1.getD (firstGuess L (chunksOf size lines (b.drop p))))
      · exact .inr (.inl ⟨hr, hr1, if_pos hr1⟩)
      · exact .inr (.inr ⟨hr, hr1, if_neg hr1⟩)

/-- So the first mebi-characters can be read with the encoding found exactly if they can with one of the candidates. -/
theorem C88_detect_valid (L : Lib) {b : List ℕ} {e0 e1 e2 r : String} (hs : Sound L) (h : Chosen L b e0 e1 e2 r) :
    Reads L b (L.lower r) ↔ Reads L b e0 ∨ Reads L b e1 ∨ Reads L b e2 := by
  have : Reads L b (L.lower r) ↔ Reads L b r := by
    unfold Reads
    rw [(hs.lower r).1, (hs.lower r).2.2]
  rw [this]
  rcases h with ⟨h, rfl⟩ | ⟨h0, h, rfl⟩ | ⟨h0, h1, rfl⟩
  · exact ⟨fun hr => .inl hr, fun _ => h⟩
  · exact ⟨fun hr => .inr (.inl hr), fun _ => h⟩
  · exact ⟨fun hr => .inr (.inr hr), fun h => h.elim (fun h => absurd h h0) fun h => h.elim (fun h => absurd h h1) id⟩

/-- Text that is valid UTF-8, and that `chardet` takes for ASCII or knows nothing about, is read as UTF-8. -/
theorem C88_utf8 (L : Lib) (hs : Sound L) {w : World} {src : Src} {b : List ℕ} {p : ℕ} (h : Holds w b p src) (size lines : ℕ)
    (hk : L.known (some "utf-8") = true) {t : List Char} (ht : L.raw (some "utf-8") b = some t)
    (hg : ∀ chunks, L.guess chunks = none ∨ L.guess chunks = some "ascii") (hl : L.lower "ascii" = "ascii") :
    (detect L w src size lines).2 = .ok (L.lower "utf-8") := by
  classical
  obtain ⟨w', h1, _⟩ := detect_eq L h size lines
  rw [h1]
  have g : firstGuess L (chunksOf size lines (b.drop p)) = "utf-8" := by
    unfold firstGuess
    rcases hg (chunksOf size lines (b.drop p)) with h | h <;> rw [h]
    simp only [hl, true_or, or_true, if_true]
  have hr : Reads L b "utf-8" := ⟨hk, by rw [hs.front _ _ _ ht]; rfl⟩
  unfold found
  simp only [g, if_pos hr]
  rw [finish_ne L (by decide)]

/-- A file has the encoding of a buffer of its bytes, and a buffer at its start always the same one. -/
theorem C88_detect_same (L : Lib) {w w' : World} {src src' : Src} {b : List ℕ} {p : ℕ} (h : Holds w b p src) (h' : Holds w' b p src')
    (size lines : ℕ) : (detect L w src size lines).2 = (detect L w' src' size lines).2 := by
  obtain ⟨_, h1, _⟩ := detect_eq L h size lines
  obtain ⟨_, h2, _⟩ := detect_eq L h' size lines
  rw [h1, h2]

/-- What is not a file, and a text buffer that is not empty, have no encoding. -/
theorem C88_detect_text (L : Lib) {w : World} {i : ℕ} (ho : Open w (.stringIO i))
    (hp : (w.stringIO i).content.drop (w.stringIO i).pos ≠ []) {size lines : ℕ} (hs : 0 < size) (hl : 0 < lines) :
    (detect L w (.stringIO i) size lines).2 = .error .typeError ∧ (detect L w .other size lines) = (w, .error .attributeError) := by
  constructor
  · obtain ⟨w', h1, _⟩ := with_ok L (src := .stringIO i) (mode := .rb) (enc := none) ho trivial (noClose_feed size lines [])
    unfold detect
    rw [h1]
    obtain ⟨n, rfl⟩ := Nat.exists_eq_succ_of_ne_zero hl.ne'
    have : ((feed size (n + 1) []).run L (live w (.stringIO i) .rb none)).1 = .error .typeError := by
      rw [feed, Prog.run]
      unfold Live.read live
      rw [if_neg (by simp)]
      simp only [upTo]
      cases hd : (w.stringIO i).content.drop (w.stringIO i).pos with
      | nil => exact absurd hd hp
      | cons c t =>
        obtain ⟨m, rfl⟩ := Nat.exists_eq_succ_of_ne_zero hs.ne'
        rfl
    rw [this]
  · rfl

/-! ### Lines -/

/-- The lines of a file: together they are its text with line ends translated, from the position on if an encoding is given. -/
theorem C88_lines (L : Lib) {w : World} {src : Src} {b : List ℕ} {p : ℕ} (h : Holds w b p src) {e : String} (hk : L.known (some e) = true) :
    Rewound src w (readLines L w src (some e)).1 ∧
    (∀ t, L.raw (some e) (b.drop p) = some t → ∀ ls, (readLines L w src (some e)).2 = .ok ls ↔ Lines ls ∧ Newlines t ls.flatten) ∧
      (L.raw (some e) (b.drop p) = none → (readLines L w src (some e)).2 = .error .valueError) := by
  obtain ⟨w', h1, h2⟩ := lines_eq L h e hk
  unfold readLines
  simp only [h1]
  refine ⟨h2, fun t ht ls => ?_, fun ht => by rw [ht]⟩
  rw [ht]
  constructor
  · intro hx
    obtain rfl := Except.ok.inj hx
    refine ⟨splitLines_lines _, ?_⟩
    rw [splitLines_flatten]
    exact newlines_translate t
  · rintro ⟨h3, h4⟩
    refine congrArg Except.ok ?_
    refine lines_unique (splitLines_lines _) h3 ?_
    rw [splitLines_flatten]
    exact newlines_unique (newlines_translate t) h4

/-- Without an encoding, it is found first; the lines are then those of the whole file, wherever the buffer was. -/
theorem C88_lines_found (L : Lib) {w : World} {src : Src} {b : List ℕ} {p : ℕ} (h : Holds w b p src) {e : String}
    (he : (detect L w src 1024 20).2 = .ok e) (hk : L.known (some e) = true) :
    Rewound src w (readLines L w src none).1 ∧
    (∀ t, L.raw (some e) b = some t → ∀ ls, (readLines L w src none).2 = .ok ls ↔ Lines ls ∧ Newlines t ls.flatten) := by
  obtain ⟨w', h1, h2⟩ := detect_eq L h 1024 20
  have h3 := C88_lines L (h2.holds h) hk
  have : readLines L w src none = readLines L w' src (some e) := by
    unfold readLines
    rw [h1] at he ⊢
    simp only at he ⊢
    rw [Except.ok.inj he]
  rw [this]
  exact ⟨h2.trans h3.1, h3.2.1⟩

example : (readLines lib0 world0 (.path "a.txt") none).2 = .ok [['a', '\n'], ['b']] := by decide +kernel

/-! ### Addresses -/

/-- An object of S3 is asked for by its bucket and key, if the key has no `?` and `#` and does not begin with `/`. -/
theorem C88_s3_partial {bucket key : List Char} (hb : bucket ≠ []) (hb' : ∀ c ∈ bucket, c ≠ '/' ∧ c ≠ '?' ∧ c ≠ '#')
    (hk : ∀ c ∈ key, c ≠ '?' ∧ c ≠ '#') (hk' : key.head? ≠ some '/') (scheme : List Char) (hs : scheme = "s3".toList ∨ scheme = "s3a".toList) :
    isUrl (scheme ++ "://".toList ++ bucket ++ '/' :: key) = true ∧ isS3 (scheme ++ "://".toList ++ bucket ++ '/' :: key) = true ∧
      s3Object (scheme ++ "://".toList ++ bucket ++ '/' :: key) = (bucket, key) := by
  have t1 : ∀ l : List Char, (bucket ++ '/' :: l).takeWhile (! netEnd ·) = bucket := by
    intro l
    rw [List.takeWhile_append_of_pos]
    · simp [netEnd]
    · intro c hc
      obtain ⟨h1, h2, h3⟩ := hb' c hc
      simp [netEnd, h1, h2, h3]
  have t2 : ∀ l : List Char, (bucket ++ '/' :: l).dropWhile (! netEnd ·) = '/' :: l := by
    intro l
    rw [List.dropWhile_append_of_pos]
    · simp [netEnd]
    · intro c hc
      obtain ⟨h1, h2, h3⟩ := hb' c hc
      simp [netEnd, h1, h2, h3]
  have t3 : ('/' :: key).takeWhile (· ≠ '#') = '/' :: key := by
    rw [List.takeWhile_eq_self_iff]
    intro c hc
    rcases List.mem_cons.1 hc with rfl | hc
    · decide
    · simpa using (hk c hc).2
  have t4 : ('/' :: key).takeWhile (· ≠ '?') = '/' :: key := by
    rw [List.takeWhile_eq_self_iff]
    intro c hc
    rcases List.mem_cons.1 hc with rfl | hc
    · decide
    · simpa using (hk c hc).1
  have t5 : ('/' :: key).dropWhile (· = '/') = key := by
    cases key with
    | nil => simp
    | cons c t =>
      have : c ≠ '/' := by simpa using hk'
      simp [this]
  have main : urlsplit (scheme ++ "://".toList ++ bucket ++ '/' :: key) = ⟨scheme, bucket, '/' :: key⟩ := by
    rcases hs with rfl | rfl
    · show Url.mk _ ((bucket ++ '/' :: key).takeWhile (! netEnd ·))
        ((((bucket ++ '/' :: key).dropWhile (! netEnd ·)).takeWhile (· ≠ '#')).takeWhile (· ≠ '?')) = _
      rw [t1, t2, t3, t4]
      rfl
    · show Url.mk _ ((bucket ++ '/' :: key).takeWhile (! netEnd ·))
        ((((bucket ++ '/' :: key).dropWhile (! netEnd ·)).takeWhile (· ≠ '#')).takeWhile (· ≠ '?')) = _
      rw [t1, t2, t3, t4]
      rfl
  refine ⟨?_, ?_, ?_⟩
  · unfold isUrl
    rw [main]
    rcases hs with rfl | rfl <;> simp [hb]
  · unfold isS3
    rcases hs with rfl | rfl <;> rfl
  · unfold s3Object
    rw [main]
    simp only [t5]

example : s3Object "s3://bucket/dir/a.csv".toList = ("bucket".toList, "dir/a.csv".toList) := by decide +kernel

/-- A path without a colon is no address. -/
theorem C88_path {s : List Char} (h : ':' ∉ s) : isUrl s = false := by
  have hc : s.contains ':' = false := by simpa using h
  have hs : (urlsplit s).scheme = [] := by
    unfold urlsplit
    simp only [hc, Bool.false_and, Bool.false_eq_true, if_false]
    split <;> rfl
  unfold isUrl
  rw [hs]
  rfl

example : isUrl "https://host/a.csv".toList = true ∧ isUrl "C:\\a.csv".toList = false ∧ isUrl "dir/a.csv".toList = false := by decide +kernel

/-- A text is taken for an address exactly if it is one: a scheme, `://` and the name of a host. -/
theorem C88_url (s : List Char) : isUrl s = true ↔ Address s := by
  have key : ∀ (b rest : List Char), ':' ∉ b → (b ++ ':' :: rest).takeWhile (· ≠ ':') = b := by
    intro b rest hb
    induction b with
    | nil => simp
    | cons x b ih =>
      simp only [List.mem_cons, not_or] at hb
      have hx : x ≠ ':' := fun e => hb.1 e.symm
      simpa [List.takeWhile_cons, hx] using ih hb.2
  by_cases hc : ':' ∈ s
  · obtain ⟨b, rest, hs, hb⟩ : ∃ b rest, s = b ++ ':' :: rest ∧ ':' ∉ b := by
      obtain ⟨b, rest, h1, h2⟩ := List.eq_append_cons_of_mem hc
      exact ⟨b, rest, h1, h2⟩
    subst hs
    have hcon : (b ++ ':' :: rest).contains ':' = true := by simp
    have hdrop : (b ++ ':' :: rest).drop (b.length + 1) = rest := by
      rw [List.drop_append]; simp
    have hsch : ∀ x, schemeChar x = true ↔ (x.isAlphanum = true ∨ x ∈ ['+', '-', '.']) := by
      intro x; simp [schemeChar, or_assoc]
    have hend : ∀ x, netEnd x = true ↔ x ∈ ['/', '?', '#'] := by
      intro x; simp [netEnd, or_assoc]
    unfold isUrl urlsplit
    simp only [key b rest hb, hcon, hdrop, Bool.true_and]
    cases b with
    | nil =>
      simp only [Bool.false_eq_true, if_false, List.nil_append]
      constructor
      · intro h
        split at h <;> simp at h
      · rintro ⟨c, t, d, r, e, h1, -, -⟩
        simp only [List.cons_append, List.cons.injEq] at e
        rw [← e.1] at h1
        exact absurd h1 (by decide)
    | cons c t =>
      simp only
      by_cases hl : (c.isAlpha && t.all schemeChar) = true
      · rw [if_pos hl, if_pos hl]
        simp only [Bool.and_eq_true, List.all_eq_true] at hl
        constructor
        · intro h
          split at h
          · rename_i u
            cases u with
            | nil => simp at h
            | cons d r =>
              refine ⟨c, t, d, r, rfl, hl.1, fun x hx => (hsch x).1 (hl.2 x hx), fun hd => ?_⟩
              have := (hend d).2 hd
              simp [this] at h
          · simp at h
        · rintro ⟨c', t', d, r, e, h1, h2, h3⟩
          have hb' : ':' ∉ c' :: t' := by
            intro hm
            rcases List.mem_cons.1 hm with hm | hm
            · rw [← hm] at h1; exact absurd h1 (by decide)
            · exact absurd (h2 _ hm) (by decide)
          have e1 := key _ rest hb
          rw [e, key _ _ hb'] at e1
          rw [← e1] at e
          have e2 := List.append_cancel_left e
          simp only [List.cons.injEq, true_and] at e2
          subst e2
          have hd : netEnd d = false := by
            rw [← Bool.not_eq_true, hend]; exact h3
          simp [hd]
      · rw [if_neg hl, if_neg hl]
        constructor
        · intro h
          split at h <;> simp at h
        · rintro ⟨c', t', d, r, e, h1, h2, h3⟩
          have hb' : ':' ∉ c' :: t' := by
            intro hm
            rcases List.mem_cons.1 hm with hm | hm
            · rw [← hm] at h1; exact absurd h1 (by decide)
            · exact absurd (h2 _ hm) (by decide)
          have e1 := key _ rest hb
          rw [e, key _ _ hb'] at e1
          simp only [List.cons.injEq] at e1
          refine absurd ?_ hl
          rw [← e1.1, ← e1.2, Bool.and_eq_true, List.all_eq_true]
          exact ⟨h1, fun x hx => (hsch x).2 (h2 x hx)⟩
  · rw [C88_path hc]
    constructor
    · intro h; exact absurd h (by decide)
    · rintro ⟨c, t, d, r, e, -⟩
      exact absurd (by rw [e]; simp) hc

example : Address "git+ssh2.x://h?q".toList ∧ ¬ Address "http:///a".toList ∧ ¬ Address "2x://a".toList ∧ ¬ Address "http://?a".toList := by
  refine ⟨(C88_url _).1 (by decide +kernel), fun h => ?_, fun h => ?_, fun h => ?_⟩ <;>
    exact absurd ((C88_url _).2 h) (by decide +kernel)

/-- Other keys are asked for under another name: what follows `?` or `#` is cut off, and slashes at the beginning are. -/
theorem C88_s3_fails : s3Object "s3://bucket/a?b.csv".toList = ("bucket".toList, "a".toList) ∧
    s3Object "s3://bucket/a#b.csv".toList = ("bucket".toList, "a".toList) ∧
    s3Object "s3://bucket//a.csv".toList = ("bucket".toList, "a.csv".toList) := by decide +kernel

/-- Credentials that are given are used; those that are missing come from the environment. -/
theorem C88_client {C : Type} (env : String → Option String) (boto : Creds → Option C) (c : Creds) :
    (∀ x, client env boto c = .ok x → ∃ d, boto d = some x ∧ (∀ k, c.key = some k → d.key = some k) ∧ (c.key = none → d.key = env "AWS_ACCESS_KEY_ID") ∧
      (∀ k, c.secret = some k → d.secret = some k) ∧ (c.secret = none → d.secret = env "AWS_SECRET_ACCESS_KEY") ∧
      (∀ k, c.token = some k → d.token = some k) ∧ (c.token = none → d.token = env "AWS_SESSION_TOKEN") ∧
      (∀ k, c.region = some k → d.region = some k) ∧ (c.region = none → ∀ k, env "AWS_REGION" = some k → d.region = some k) ∧
      (c.region = none → env "AWS_REGION" = none → d.region = some "us-east-1")) ∧
    ((∀ d, boto d = none) → (client env boto c = .error .valueError ↔
      (c.key = none ∧ env "AWS_ACCESS_KEY_ID" = none) ∨ (c.secret = none ∧ env "AWS_SECRET_ACCESS_KEY" = none))) := by
  constructor
  · intro x hx
    refine ⟨fromEnv env c, ?_, ?_⟩
    · unfold client at hx
      cases hb : boto (fromEnv env c) with
      | some y => rw [hb] at hx; exact congrArg some (Except.ok.inj hx)
      | none =>
        rw [hb] at hx
        simp only at hx
        split_ifs at hx
    · unfold fromEnv
      refine ⟨?_, ?_, ?_, ?_, ?_, ?_, ?_, ?_, ?_⟩
      · intro k hk; simp [hk]
      · intro hk; simp [hk]
      · intro k hk; simp [hk]
      · intro hk; simp [hk]
      · intro k hk; simp [hk]
      · intro hk; simp [hk]
      · intro k hk; simp [hk]
      · intro hk k he; simp [hk, he]
      · intro hk he; simp [hk, he]
  · intro hb
    unfold client
    rw [hb]
    simp only [fromEnv, Option.or_eq_none_iff]
    split_ifs with h
    · simp [h]
    · simp [h]

/-- A download is all that was sent, and never more than a gibibyte if chunks are as large as asked for at most. -/
theorem C88_download (server : Bool → Response) (verify : Option Bool) {b : List ℕ} (h : download server verify = .ok b) :
    b = (server (verify.getD true)).chunks.flatten ∧ (server (verify.getD true)).untrusted = false ∧ (server (verify.getD true)).bad = false ∧
      ((∀ c ∈ (server (verify.getD true)).chunks, c.length ≤ 8192) → b.length ≤ 1073741824) := by
  unfold download at h
  simp only at h
  generalize server (verify.getD true) = r at h ⊢
  split_ifs at h with h1 h2
  have hc : collect 0 [] r.chunks = .ok b := by
    cases hl : r.length with
    | none => rw [hl] at h; exact h
    | some n =>
      rw [hl] at h
      simp only at h
      split_ifs at h
      exact h
  have := collect_eq r.chunks 0 [] (by omega)
  rw [Nat.zero_mul, hc] at this
  split_ifs at this with hn
  rw [List.nil_append] at this
  obtain rfl := Except.ok.inj this
  refine ⟨rfl, by simpa using h1, by simpa using h2, fun hs => ?_⟩
  have key : ∀ l : List (List ℕ), (∀ c ∈ l, c.length ≤ 8192) → l.flatten.length ≤ l.length * 8192 := by
    intro l
    induction l with
    | nil => intro _; simp
    | cons c t ih =>
      intro hl
      rw [List.flatten_cons, List.length_append, List.length_cons]
      have := hl c List.mem_cons_self
      have := ih fun x hx => hl x (List.mem_cons_of_mem _ hx)
      omega
  have := key _ hs
  omega

/-- If chunks are as large as asked for, except the last, exactly the files of more than a gibibyte are refused, and those that say they are
one. -/
theorem C88_download_size (server : Bool → Response) (verify : Option Bool) (hu : (server (verify.getD true)).untrusted = false)
    (hb : (server (verify.getD true)).bad = false) (hf : Full 8192 (server (verify.getD true)).chunks) :
    (∃ b, download server verify = .ok b) ↔ (server (verify.getD true)).chunks.flatten.length ≤ 1073741824 ∧
      ∀ n, (server (verify.getD true)).length = some n → n < 1073741824 := by
  unfold download
  simp only
  generalize server (verify.getD true) = r at hu hb hf ⊢
  rw [hu, hb]
  simp only [Bool.false_eq_true, if_false]
  have hc : ∀ b, collect 0 [] r.chunks = .ok b ↔ r.chunks.length ≤ 131072 ∧ r.chunks.flatten = b := by
    intro b
    have := collect_eq r.chunks 0 [] (by omega)
    rw [Nat.zero_mul] at this
    rw [this, Nat.zero_add]
    split_ifs with h <;> simp [h]
  have key : ∀ l : List (List ℕ), Full 8192 l → l ≠ [] → (l.length - 1) * 8192 < l.flatten.length ∧ l.flatten.length ≤ l.length * 8192 := by
    intro l
    induction l with
    | nil => intro _ h; exact absurd rfl h
    | cons c t ih =>
      intro hl _
      cases t with
      | nil =>
        have : 0 < c.length ∧ c.length ≤ 8192 := hl
        simp only [List.length_cons, List.length_nil, List.flatten_cons, List.flatten_nil, List.append_nil]
        omega
      | cons d t =>
        have hl : c.length = 8192 ∧ Full 8192 (d :: t) := hl
        have h3 := ih hl.2 (by simp)
        have h4 : (c :: d :: t).length = (d :: t).length + 1 := rfl
        have h5 : 0 < (d :: t).length := by simp
        have h6 := hl.1
        rw [List.flatten_cons, List.length_append, h4]
        generalize (d :: t).length = k at h3 h5 ⊢
        generalize (d :: t).flatten.length = m at h3 ⊢
        generalize c.length = j at h6 ⊢
        obtain ⟨h1, h2⟩ := h3
        constructor
        · have : (k + 1 - 1) * 8192 = (k - 1) * 8192 + 8192 := by
            rw [Nat.add_sub_cancel]
            conv_lhs => rw [← Nat.sub_add_cancel h5, Nat.add_mul, Nat.one_mul]
          linarith
        · linarith
  have hlen : r.chunks.length ≤ 131072 ↔ r.chunks.flatten.length ≤ 1073741824 := by
    by_cases hr : r.chunks = []
    · rw [hr]; simp
    · have := key _ hf hr
      omega
  cases hl : r.length with
  | none =>
    simp only [hc]
    rw [← hlen]
    simp
  | some n =>
    simp only
    by_cases hn : n ≥ 1024 ^ 3
    · rw [if_pos hn]
      norm_num at hn
      constructor
      · rintro ⟨b, hb⟩; exact nomatch hb
      · rintro ⟨_, h2⟩
        have := h2 n rfl
        omega
    · rw [if_neg hn]
      norm_num at hn
      simp only [hc]
      rw [← hlen]
      constructor
      · rintro ⟨b, h1, _⟩
        exact ⟨h1, fun m hm => by rw [← Option.some.inj hm]; omega⟩
      · rintro ⟨h1, _⟩
        exact ⟨_, h1, rfl⟩

/-! ### What does not hold -/

/-- The size of chunks that come is not looked at: a short file in small pieces is refused. -/
theorem C88_download_fails : ∃ server : Bool → Response, (server true).chunks.flatten.length = 131073 ∧ (server true).untrusted = false ∧
    (server true).bad = false ∧ (server true).length = none ∧ download server none = .error .valueError := by
  refine ⟨fun _ => ⟨false, false, none, List.replicate 131073 [0]⟩, ?_, rfl, rfl, rfl, ?_⟩
  · have key : ∀ n : ℕ, (List.replicate n [0]).flatten.length = n := by
      intro n
      induction n with
      | zero => rfl
      | succ n ih => rw [List.replicate_succ, List.flatten_cons, List.length_append, ih, List.length_singleton]; omega
    exact key _
  · have key : ∀ n : ℕ, 131072 < n → collect 0 [] (List.replicate n [0]) = .error .valueError := by
      intro n hn
      have := collect_eq (List.replicate n [0]) 0 [] (by omega)
      rw [Nat.zero_mul, List.length_replicate, if_neg (by omega)] at this
      exact this
    unfold download
    simp only [Bool.false_eq_true, if_false]
    exact key 131073 (by omega)

/-- A buffer that is not at its start is read from there the first time and from its start afterwards. -/
theorem C88_position_fails : (readLines lib0 world0 (.bytesIO 1) (some "latin-1")).2 = .ok [['a', '\n'], ['b']] ∧
    (readLines lib0 (readLines lib0 world0 (.bytesIO 1) (some "latin-1")).1 (.bytesIO 1) (some "latin-1")).2 =
      .ok [['È', 'a', '\n'], ['b']] := by decide +kernel

/-- The same text has other lines in a text buffer: its line ends stay as they are. -/
theorem C88_newline_fails : (readLines lib0 world0 (.stringIO 0) (some "utf-8")).2 = .ok [['a', '\r', '\n'], ['b']] ∧
    (readLines lib0 world0 (.bytesIO 0) (some "utf-8")).2 = .ok [['a', '\n'], ['b']] := by decide +kernel

/-- The encoding found need not decode the file: bytes after the first mebi-characters are not looked at. -/
theorem C88_late_fails : ∃ (L : Lib) (w : World) (b : List ℕ), Sound L ∧ Holds w b 0 (.path "a.txt") ∧
    (detect L w (.path "a.txt") 1024 20).2 = .ok "utf-8" ∧ (readLines L w (.path "a.txt") none).2 = .error .valueError := by
  classical
  have k1 : ∀ n : ℕ, (List.replicate n 97 ++ [200]).all (· < 128) = false := fun n => by rw [List.all_append]; simp
  have k2 : ∀ n : ℕ, (lib0.front (some "utf-8") (List.replicate n 97 ++ [200]) n).isSome := fun n => by
    simp only [lib0, k1, Bool.or_false, List.take_left' (List.length_replicate ..)]
    rw [if_neg (by decide), if_pos (by simp)]
    rfl
  have k3 : ∀ n : ℕ, lib0.raw (some "utf-8") (List.replicate n 97 ++ [200]) = none := fun n => by
    simp only [lib0, k1, Bool.or_false]
    rw [if_neg (by decide)]
  have main : ∀ b : List ℕ, Reads lib0 b "utf-8" → lib0.raw (some "utf-8") b = none → ∃ (L : Lib) (w : World) (b : List ℕ), Sound L ∧
      Holds w b 0 (.path "a.txt") ∧ (detect L w (.path "a.txt") 1024 20).2 = .ok "utf-8" ∧
      (readLines L w (.path "a.txt") none).2 = .error .valueError := by
    intro b hr hn
    have h : Holds { world0 with disk := fun _ => some b } b 0 (.path "a.txt") := ⟨rfl, rfl⟩
    obtain ⟨w', e1, e2⟩ := detect_eq lib0 h 1024 20
    have hd : found lib0 b 0 1024 20 = "utf-8" := by
      unfold found
      have : firstGuess lib0 (chunksOf 1024 20 (b.drop 0)) = "utf-8" := rfl
      simp only [this, if_pos hr]
    rw [hd] at e1
    refine ⟨lib0, _, b, sound0, h, ?_, ?_⟩
    · rw [e1]; rfl
    · unfold readLines
      simp only [e1]
      have h3 := (C88_lines lib0 (e2.holds h) (e := "utf-8") (by decide)).2.2
      unfold readLines at h3
      exact h3 hn
  exact main _ ⟨by decide, k2 1048576⟩ (k3 1048576)

/-- A program that closes its stream: for a buffer the end of the block raises, and the buffer stays closed. -/
theorem C88_close_fails {A : Type} (L : Lib) (w : World) (i : ℕ) (a : A) :
    ∃ w', withHandle L w (.bytesIO i) .rb none none (.close (.done a)) = (w', .error .valueError) ∧ (w'.bytesIO i).closed = true := by
  refine ⟨_, rfl, ?_⟩
  show (if i = i then _ else _ : Buf ℕ).closed = true
  rw [if_pos rfl]

/-- An offset that is not allowed leaves the file open. -/
theorem C88_offset_fails {A : Type} (L : Lib) {w : World} {f : String} {b : List ℕ} (h : w.disk f = some b) (n : ℤ) (hn : n < 0) (body : Prog A) :
    ∃ e, (withHandle L w (.path f) .rb none (some n) body).2 = .error e ∧
      (withHandle L w (.path f) .rb none (some n) body).1.handles = w.handles + 1 := by
  unfold withHandle enter opened
  simp only [h, Live.seek, hn, if_true, Bool.false_eq_true, if_false]
  exact ⟨_, rfl, trivial⟩

end Verif.Props.Source
