import Verif.Spec.Source
import Mathlib.Data.List.Basic
import Mathlib.Tactic.Ring
import Mathlib.Tactic.Linarith

/-!
# Lemmas about files, buffers and addresses
-/

namespace Verif.Source

open Verif Verif.Spec.Source Verif.Spec.CharProcess

/-! ### Streams -/

theorem read_open (L : Lib) (s : Live) (n : Option ℕ) (h : s.closed = false) : (s.read L n).2.closed = false := by
  obtain ⟨v, c⟩ := s
  obtain rfl : c = false := h
  unfold Live.read
  rw [if_neg (by simp)]
  cases v with
  | bytes c p => rfl
  | text c p => rfl
  | wrapped e c p u =>
    simp only
    cases textOf L e (c.drop p) (n.map (u + ·)) <;> rfl

theorem seek_open {s s' : Live} {n : ℤ} (h : s.seek n = .ok s') : s'.closed = false := by
  unfold Live.seek at h
  split_ifs at h
  cases hv : s.view with
  | bytes c p => rw [hv] at h; exact (Except.ok.inj h) ▸ rfl
  | text c p => rw [hv] at h; exact (Except.ok.inj h) ▸ rfl
  | wrapped e c p u => rw [hv] at h; exact (Except.ok.inj h) ▸ rfl

theorem run_open {A : Type} (L : Lib) {body : Prog A} (hb : NoClose body) : ∀ {s : Live}, s.closed = false → (body.run L s).2.closed = false := by
  induction hb with
  | done a => exact fun h => h
  | raise e => exact fun h => h
  | read n _ ih =>
    intro s h
    rw [Prog.run]
    exact ih _ (read_open L s n h)
  | rewind _ ih =>
    intro s h
    rw [Prog.run]
    cases hs : s.seek 0 with
    | error e => exact ih _ h
    | ok s' => exact ih _ (seek_open hs)

/-- The stream for something that can be opened. -/
def live (w : World) (src : Src) (mode : Mode) (enc : Option String) : Live :=
  match src with
  | .path f =>
    match mode with
    | .rb => ⟨.bytes ((w.disk f).getD []) 0, false⟩
    | .r => ⟨.wrapped enc ((w.disk f).getD []) 0 0, false⟩
  | .bytesIO i =>
    match mode with
    | .rb => ⟨.bytes (w.bytesIO i).content (w.bytesIO i).pos, false⟩
    | .r => ⟨.wrapped enc (w.bytesIO i).content (w.bytesIO i).pos 0, false⟩
  | .stringIO i => ⟨.text (w.stringIO i).content (w.stringIO i).pos, false⟩
  | .other => ⟨.text [] 0, false⟩

theorem live_open (w : World) (src : Src) (mode : Mode) (enc : Option String) : (live w src mode enc).closed = false := by
  cases src <;> cases mode <;> rfl

/-- The world while a stream is open. -/
def during (w : World) : Src → World
  | .path _ => { w with handles := w.handles + 1 }
  | _ => w

theorem opened_ok (L : Lib) (w : World) {src : Src} {mode : Mode} {enc : Option String} (ho : Open w src) (h : Opens L w mode enc src) :
    opened L w src mode enc = (during w src, .ok (live w src mode enc)) := by
  cases src with
  | path f =>
    obtain ⟨h1, h2, h3⟩ := h
    obtain ⟨c, hc⟩ := Option.isSome_iff_exists.1 h1
    cases mode with
    | rb =>
      obtain rfl := h2 rfl
      simp only [opened, hc, during, live, Option.getD_some]
    | r => simp only [opened, hc, during, live, Option.getD_some, h3 rfl, if_true]
  | bytesIO i =>
    have ho : (w.bytesIO i).closed = false := ho
    cases mode with
    | rb => simp only [opened, during, live, ho]
    | r =>
      have : L.known enc = true := h rfl
      simp [opened, during, live, ho, this]
  | stringIO i =>
    have ho : (w.stringIO i).closed = false := ho
    simp only [opened, during, live, ho]
  | other => exact h.elim

theorem opened_error (L : Lib) (w : World) {src : Src} {mode : Mode} {enc : Option String} (ho : Open w src) (h : ¬ Opens L w mode enc src) :
    ∃ e, opened L w src mode enc = (w, .error e) := by
  cases src with
  | path f =>
    cases mode with
    | rb =>
      cases enc with
      | some e => exact ⟨.valueError, rfl⟩
      | none =>
        cases hd : w.disk f with
        | none => exact ⟨.exception, by simp only [opened, hd]⟩
        | some c => exact absurd ⟨by rw [hd]; rfl, fun _ => rfl, (nomatch ·)⟩ h
    | r =>
      cases hd : w.disk f with
      | none => exact ⟨.exception, by simp only [opened, hd]⟩
      | some c =>
        have hk : ¬ L.known enc = true := fun hk => h ⟨by rw [hd]; rfl, (nomatch ·), fun _ => hk⟩
        exact ⟨.exception, by simp only [opened, hd, hk]; rfl⟩
  | bytesIO i =>
    cases mode with
    | rb => exact absurd (fun hx => nomatch hx) h
    | r =>
      have hk : L.known enc = false := by
        rw [← Bool.not_eq_true]
        exact fun hk => h fun _ => hk
      simp only [opened, hk, if_true]
      exact ⟨_, rfl⟩
  | stringIO i => exact absurd trivial h
  | other => exact ⟨_, rfl⟩

theorem exit_open {w : World} (src : Src) {s : Live} (ho : Open w src) (h : s.closed = false) :
    ∃ w', exit (during w src) src s = (w', .ok ()) ∧ Rewound src w w' := by
  cases src with
  | path f =>
    refine ⟨_, rfl, rfl, ?_, fun i => ?_, fun i => ?_⟩
    · show w.handles + 1 - 1 = w.handles
      omega
    · rw [if_neg (by simp)]; rfl
    · rw [if_neg (by simp)]; rfl
  | bytesIO i =>
    have ho : (w.bytesIO i).closed = false := ho
    refine ⟨{ w with bytesIO := upd w.bytesIO i ⟨(w.bytesIO i).content, 0, false⟩ }, by simp [exit, h, during], rfl, rfl, fun j => ?_, fun j => ?_⟩
    · show upd _ i _ j = _
      unfold upd
      by_cases hj : j = i
      · subst hj; rw [if_pos rfl, if_pos rfl, ho]
      · rw [if_neg hj, if_neg (by rintro ⟨⟩; exact hj rfl)]
    · rw [if_neg (by simp)]
  | stringIO i =>
    have ho : (w.stringIO i).closed = false := ho
    refine ⟨{ w with stringIO := upd w.stringIO i ⟨(w.stringIO i).content, 0, false⟩ }, by simp [exit, h, during], rfl, rfl, fun j => ?_, fun j => ?_⟩
    · rw [if_neg (by simp)]
    · show upd _ i _ j = _
      unfold upd
      by_cases hj : j = i
      · subst hj; rw [if_pos rfl, if_pos rfl, ho]
      · rw [if_neg hj, if_neg (by rintro ⟨⟩; exact hj rfl)]
  | other =>
    refine ⟨_, rfl, rfl, rfl, fun j => ?_, fun j => ?_⟩
    · rw [if_neg (by simp)]; rfl
    · rw [if_neg (by simp)]; rfl

theorem with_ok {A : Type} (L : Lib) {w : World} {src : Src} {mode : Mode} {enc : Option String} (ho : Open w src)
    (h : Opens L w mode enc src) {body : Prog A} (hb : NoClose body) :
    ∃ w', withHandle L w src mode enc none body = (w', (body.run L (live w src mode enc)).1) ∧ Rewound src w w' := by
  obtain ⟨w', h1, h2⟩ := exit_open src ho (run_open L hb (live_open w src mode enc))
  refine ⟨w', ?_, h2⟩
  unfold withHandle enter
  rw [opened_ok L w ho h]
  simp only [h1]

theorem with_error {A : Type} (L : Lib) {w : World} {src : Src} {mode : Mode} {enc : Option String} (ho : Open w src)
    (h : ¬ Opens L w mode enc src) : ∃ e, ∀ body : Prog A, withHandle L w src mode enc none body = (w, .error e) := by
  obtain ⟨e, he⟩ := opened_error L w ho h
  refine ⟨e, fun body => ?_⟩
  unfold withHandle enter
  rw [he]

/-! ### Worlds -/

theorem _root_.Verif.Spec.Source.Rewound.trans {src : Src} {a b c : World} (h1 : Rewound src a b) (h2 : Rewound src b c) : Rewound src a c := by
  refine ⟨h2.disk.trans h1.disk, h2.handles.trans h1.handles, fun i => ?_, fun i => ?_⟩
  · rw [h2.bytes, h1.bytes]
    split_ifs <;> rfl
  · rw [h2.texts, h1.texts]
    split_ifs <;> rfl

theorem _root_.Verif.Spec.Source.Rewound.eq {src : Src} {a b b' : World} (h1 : Rewound src a b) (h2 : Rewound src a b') : b = b' := by
  obtain ⟨d, h, x, y⟩ := b
  obtain ⟨d', h', x', y'⟩ := b'
  obtain rfl : d = d' := h1.disk.trans h2.disk.symm
  obtain rfl : h = h' := h1.handles.trans h2.handles.symm
  obtain rfl : x = x' := funext fun i => (h1.bytes i).trans (h2.bytes i).symm
  obtain rfl : y = y' := funext fun i => (h1.texts i).trans (h2.texts i).symm
  rfl

theorem _root_.Verif.Spec.Source.Rewound.holds {src : Src} {a b : World} {l : List ℕ} {p : ℕ} (h : Rewound src a b) (hh : Holds a l p src) : Holds b l 0 src := by
  cases src with
  | path f => exact ⟨(congrFun h.disk f).trans hh.1, rfl⟩
  | bytesIO i =>
    show b.bytesIO i = _
    rw [h.bytes, if_pos rfl, show a.bytesIO i = ⟨l, p, false⟩ from hh]
  | stringIO i => exact hh.elim
  | other => exact hh.elim

theorem _root_.Verif.Spec.Source.Holds.open {src : Src} {w : World} {l : List ℕ} {p : ℕ} (h : Holds w l p src) : Open w src := by
  cases src with
  | path f => trivial
  | bytesIO i => show (w.bytesIO i).closed = false; rw [show w.bytesIO i = ⟨l, p, false⟩ from h]
  | stringIO i => exact h.elim
  | other => exact h.elim

theorem _root_.Verif.Spec.Source.Holds.rb {L : Lib} {src : Src} {w : World} {l : List ℕ} {p : ℕ} (h : Holds w l p src) : Opens L w .rb none src := by
  cases src with
  | path f => exact ⟨by rw [h.1]; rfl, fun _ => rfl, (nomatch ·)⟩
  | bytesIO i => intro hx; exact nomatch hx
  | stringIO i => exact h.elim
  | other => exact h.elim

theorem _root_.Verif.Spec.Source.Holds.r {L : Lib} {src : Src} {w : World} {l : List ℕ} {p : ℕ} {e : Option String} (h : Holds w l p src) :
    Opens L w .r e src ↔ L.known e = true := by
  cases src with
  | path f => exact ⟨fun hx => hx.2.2 rfl, fun hk => ⟨by rw [h.1]; rfl, (nomatch ·), fun _ => hk⟩⟩
  | bytesIO i => exact ⟨fun hx => hx rfl, fun hk _ => hk⟩
  | stringIO i => exact h.elim
  | other => exact h.elim

theorem _root_.Verif.Spec.Source.Holds.live_rb {src : Src} {w : World} {l : List ℕ} {p : ℕ} {e : Option String} (h : Holds w l p src) :
    live w src .rb e = ⟨.bytes l p, false⟩ := by
  cases src with
  | path f => simp only [live, h.1, h.2, Option.getD_some]
  | bytesIO i => simp only [live, show w.bytesIO i = ⟨l, p, false⟩ from h]
  | stringIO i => exact h.elim
  | other => exact h.elim

theorem _root_.Verif.Spec.Source.Holds.live_r {src : Src} {w : World} {l : List ℕ} {p : ℕ} {e : Option String} (h : Holds w l p src) :
    live w src .r e = ⟨.wrapped e l p 0, false⟩ := by
  cases src with
  | path f => simp only [live, h.1, h.2, Option.getD_some]
  | bytesIO i => simp only [live, show w.bytesIO i = ⟨l, p, false⟩ from h]
  | stringIO i => exact h.elim
  | other => exact h.elim

/-- A source at its start that is closed properly stays as it is. -/
theorem _root_.Verif.Spec.Source.Rewound.self {src : Src} {w : World} {l : List ℕ} (h : Holds w l 0 src) : Rewound src w w := by
  refine ⟨rfl, rfl, fun i => ?_, fun i => ?_⟩
  · split_ifs with hs
    · subst hs; rw [show w.bytesIO i = ⟨l, 0, false⟩ from h]
    · rfl
  · split_ifs with hs
    · subst hs; exact h.elim
    · rfl

/-! ### Chunks -/

/-- At most so many chunks. -/
def chunksOf (size : ℕ) : ℕ → List ℕ → List (List ℕ)
  | 0, _ => []
  | n + 1, l =>
    match l.take size with
    | [] => []
    | x :: t => (x :: t) :: chunksOf size n (l.drop size)

theorem noClose_feed (size : ℕ) : ∀ (n : ℕ) (acc : List (List ℕ)), NoClose (feed size n acc)
  | 0, _ => .read _ fun
    | .error _ => .raise _
    | .ok _ => .done _
  | n + 1, _ => .read _ fun
    | .error _ => .raise _
    | .ok (.text []) => .done _
    | .ok (.text (_ :: _)) => .raise _
    | .ok (.bytes []) => .done _
    | .ok (.bytes (_ :: _)) => noClose_feed size n _

theorem run_feed (L : Lib) (size : ℕ) (c : List ℕ) : ∀ (n : ℕ) (acc : List (List ℕ)) (p : ℕ),
    ((feed size n acc).run L ⟨.bytes c p, false⟩).1 = .ok (acc ++ chunksOf size n (c.drop p))
  | 0, acc, p => by
    rw [feed, Prog.run]
    simp [Live.read, Prog.run, chunksOf]
  | n + 1, acc, p => by
    rw [feed, Prog.run, chunksOf]
    have h : (Live.read L ⟨.bytes c p, false⟩ (some size)) =
      (.ok (.bytes ((c.drop p).take size)), ⟨.bytes c (p + ((c.drop p).take size).length), false⟩) := rfl
    rw [h]
    cases ht : (c.drop p).take size with
    | nil => simp [Prog.run]
    | cons x t =>
      simp only
      rw [run_feed L size c n (acc ++ [x :: t])]
      rw [List.append_assoc, List.singleton_append]
      have : c.drop (p + (x :: t).length) = (c.drop p).drop size := by
        rw [← ht, List.length_take]
        rw [← List.drop_drop]
        rcases le_total size (c.drop p).length with h | h
        · rw [min_eq_left h]
        · rw [min_eq_right h, List.drop_length, List.drop_of_length_le h]
      rw [this]

theorem chunksOf_flatten (size n : ℕ) (l : List ℕ) : (chunksOf size n l).flatten = l.take (n * size) := by
  induction n generalizing l with
  | zero => simp [chunksOf]
  | succ n ih =>
    rw [chunksOf]
    rw [show (n + 1) * size = size + n * size by ring, List.take_add]
    cases ht : l.take size with
    | nil =>
      rcases List.take_eq_nil_iff.1 ht with h | h
      · subst h; simp
      · subst h; simp
    | cons x t => rw [List.flatten_cons, ih]

theorem chunksOf_full (size n : ℕ) (l : List ℕ) : Full size (chunksOf size n l) := by
  induction n generalizing l with
  | zero => simp [chunksOf, Full]
  | succ n ih =>
    rw [chunksOf]
    cases ht : l.take size with
    | nil => simp [Full]
    | cons x t =>
      simp only
      have hl : (x :: t).length ≤ size := by rw [← ht, List.length_take]; omega
      cases hc : chunksOf size n (l.drop size) with
      | nil => exact ⟨by simp, hl⟩
      | cons y ys =>
        refine ⟨?_, ?_⟩
        · rw [← ht, List.length_take]
          refine min_eq_left ?_
          by_contra hlt
          rw [List.drop_of_length_le (by omega)] at hc
          cases n <;> simp [chunksOf] at hc
        · rw [← hc]; exact ih _

/-! ### Encodings -/

theorem guess_first (L : Lib) (chunks : List (List ℕ)) : Guess L chunks (firstGuess L chunks) := by
  unfold Guess firstGuess
  cases h : L.guess chunks with
  | none => simp
  | some g =>
    by_cases hc : g = "" ∨ L.lower g = "ascii" ∨ L.lower g = "windows-1254"
    · simp only [if_pos hc]
      exact .inl ⟨.inr ⟨g, rfl, hc⟩, trivial⟩
    · simp only [if_neg hc]
      push Not at hc
      exact .inr ⟨trivial, hc.1, hc.2.1, hc.2.2⟩

theorem guess_ne {L : Lib} {chunks : List (List ℕ)} {e : String} (h : Guess L chunks e) : e ≠ "" := by
  rcases h with ⟨_, rfl⟩ | ⟨_, h, _⟩
  · decide
  · exact h

theorem guess_unique {L : Lib} {chunks : List (List ℕ)} {e : String} (h : Guess L chunks e) : e = firstGuess L chunks := by
  unfold Guess at h
  unfold firstGuess
  rcases h with ⟨h | ⟨g, h, hg⟩, rfl⟩ | ⟨h, h1, h2, h3⟩
  · rw [h]
  · rw [h]; simp only [if_pos hg]
  · rw [h]; simp only [h1, h2, h3, or_self, if_false]

theorem decodes_eq (L : Lib) {w : World} {src : Src} {b : List ℕ} (h : Holds w b 0 src) (e : String) [Decidable (Reads L b e)] :
    decodes L w src e = (w, decide (Reads L b e)) := by
  unfold decodes
  by_cases hk : L.known (some e) = true
  · have hn : NoClose tryRead := .read _ fun
      | .error _ => .raise _
      | .ok _ => .done _
    obtain ⟨w', h1, h2⟩ := with_ok L (enc := some e) h.open (h.r.2 hk) hn
    rw [h1, h2.eq (Verif.Spec.Source.Rewound.self h), tryRead, Prog.run, h.live_r]
    unfold Live.read
    rw [if_neg (by simp)]
    simp only [List.drop_zero, Option.map_some, Nat.zero_add, textOf]
    cases hf : L.front (some e) b (1024 * 1024) with
    | none =>
      have : ¬ Reads L b e := fun hr => by
        have := hr.2
        rw [show (1048576 : ℕ) = 1024 * 1024 from rfl, hf] at this
        exact nomatch this
      simp only [Prog.run, decide_eq_false this]
    | some t =>
      have : Reads L b e := ⟨hk, by rw [show (1048576 : ℕ) = 1024 * 1024 from rfl, hf]; rfl⟩
      simp only [Prog.run, decide_eq_true this]
  · obtain ⟨x, hx⟩ := with_error (A := Unit) L (enc := some e) h.open (mt h.r.1 hk)
    rw [hx]
    have : ¬ Reads L b e := fun hr => hk hr.1
    simp only [decide_eq_false this]

theorem opinion_eq (L : Lib) {w : World} {src : Src} {b : List ℕ} (h : Holds w b 0 src) (n steps chunk : ℕ) :
    opinion L w src n steps chunk = (w, L.best steps chunk (b.take n)) := by
  unfold opinion
  have hn : NoClose (ask L n steps chunk) := .read _ fun
    | .error _ => .raise _
    | .ok (.text _) => .raise _
    | .ok (.bytes b) => by
      simp only
      cases L.best steps chunk b with
      | error e => exact .raise _
      | ok r => exact .done _
  obtain ⟨w', h1, h2⟩ := with_ok L (enc := none) h.open h.rb hn
  rw [h1, h2.eq (Verif.Spec.Source.Rewound.self h), ask, Prog.run, h.live_rb]
  unfold Live.read
  rw [if_neg (by simp)]
  simp only [List.drop_zero, upTo]
  cases L.best steps chunk (b.take n) with
  | error e => rfl
  | ok r => rfl

theorem finish_ne (L : Lib) {e : String} (h : e ≠ "") : finish L e = L.lower e := by
  unfold finish
  rw [if_neg h]

open Classical in
/-- The encoding, from the bytes. -/
noncomputable def found (L : Lib) (b : List ℕ) (p size lines : ℕ) : String :=
  let e0 := firstGuess L (chunksOf size lines (b.drop p))
  if Reads L b e0 then e0
  else
    match L.best 5 512 (b.take 10000) with
    | .error _ => e0
    | .ok r1 =>
      if Reads L b (r1.getD e0) then r1.getD e0
      else
        match L.best lines size (b.take (lines * size)) with
        | .error _ => r1.getD e0
        | .ok r2 => r2.getD (r1.getD e0)

open Classical in
theorem retry_eq (L : Lib) {w : World} {src : Src} {b : List ℕ} (h : Holds w b 0 src) (size lines : ℕ) (e : String) :
    retry L w src size lines e = (w,
      match L.best 5 512 (b.take 10000) with
      | .error _ => e
      | .ok r1 =>
        if Reads L b (r1.getD e) then r1.getD e
        else
          match L.best lines size (b.take (lines * size)) with
          | .error _ => r1.getD e
          | .ok r2 => r2.getD (r1.getD e)) := by
  unfold retry
  rw [opinion_eq L h]
  cases h1 : L.best 5 512 (b.take 10000) with
  | error x => rfl
  | ok r1 =>
    simp only [decodes_eq L h]
    by_cases hr : Reads L b (r1.getD e)
    · simp only [hr, decide_true, if_true]
    · simp only [hr, decide_false, if_false, opinion_eq L h]
      cases L.best lines size (b.take (lines * size)) <;> rfl

theorem detect_eq (L : Lib) {w : World} {src : Src} {b : List ℕ} {p : ℕ} (h : Holds w b p src) (size lines : ℕ) :
    ∃ w', detect L w src size lines = (w', .ok (finish L (found L b p size lines))) ∧ Rewound src w w' := by
  classical
  obtain ⟨w', h1, h2⟩ := with_ok L (enc := none) h.open h.rb (noClose_feed size lines [])
  have h' := h2.holds h
  refine ⟨w', ?_, h2⟩
  unfold detect found
  rw [h1, h.live_rb, run_feed]
  simp only [List.nil_append, decodes_eq L h']
  by_cases hr : Reads L b (firstGuess L (chunksOf size lines (b.drop p)))
  · simp only [hr, decide_true, if_true]
  · simp only [hr, decide_false, if_false]
    rw [retry_eq L h']

/-- Reading lines with an encoding. -/
theorem lines_eq (L : Lib) {w : World} {src : Src} {b : List ℕ} {p : ℕ} (h : Holds w b p src) (e : String) (hk : L.known (some e) = true) :
    ∃ w', withHandle L w src .r (some e) none allLines = (w',
      match L.raw (some e) (b.drop p) with
      | none => .error .valueError
      | some t => .ok (splitLines (translate t))) ∧ Rewound src w w' := by
  obtain ⟨w', h1, h2⟩ := with_ok L (enc := some e) h.open (h.r.2 hk) (body := allLines) (.read _ fun
    | .error _ => .raise _
    | .ok (.bytes _) => .raise _
    | .ok (.text _) => .done _)
  refine ⟨w', ?_, h2⟩
  rw [h1, allLines, Prog.run, h.live_r]
  unfold Live.read
  rw [if_neg (by simp)]
  simp only [Option.map_none, textOf]
  cases L.raw (some e) (b.drop p) with
  | none => rfl
  | some t => rfl

/-! ### Lines -/

theorem newlines_translate : ∀ t : List Char, Newlines t (translate t)
  | [] => .nil
  | c :: t => by
    by_cases hc : c = '\r'
    · subst hc
      cases t with
      | nil => exact .cr (by simp) .nil
      | cons d t =>
        by_cases hd : d = '\n'
        · subst hd
          rw [translate]
          exact .crlf (newlines_translate t)
        · rw [translate]
          · rw [if_pos rfl]
            exact .cr (by simpa using hd) (newlines_translate (d :: t))
          · rintro t' _ h
            exact hd (List.cons.inj h).1
    · rw [translate]
      · rw [if_neg hc]
        exact .other hc (newlines_translate t)
      · rintro t' h _
        exact hc h

theorem newlines_unique {s t : List Char} (h : Newlines s t) : ∀ {t'}, Newlines s t' → t = t' := by
  induction h with
  | nil => intro t' h; cases h; rfl
  | crlf _ ih =>
    intro t' h
    cases h with
    | crlf h => rw [ih h]
    | cr hs _ => exact absurd rfl hs
    | other hc _ => exact absurd rfl hc
  | cr hs _ ih =>
    intro t' h
    cases h with
    | crlf _ => exact absurd rfl hs
    | cr _ h => rw [ih h]
    | other hc _ => exact absurd rfl hc
  | other hc _ ih =>
    intro t' h
    cases h with
    | crlf _ => exact absurd rfl hc
    | cr _ _ => exact absurd rfl hc
    | other _ h => rw [ih h]

theorem splitLines_flatten (t : List Char) : (splitLines t).flatten = t := by
  induction t with
  | nil => rfl
  | cons c t ih =>
    rw [splitLines]
    split_ifs with hc
    · rw [List.flatten_cons, ih]; rfl
    · cases h : splitLines t with
      | nil => rw [h] at ih; rw [← ih]; rfl
      | cons l ls => rw [h] at ih; rw [← ih]; rfl

theorem splitLines_lines (t : List Char) : Lines (splitLines t) := by
  induction t with
  | nil => exact .nil
  | cons c t ih =>
    rw [splitLines]
    split_ifs with hc
    · subst hc
      exact .cons (l := []) (by simp) ih
    · cases h : splitLines t with
      | nil => exact .last (by simp) (by simpa using fun h => hc h.symm)
      | cons l ls =>
        rw [h] at ih
        cases ih with
        | last h1 h2 => exact .last (by simp) (by simpa using ⟨fun h => hc h.symm, h2⟩)
        | @cons l _ h1 h2 => exact .cons (l := c :: l) (by simpa using ⟨fun h => hc h.symm, h1⟩) h2

/-- The lines of a text are determined by it. -/
theorem lines_unique {a : List (List Char)} (ha : Lines a) : ∀ {b : List (List Char)}, Lines b → a.flatten = b.flatten → a = b := by
  have key : ∀ {l m x y : List Char}, '\n' ∉ l → '\n' ∉ m → l ++ '\n' :: x = m ++ '\n' :: y → l = m ∧ x = y := by
    intro l
    induction l with
    | nil =>
      intro m x y _ hm h
      cases m with
      | nil => exact ⟨rfl, (List.cons.inj h).2⟩
      | cons d m => exact absurd ((List.cons.inj h).1 ▸ List.mem_cons_self) hm
    | cons c l ih =>
      intro m x y hl hm h
      cases m with
      | nil => exact absurd ((List.cons.inj h).1 ▸ List.mem_cons_self) hl
      | cons d m =>
        obtain ⟨h1, h2⟩ := List.cons.inj h
        obtain ⟨h3, h4⟩ := ih (fun h => hl (List.mem_cons_of_mem _ h)) (fun h => hm (List.mem_cons_of_mem _ h)) h2
        exact ⟨by rw [h1, h3], h4⟩
  induction ha with
  | nil =>
    intro b hb h
    cases hb with
    | nil => rfl
    | last h1 _ => exact absurd (by simpa using h.symm) h1
    | cons _ _ => simp at h
  | @last l h1 h2 =>
    intro b hb h
    cases hb with
    | nil => exact absurd (by simpa using h) h1
    | last _ _ => simpa using h
    | cons h3 h4 =>
      simp only [List.flatten_cons, List.flatten_nil, List.append_nil] at h
      exact absurd (h ▸ by simp) h2
  | @cons l ls h1 h2 ih =>
    intro b hb h
    cases hb with
    | nil => simp at h
    | @last m h3 h4 =>
      simp only [List.flatten_cons, List.flatten_nil, List.append_nil] at h
      exact absurd (h ▸ by simp) h4
    | @cons m ms h3 h4 =>
      simp only [List.flatten_cons, List.append_assoc, List.singleton_append] at h
      obtain ⟨h5, h6⟩ := key h1 h3 h
      rw [h5, ih h4 h6]

/-! ### Addresses -/

theorem collect_eq (chunks : List (List ℕ)) : ∀ (k : ℕ) (acc : List ℕ), k ≤ 131072 →
    collect (k * 8192) acc chunks = if k + chunks.length ≤ 131072 then .ok (acc ++ chunks.flatten) else .error .valueError := by
  induction chunks with
  | nil =>
    intro k acc hk
    rw [collect, List.length_nil, if_pos (by omega)]
    simp
  | cons c t ih =>
    intro k acc hk
    rw [collect]
    by_cases h : k + 1 ≤ 131072
    · rw [if_neg (by norm_num; omega), show k * 8192 + 8192 = (k + 1) * 8192 by ring, ih (k + 1) _ h]
      rw [List.length_cons, List.flatten_cons, List.append_assoc, show k + 1 + t.length = k + (t.length + 1) by omega]
    · rw [if_pos (by norm_num; omega), if_neg (by rw [List.length_cons]; omega)]

end Verif.Source
