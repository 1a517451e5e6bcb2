import Verif.Model.Source
import Verif.Spec.CharProcess

/-!
# What is claimed of files, buffers and addresses
-/

namespace Verif.Spec.Source

open Verif Verif.Source

/-- Reading the same bytes to the end, or only their first characters, gives the same; names of encodings may be written in any case. -/
structure Sound (L : Lib) : Prop where
  front : ∀ e b t, L.raw e b = some t → ∀ n, L.front e b n = some ((translate t).take n)
  lower : ∀ e, L.known (some (L.lower e)) = L.known (some e) ∧ L.raw (some (L.lower e)) = L.raw (some e) ∧
    L.front (some (L.lower e)) = L.front (some e)

/-- Nothing has changed but that a buffer is at its start. -/
structure Rewound (src : Src) (w w' : World) : Prop where
  disk : w'.disk = w.disk
  handles : w'.handles = w.handles
  bytes : ∀ i, w'.bytesIO i = if src = .bytesIO i then ⟨(w.bytesIO i).content, 0, (w.bytesIO i).closed⟩ else w.bytesIO i
  texts : ∀ i, w'.stringIO i = if src = .stringIO i then ⟨(w.stringIO i).content, 0, (w.stringIO i).closed⟩ else w.stringIO i

/-- A buffer is not closed. -/
def Open (w : World) : Src → Prop
  | .bytesIO i => (w.bytesIO i).closed = false
  | .stringIO i => (w.stringIO i).closed = false
  | _ => True

/-- It can be opened: a file is there, a codec is known, bytes are not decoded. -/
def Opens (L : Lib) (w : World) (mode : Mode) (enc : Option String) : Src → Prop
  | .path f => (w.disk f).isSome ∧ (mode = .rb → enc = none) ∧ (mode = .r → L.known enc = true)
  | .bytesIO _ => mode = .r → L.known enc = true
  | .stringIO _ => True
  | .other => False

/-- A program that does not close its stream. -/
inductive NoClose {A : Type} : Prog A → Prop
  | done (a : A) : NoClose (.done a)
  | raise (e : Err) : NoClose (.raise e)
  | read (n : Option ℕ) {k : Except Err Item → Prog A} (h : ∀ x, NoClose (k x)) : NoClose (.read n k)
  | rewind {k : Except Err Unit → Prog A} (h : ∀ x, NoClose (k x)) : NoClose (.rewind k)

/-- A file or a buffer has these bytes, and is read from here. -/
def Holds (w : World) (b : List ℕ) (p : ℕ) : Src → Prop
  | .path f => w.disk f = some b ∧ p = 0
  | .bytesIO i => w.bytesIO i = ⟨b, p, false⟩
  | _ => False

/-- The first mebi-characters can be read. -/
def Reads (L : Lib) (b : List ℕ) (e : String) : Prop := L.known (some e) = true ∧ (L.front (some e) b 1048576).isSome

/-- Line ends are translated. -/
inductive Newlines : List Char → List Char → Prop
  | nil : Newlines [] []
  | crlf {s t : List Char} (h : Newlines s t) : Newlines ('\r' :: '\n' :: s) ('\n' :: t)
  | cr {s t : List Char} (hs : s.head? ≠ some '\n') (h : Newlines s t) : Newlines ('\r' :: s) ('\n' :: t)
  | other {c : Char} {s t : List Char} (hc : c ≠ '\r') (h : Newlines s t) : Newlines (c :: s) (c :: t)

/-- The lines of a text: all but the last end with `\n`, and there is no other in a line. -/
inductive Lines : List (List Char) → Prop
  | nil : Lines []
  | last {l : List Char} (h1 : l ≠ []) (h2 : '\n' ∉ l) : Lines [l]
  | cons {l : List Char} {ls : List (List Char)} (h1 : '\n' ∉ l) (h2 : Lines ls) : Lines ((l ++ ['\n']) :: ls)

/-- What the guess of `chardet` is taken for. -/
def Guess (L : Lib) (chunks : List (List ℕ)) (e : String) : Prop :=
  ((L.guess chunks = none ∨ ∃ g, L.guess chunks = some g ∧ (g = "" ∨ L.lower g = "ascii" ∨ L.lower g = "windows-1254")) ∧ e = "utf-8") ∨
    (L.guess chunks = some e ∧ e ≠ "" ∧ L.lower e ≠ "ascii" ∧ L.lower e ≠ "windows-1254")

/-- The encoding found: the first of the candidates by which the first mebi-characters can be read, or the last one. -/
def Chosen (L : Lib) (b : List ℕ) (e0 e1 e2 r : String) : Prop :=
  (Reads L b e0 ∧ r = e0) ∨ (¬ Reads L b e0 ∧ Reads L b e1 ∧ r = e1) ∨ (¬ Reads L b e0 ∧ ¬ Reads L b e1 ∧ r = e2)

/-- An address: a scheme (a letter, then letters, digits, `+`, `-` and `.`), `://`, and something that is not the start of a path, a query or a
fragment. -/
def Address (s : List Char) : Prop :=
  ∃ (c : Char) (t : List Char) (d : Char) (r : List Char), s = c :: t ++ ':' :: '/' :: '/' :: d :: r ∧ c.isAlpha = true ∧
    (∀ x ∈ t, x.isAlphanum = true ∨ x ∈ ['+', '-', '.']) ∧ d ∉ ['/', '?', '#']

end Verif.Spec.Source
