import Verif.Model.Unstructured
import Verif.Spec.Shuffle
import Mathlib.Data.List.Perm.Subperm

/-! # What a profile of unstructured text should say -/

namespace Verif.UnstructuredSpec

open Verif.Unstructured
open Verif.Words (Chars Word)

/-- A line is blank if it has no character other than whitespace. -/
def Blank (ch : Chars) (line : String) : Prop := ∀ c ∈ line.toList, ch.isSpace c = true

instance (ch : Chars) (line : String) : Decidable (Blank ch line) := by unfold Blank; infer_instance

/-- The lines of the data. -/
def lines : Data → List String
  | .text s => if s = "" then [] else [s]
  | .list ls => ls
  | .series _ cs => cs.map Prod.snd
  | .frame _ [(_, ls)] => ls
  | _ => []

/-- Data frames are rectangular; the labels of the rows are distinct. -/
def Distinct : Data → Prop
  | .series _ cs => (cs.map Prod.fst).Nodup
  | .frame ix cols => ix.Nodup ∧ ∀ c ∈ cols, c.2.length = ix.length
  | _ => True

/-- The settings of a profile: those of the first one of a merge. -/
def settings : History → Opts
  | .new o => o
  | .update h _ => settings h
  | .merge h _ => settings h

/-- The size of the data by which samples are measured: characters of a text, otherwise lines. -/
def extent : Data → ℕ
  | .text s => s.toList.length
  | d => (lines d).length

/-- The number of samples asked for: as passed, or as set for the profile, or all of at most 5000, or a share of at least
5000. -/
def wanted (o : Opts) (b : Batch) : ℕ :=
  match b.sampleSize, o.perUpdate with
  | 0, 0 => if extent b.data ≤ 5000 then extent b.data else max 5000 (o.ratio * (extent b.data : ℚ)).floor.toNat
  | 0, n => n
  | n, _ => n

/-- The number of lines that are not blank asked for. -/
def wantedTrue (o : Opts) (b : Batch) : ℕ := if 0 < b.minTrue then b.minTrue else o.minTrue

/-- The lines looked at during a history: of each batch some of its lines, each at most once, all of them or enough. -/
inductive Looked (ch : Chars) : History → List String → Prop where
  | new (o : Opts) : Looked ch (.new o) []
  | update {h : History} {b : Batch} {seen ls : List String} (hs : Looked ch h seen) (sub : List.Subperm ls (lines b.data))
      (enough : ls.length = (lines b.data).length ∨
        (wanted (settings h) b ≤ ls.length ∧ wantedTrue (settings h) b ≤ (ls.filter fun l => ¬Blank ch l).length)) :
      Looked ch (.update h b) (seen ++ ls)
  | merge {h1 h2 : History} {as bs : List String} (ha : Looked ch h1 as) (hb : Looked ch h2 bs) :
      Looked ch (.merge h1 h2) (as ++ bs)

/-- All lines of a history. -/
def allLines : History → List String
  | .new _ => []
  | .update h b => allLines h ++ lines b.data
  | .merge h1 h2 => allLines h1 ++ allLines h2

/-- Every batch is sampled in full. -/
def Whole : History → Prop
  | .new _ => True
  | .update h b => Whole h ∧ (lines b.data).length ≤ wanted (settings h) b
  | .merge h1 h2 => Whole h1 ∧ Whole h2

/-- Distinct labels and valid random draws throughout. -/
def Sensible : History → Prop
  | .new _ => True
  | .update h b => Sensible h ∧ Distinct b.data ∧ Shuffle.ValidDraws (lines b.data).length b.draws
  | .merge h1 h2 => Sensible h1 ∧ Sensible h2

/-- The sum of the memory of all batches. -/
def memory (mem : List String → ℚ) : History → ℚ
  | .new _ => 0
  | .update h b => memory mem h + if lines b.data = [] then 0 else mem (lines b.data)
  | .merge h1 h2 => memory mem h1 + memory mem h2

/-- The options of all profiles of a history. -/
def options : History → List Opts
  | .new o => [o]
  | .update h _ => options h
  | .merge h1 h2 => options h1 ++ options h2

/-- No profile of the history ignores case. -/
def CaseSensitive (h : History) : Prop := ∀ o ∈ options h, ∀ t, o.text = some t → t.caseSensitive = true

/-- Some profile of the history stops the word. -/
def Stopped (ch : Chars) (h : History) (w : Word) : Prop := ∃ o ∈ options h, ∃ t, o.text = some t ∧ ch.lower w ∈ t.stop

open scoped Classical in
/-- The number of times a word occurs in lines. -/
noncomputable def occurrences (ch : Chars) (h : History) (ls : List String) (w : Word) : ℕ :=
  (ls.flatMap fun l => Words.split ch.isSpace l.toList).countP fun v =>
    decide ((if CaseSensitive h then v else ch.lower v) = w)

/-- Some line was given, to each side of a merge. -/
def Fed : History → Prop
  | .new _ => False
  | .update h b => Fed h ∨ lines b.data ≠ []
  | .merge h1 h2 => Fed h1 ∧ Fed h2

end Verif.UnstructuredSpec
