import Verif.Spec.Streams
import Verif.Lemmas.Reader

/-!
# Lemmas about datasets in streams
-/

namespace Verif.Streams

open Verif Verif.Reader Verif.Spec.Streams

variable {R : Type}

theorem rest_zero (c : Content) : c.rest 0 = c := by cases c <;> rfl

theorem rest_size (c : Content) (p : ℕ) (h : c.size ≤ p) : c.rest p = c.rest c.size := by
  cases c with
  | bytes l => simp only [Content.rest, Content.size] at *; rw [List.drop_eq_nil_of_le h, List.drop_length]
  | chars l => simp only [Content.rest, Content.size] at *; rw [List.drop_eq_nil_of_le h, List.drop_length]

theorem detect_start (L : Lib R) (l : List ℕ) : detect L ⟨.bytes l, 0⟩ = ((encoding L (.bytes l)).getD "", ⟨.bytes l, 0⟩) := rfl

theorem json_start (L : Lib R) (e : Option String) (c d : Content) (h : e = encoding L c) (hd : d = c) :
    ((L.doc e d).isSome || L.enough e d) = decide (IsJson L c) := by
  subst h hd
  rw [Bool.eq_iff_iff, Bool.or_eq_true, decide_eq_true_iff, Option.isSome_iff_exists]
  rfl

/-- Whatever it says, the stream is at its start. -/
theorem jsonMatch_left (L : Lib R) (s : Stream) : (jsonMatch L s).2 = ⟨s.content, 0⟩ := by
  unfold jsonMatch
  split <;> rfl

theorem jsonMatch_start (L : Lib R) (c : Content) : (jsonMatch L ⟨c, 0⟩).1 = decide (IsJson L c) := by
  cases c with
  | bytes l => exact json_start L _ _ _ rfl rfl
  | chars l => exact json_start L _ _ _ rfl rfl

theorem encodingIn_given (o : Opts) : encodingIn o = Spec.Streams.given o := rfl

theorem withEncoding_start (L : Lib R) (c : Content) (o : Opts) :
    withEncoding L ⟨c, 0⟩ o = (encoded L c o, ⟨c, 0⟩) := by
  unfold withEncoding encoded PyDict.has
  cases c with
  | bytes l => cases h : PyDict.get? o "encoding" <;> rfl
  | chars l => cases h : PyDict.get? o "encoding" <;> rfl

theorem csvBody_start (L : Lib R) (c : Content) (o : Opts) :
    csvBody L ⟨c, 0⟩ o = (do let t ← L.front (Spec.Streams.given o) c; L.csv o t, ⟨c, 0⟩) := by
  unfold csvBody Stream.seen Stream.start
  dsimp only
  rw [rest_zero, encodingIn_given]
  cases L.front (Spec.Streams.given o) c <;> rfl

theorem csvMatch_start (L : Lib R) (c : Content) (o : Opts) : csvMatch L ⟨c, 0⟩ o = (csvAnswer L c o, ⟨c, 0⟩) := by
  unfold csvMatch csvAnswer
  rw [jsonMatch_start, jsonMatch_left]
  simp only [parquetMatch, avroMatch, Stream.seen, rest_zero, withEncoding_start, csvBody_start]
  by_cases hj : IsJson L c
  · simp [hj]
  · by_cases hp : L.parquet c = true
    · simp [hj, hp]
    · by_cases ha : L.avro c = true
      · simp [hj, hp, ha]
      · simp [hj, hp, ha]

theorem isMatch_start (L : Lib R) (k : Kind) (c : Content) (o : Opts) : isMatch L k ⟨c, 0⟩ o = (answer L c o k, ⟨c, 0⟩) := by
  cases k with
  | json =>
    dsimp only [isMatch, answer]
    rw [jsonMatch_start, jsonMatch_left]
  | parquet => rfl
  | avro =>
    dsimp only [isMatch, answer, avroMatch, Stream.seen]
    rw [rest_zero]
  | csv => exact csvMatch_start L c o
  | graph =>
    dsimp only [isMatch, answer, graphMatch]
    rw [csvMatch_start]
    cases h : csvAnswer L c o with
    | error e => rfl
    | ok r =>
      obtain ⟨b, o'⟩ := r
      cases b with
      | false => rfl
      | true =>
        dsimp only [Stream.seen, Stream.start]
        rw [rest_zero]
        rfl
  | text =>
    dsimp only [isMatch, answer, textMatch]
    split
    · cases c with
      | bytes l => rfl
      | chars l => rfl
    · rfl

/-- The loop on a stream at its start. -/
theorem pick_start (L : Lib R) (ty : String) (c : Content) (o : Opts) (ks : List Kind) :
    (pick L ty o ks ⟨c, 0⟩).2 = ⟨c, 0⟩ := by
  induction ks with
  | nil => rfl
  | cons k ks ih =>
    rw [pick, isMatch_start]
    split
    · split
      · rename_i h; exact (congrArg Prod.snd h).symm
      · rename_i h; exact (congrArg Prod.snd h).symm
      · rename_i s' h; rw [← show (⟨c, 0⟩ : Stream) = s' from congrArg Prod.snd h]; exact ih
    · exact ih

theorem csvMatch_content (L : Lib R) (s : Stream) (o : Opts) : (csvMatch L s o).2 = ⟨s.content, 0⟩ := by
  unfold csvMatch
  rw [jsonMatch_left]
  split
  · rfl
  · split
    · rfl
    · split
      · rfl
      · rw [withEncoding_start]
        rfl

theorem csvMatch_from (L : Lib R) (s : Stream) (o : Opts) :
    csvMatch L s o = if (jsonMatch L s).1 then (.ok (false, o), ⟨s.content, 0⟩)
      else if L.parquet s.content = true ∨ L.avro s.content = true then (.ok (false, o), ⟨s.content, 0⟩)
      else csvBody L ⟨s.content, 0⟩ (encoded L s.content o) := by
  rw [csvMatch, jsonMatch_left]
  simp only [parquetMatch, avroMatch, Stream.seen, rest_zero, withEncoding_start]
  by_cases hj : (jsonMatch L s).1 = true
  · rw [if_pos hj, if_pos hj]
  · rw [if_neg hj, if_neg hj]
    by_cases hp : L.parquet s.content = true
    · rw [if_pos hp, if_pos (.inl hp)]
    · rw [if_neg hp]
      by_cases ha : L.avro s.content = true
      · rw [if_pos ha, if_pos (.inr ha)]
      · rw [if_neg ha, if_neg (by simp [hp, ha])]

theorem isMatch_content (L : Lib R) (k : Kind) (s : Stream) (o : Opts) :
    (isMatch L k s o).2.content = s.content ∧ ((isMatch L k s o).2.pos = 0 ∨ (isMatch L k s o).2.pos = s.pos) := by
  cases k with
  | json => dsimp only [isMatch]; rw [jsonMatch_left]; exact ⟨rfl, .inl rfl⟩
  | parquet => exact ⟨rfl, .inr rfl⟩
  | avro => exact ⟨rfl, .inr rfl⟩
  | csv => dsimp only [isMatch]; rw [csvMatch_content]; exact ⟨rfl, .inl rfl⟩
  | graph =>
    dsimp only [isMatch, graphMatch]
    have hc := csvMatch_content L s o
    split
    · rename_i h; rw [h] at hc; cases hc; exact ⟨rfl, .inl rfl⟩
    · rename_i h; rw [h] at hc; cases hc; exact ⟨rfl, .inl rfl⟩
    · rename_i h; rw [h] at hc; cases hc; exact ⟨rfl, .inl rfl⟩
  | text =>
    dsimp only [isMatch, textMatch]
    split
    · exact ⟨rfl, .inl rfl⟩
    · exact ⟨rfl, .inr rfl⟩

theorem pick_content (L : Lib R) (ty : String) (o : Opts) (ks : List Kind) (s : Stream) :
    (pick L ty o ks s).2.content = s.content ∧ ((pick L ty o ks s).2.pos = 0 ∨ (pick L ty o ks s).2.pos = s.pos) := by
  induction ks generalizing s with
  | nil => exact ⟨rfl, .inr rfl⟩
  | cons k ks ih =>
    rw [pick]
    split
    · have hm := isMatch_content L k s o
      split
      · rename_i h; rw [h] at hm; exact hm
      · rename_i h; rw [h] at hm; exact hm
      · rename_i s' h
        rw [h] at hm
        obtain ⟨i1, i2⟩ := ih s'
        refine ⟨i1.trans hm.1, ?_⟩
        rcases i2 with i2 | i2
        · exact .inl i2
        · rw [i2]; exact hm.2
    · exact ih s

theorem encodingOf_start (L : Lib R) (c : Content) (o : Opts) : encodingOf L ⟨c, 0⟩ o = (readWith L c o, ⟨c, 0⟩) := by
  unfold encodingOf readWith
  rw [encodingIn_given]
  cases Spec.Streams.given o with
  | none => cases c <;> rfl
  | some e =>
    dsimp only
    by_cases h : e = ""
    · rw [if_pos h, if_pos h]
      cases c <;> rfl
    · rw [if_neg h, if_neg h]

theorem settled_iff (o : Opts) : settled o = true ↔
    (∃ h, PyDict.get? o "header" = some h ∧ h ≠ .str "auto") ∧ ∃ d, PyDict.get? o "delimiter" = some d ∧ truthy d = true := by
  unfold settled headerChecked opt PyDict.getD PyDict.has
  rw [Bool.and_eq_true, Bool.and_eq_true, decide_eq_true_iff]
  cases PyDict.get? o "header" <;> cases PyDict.get? o "delimiter" <;> simp [truthy]

theorem named_some (o : Opts) (l : List String) : named o = some l ↔ PyDict.get? o "column_names" = some (.strs l) := by
  unfold named
  split
  · rename_i l' h
    rw [h]
    constructor
    · intro h'; cases h'; rfl
    · intro h'; cases h'; rfl
  · rename_i h
    exact ⟨fun h' => (by cases h'), fun h' => absurd h' (h l)⟩

/-- The loop over what is said of a file. -/
def scan (a : Kind → Except Err (Bool × Opts)) (ty : String) : List Kind → Except Err (Kind × Opts)
  | [] => .error .valueError
  | k :: ks =>
    if ty = "" ∨ ty = typeName k then
      match a k with
      | .error e => .error e
      | .ok (true, o) => .ok (k, o)
      | .ok (false, _) => scan a ty ks
    else scan a ty ks

theorem pick_scan (L : Lib R) (ty : String) (c : Content) (o : Opts) (ks : List Kind) :
    (pick L ty o ks ⟨c, 0⟩).1 = scan (answer L c o) ty ks := by
  induction ks with
  | nil => rfl
  | cons k ks ih =>
    rw [pick, scan, isMatch_start]
    split
    · cases h : answer L c o k with
      | error e => rfl
      | ok r =>
        obtain ⟨b, r⟩ := r
        cases b with
        | true => rfl
        | false => exact ih
    · exact ih

open Spec.Reader in
/-- What the loop may do with a file. -/
theorem scan_outcome (a : Kind → Except Err (Bool × Opts)) (ty : String) (ks : List Kind) :
    (∃ pre k post r, ks = pre ++ k :: post ∧ Fits ty k ∧ a k = .ok (true, r) ∧
      (∀ k' ∈ pre, Fits ty k' → ∃ o', a k' = .ok (false, o')) ∧ scan a ty ks = .ok (k, r)) ∨
    (∃ pre k post e, ks = pre ++ k :: post ∧ Fits ty k ∧ a k = .error e ∧
      (∀ k' ∈ pre, Fits ty k' → ∃ o', a k' = .ok (false, o')) ∧ scan a ty ks = .error e) ∨
    ((∀ k' ∈ ks, Fits ty k' → ∃ o', a k' = .ok (false, o')) ∧ scan a ty ks = .error .valueError) := by
  induction ks with
  | nil => exact .inr (.inr ⟨by simp, rfl⟩)
  | cons k ks ih =>
    rw [scan]
    by_cases hf : ty = "" ∨ ty = typeName k
    · rw [if_pos hf]
      have hfit := (Reader.fits_iff ty k).2 hf
      cases hm : a k with
      | error e => exact .inr (.inl ⟨[], k, ks, e, rfl, hfit, hm, by simp, rfl⟩)
      | ok r =>
        obtain ⟨b, r⟩ := r
        cases b with
        | true => exact .inl ⟨[], k, ks, r, rfl, hfit, hm, by simp, rfl⟩
        | false =>
          have hk : Fits ty k → ∃ o', a k = .ok (false, o') := fun _ => ⟨r, hm⟩
          rcases ih with ⟨pre, k1, post, r, h1, h2, h3, h4, h5⟩ | ⟨pre, k1, post, e, h1, h2, h3, h4, h5⟩ | ⟨h1, h2⟩
          · exact Or.inl ⟨k :: pre, k1, post, r, by rw [h1]; rfl, h2, h3, by simpa using ⟨hk, h4⟩, h5⟩
          · exact Or.inr (Or.inl ⟨k :: pre, k1, post, e, by rw [h1]; rfl, h2, h3, by simpa using ⟨hk, h4⟩, h5⟩)
          · exact Or.inr (Or.inr ⟨by simpa using ⟨hk, h1⟩, h2⟩)
    · rw [if_neg hf]
      have hk : Fits ty k → ∃ o', a k = .ok (false, o') := fun hf' => absurd ((Reader.fits_iff ty k).1 hf') hf
      rcases ih with ⟨pre, k1, post, r, h1, h2, h3, h4, h5⟩ | ⟨pre, k1, post, e, h1, h2, h3, h4, h5⟩ | ⟨h1, h2⟩
      · exact Or.inl ⟨k :: pre, k1, post, r, by rw [h1]; rfl, h2, h3, by simpa using ⟨hk, h4⟩, h5⟩
      · exact Or.inr (Or.inl ⟨k :: pre, k1, post, e, by rw [h1]; rfl, h2, h3, by simpa using ⟨hk, h4⟩, h5⟩)
      · exact Or.inr (Or.inr ⟨by simpa using ⟨hk, h1⟩, h2⟩)

open Spec.Reader in
theorem scan_classes (a : Kind → Except Err (Bool × Opts)) (ty : String) :
    (∃ k r, Chosen a ty k r ∧ scan a ty classes = .ok (k, r)) ∨
    (∃ k e, Fails a ty k e ∧ scan a ty classes = .error e) ∨
    (Refused a ty ∧ scan a ty classes = .error .valueError) := by
  rcases scan_outcome a ty classes with ⟨pre, k, post, r, h1, h2, h3, h4, h5⟩ | ⟨pre, k, post, e, h1, h2, h3, h4, h5⟩ | ⟨h1, h2⟩
  · exact .inl ⟨k, r, ⟨h2, h3, fun k' hr hf => h4 k' ((Reader.classes_split h1 k').2 hr) hf⟩, h5⟩
  · exact .inr (.inl ⟨k, e, ⟨h2, h3, fun k' hr hf => h4 k' ((Reader.classes_split h1 k').2 hr) hf⟩, h5⟩)
  · exact .inr (.inr ⟨fun k hf => h1 k (Reader.mem_classes k) hf, h2⟩)

theorem jsonMatch_iff (L : Lib R) (c : Content) (p : ℕ) : ((jsonMatch L ⟨c, p⟩).1 = true) ↔ JsonFrom L c p := by
  cases c with
  | bytes l =>
    show ((_ || _) = true) ↔ _
    rw [Bool.or_eq_true, Option.isSome_iff_exists]
    rfl
  | chars l =>
    show ((_ || _) = true) ↔ _
    rw [Bool.or_eq_true, Option.isSome_iff_exists]
    rfl

theorem jsonMatch_same (L : Lib R) (c : Content) (p : ℕ) (h : JsonFrom L c p ↔ IsJson L c) :
    jsonMatch L ⟨c, p⟩ = (decide (IsJson L c), ⟨c, 0⟩) := by
  refine Prod.ext ?_ (jsonMatch_left L _)
  rw [Bool.eq_iff_iff, jsonMatch_iff, decide_eq_true_iff, h]

theorem csvMatch_same (L : Lib R) (c : Content) (p : ℕ) (o : Opts) (h : JsonFrom L c p ↔ IsJson L c) :
    csvMatch L ⟨c, p⟩ o = (csvAnswer L c o, ⟨c, 0⟩) := by
  rw [← csvMatch_start]
  unfold csvMatch
  rw [jsonMatch_same L c p h, jsonMatch_same L c 0 ?_]
  rw [← jsonMatch_iff, jsonMatch_start, decide_eq_true_iff]

theorem isMatch_same (L : Lib R) (k : Kind) (c : Content) (p : ℕ) (o : Opts) (h : JsonFrom L c p ↔ IsJson L c)
    (hk : k = .json ∨ k = .csv ∨ k = .graph) : isMatch L k ⟨c, p⟩ o = (answer L c o k, ⟨c, 0⟩) := by
  rw [← isMatch_start]
  have h0 : JsonFrom L c 0 ↔ IsJson L c := by rw [← jsonMatch_iff, jsonMatch_start, decide_eq_true_iff]
  rcases hk with rfl | rfl | rfl
  · dsimp only [isMatch]; rw [jsonMatch_same L c p h, jsonMatch_same L c 0 h0]
  · dsimp only [isMatch]; rw [csvMatch_same L c p o h, csvMatch_same L c 0 o h0]
  · dsimp only [isMatch, graphMatch]; rw [csvMatch_same L c p o h, csvMatch_same L c 0 o h0]

theorem graphFront_left (L : Lib R) (o : Opts) (e : Option String) (c : Content) : (graphFront L o e ⟨c, 0⟩).2 = ⟨c, 0⟩ := by
  unfold graphFront
  split <;> rfl

theorem graphNames_left (L : Lib R) (o : Opts) (e : Option String) (f : Option (List Char)) (c : Content) :
    (graphNames L o e f ⟨c, 0⟩).2 = ⟨c, 0⟩ := by
  unfold graphNames
  split
  · rfl
  · split <;> rfl

end Verif.Streams
