import Verif.Props.Reader

/-!
# C70 and C71: what a new reader is

The constructor itself, and arguments that are refused.
-/

namespace Verif.Props.Reader

open Verif Verif.Reader Verif.Spec.Reader

theorem said_opt (o : Opts) (hw : PyDict.WF o) (key : String) (d : V) : Said o key d (opt o key d) := by
  unfold opt PyDict.getD
  cases h : PyDict.get? o key with
  | some v => exact .inl (PyDict.mem_of_get? h)
  | none =>
    refine .inr ⟨fun w hm => ?_, rfl⟩
    rw [PyDict.get?_of_mem hw hm] at h
    cases h

theorem said_unique (o : Opts) (hw : PyDict.WF o) (key : String) (d v w : V) (h1 : Said o key d v) (h2 : Said o key d w) : v = w := by
  rcases h1 with h1 | ⟨h1, rfl⟩
  · rcases h2 with h2 | ⟨h2, rfl⟩
    · have a := PyDict.get?_of_mem hw h1
      rw [PyDict.get?_of_mem hw h2] at a
      cases a
      rfl
    · exact absurd h1 (h2 v)
  · rcases h2 with h2 | ⟨h2, rfl⟩
    · exact absurd h2 (h1 w)
    · rfl

theorem headerChecked_iff (o : Opts) (hw : PyDict.WF o) : headerChecked o = true ↔ HeaderGiven o := by
  unfold headerChecked opt PyDict.getD HeaderGiven
  rw [Bool.and_eq_true, decide_eq_true_eq, PyDict.has_iff, PyDict.mem_keys_iff]
  constructor
  · rintro ⟨⟨v, hv⟩, h2⟩
    rw [hv] at h2
    exact ⟨v, PyDict.mem_of_get? hv, h2⟩
  · rintro ⟨v, hv, hne⟩
    have := PyDict.get?_of_mem hw hv
    rw [this]
    exact ⟨⟨v, rfl⟩, hne⟩

theorem payload_asList (o : Opts) (hw : PyDict.WF o) : PayloadKeys o (asList (opt o "payload_keys" (.strs ["data", "payload"]))) := by
  refine ⟨_, said_opt o hw _ _, ?_, ?_⟩
  · intro s hs
    rw [hs]
    rfl
  · intro h
    cases hv : opt o "payload_keys" (.strs ["data", "payload"]) with
    | str s => exact absurd hv (h s)
    | _ => rfl

theorem configured (k : Kind) (o : Opts) (hw : PyDict.WF o) : Configured o (initFormat k o) (initAttrs k o) k := by
  have h := said_opt o hw
  cases k with
  | text => exact ⟨h _ _, h _ _⟩
  | parquet => exact ⟨h _ _, h _ _, h _ _⟩
  | json => exact ⟨h _ _, payload_asList o hw, h _ _, h _ _, rfl⟩
  | avro => exact ⟨h _ _, payload_asList o hw, h _ _, h _ _, rfl⟩
  | csv => exact ⟨h _ _, h _ _, h _ _, h _ _, h _ _, h _ _, headerChecked_iff o hw, h _ _⟩
  | graph => exact ⟨rfl, h _ _, h _ _, h _ _, h _ _, h _ _, h _ _, h _ _, h _ _, h _ _, headerChecked_iff o hw⟩

/-- C70: a new reader of a file has the settings of its options, and the documented defaults for the rest. -/
theorem C70_settings (L : Lib) (k : Kind) (path : Option Src) (o : Opts) (hw : PyDict.WF o) (x : Obj)
    (h : construct L k path none (some o) = .ok x) :
    Configured o x.format x.attrs k ∧ Said o "encoding" .none x.encoding := by
  unfold construct init at h
  simp only [refused, Option.getD_some, Bool.false_or] at h
  cases ho : optionsOk k o with
  | false => rw [ho] at h; cases h
  | true =>
    rw [ho] at h
    cases h
    exact ⟨configured k o hw, said_opt o hw _ _⟩

example : (construct sample .json (some (.stream 1)) none (some [("payload_keys", .str "p"), ("encoding", .str "latin-1")])).toOption.map
    (fun x => (x.attrs, x.encoding)) = some (.json (.strs ["p"]) (.str ".") (.strs []) none, .str "latin-1") := by decide +kernel

theorem given_iff (src : Option Src) : given src = true ↔ Given src := by
  unfold Given
  cases src with
  | none => simp [given]
  | some s =>
    cases s with
    | path p => simp [given]
    | stream n => simp [given]

/-- C70: which arguments are refused, whatever the dataset. -/
theorem C70_given (L : Lib) (src : Option Src) (data : Option Mem) (ty : String) (o : Opts)
    (h : (¬ Given src ∧ data = none) ∨ (Given src ∧ data ≠ none) ∨ (data ≠ none ∧ ty = "")) :
    factory L src data ty o = (.error .valueError, o) := by
  rw [← given_iff] at h
  apply C70_arguments
  rcases h with ⟨h1, h2⟩ | h | h
  · exact .inl ⟨by simpa using h1, h2⟩
  · exact .inr (.inl h)
  · exact .inr (.inr h)

example : Given (some (.path "a.csv")) ∧ ¬ Given (some (.path "")) ∧ ¬ Given none := by
  rw [← given_iff, ← given_iff, ← given_iff]
  decide

/-- What a reader does with data in memory: `r` are the data and settings it has afterwards. -/
def Takes (L : Lib) (k : Kind) (m : Mem) (a : Attrs) (r : Except Err (Mem × Attrs)) : Prop :=
  match m with
  | .text s => (k = .text ∧ r = .ok (m, a)) ∨ (k = .graph ∧ r = .error .valueError) ∨ (k ≠ .text ∧ k ≠ .graph ∧ r = L.parse k s a)
  | .frame _ => ((k = .text ∨ k = .graph) ∧ r = .error .valueError) ∨ (k ≠ .text ∧ k ≠ .graph ∧ r = .ok (m, a))
  | .graph _ => (k = .graph ∧ r = .ok (m, a)) ∨ (k ≠ .graph ∧ r = .error .valueError)
  | .other _ => r = .error .valueError

theorem truthy_iff (v : V) : truthy v = true ↔ ¬ Unset v := by
  unfold Unset
  cases v with
  | none => simp [truthy]
  | bool b => cases b <;> simp [truthy]
  | int i => simp [truthy]
  | str s => simp [truthy]
  | strs l => simp [truthy]
  | other n => simp [truthy]

theorem orElse_if (v d : V) : OrElse v d (if truthy v = true then v else d) := by
  by_cases h : truthy v = true
  · rw [if_pos h]; exact .inr ⟨(truthy_iff v).1 h, rfl⟩
  · rw [if_neg h]
    refine .inl ⟨?_, rfl⟩
    exact Classical.byContradiction fun hu => h ((truthy_iff v).2 hu)

theorem completed_fill (a : Attrs) : Completed a (fillCsv a) := by
  cases a with
  | csv n d q c h ch r => exact ⟨rfl, orElse_if _ _, orElse_if _ _, rfl, rfl, rfl, rfl⟩
  | _ => rfl

theorem orElse_unique {v d w w' : V} (h1 : OrElse v d w) (h2 : OrElse v d w') : w = w' := by
  rcases h1 with ⟨a, rfl⟩ | ⟨a, rfl⟩ <;> rcases h2 with ⟨b, rfl⟩ | ⟨b, rfl⟩
  · rfl
  · exact absurd a b
  · exact absurd b a
  · rfl

theorem completed_unique {a b b' : Attrs} (h1 : Completed a b) (h2 : Completed a b') : b = b' := by
  cases a with
  | csv n d q c h ch r =>
    cases b with
    | csv =>
      cases b' with
      | csv =>
        obtain ⟨rfl, e1, e2, rfl, rfl, rfl, rfl⟩ := h1
        obtain ⟨rfl, f1, f2, rfl, rfl, rfl, rfl⟩ := h2
        rw [orElse_unique e1 f1, orElse_unique e2 f2]
      | _ => exact h2.elim
    | _ => exact h1.elim
  | _ => exact h1.symm.trans h2

/-- C70: which data in memory a reader takes, and what it is then. Text goes to every reader but that of graphs, frames to those of tables, graphs
to that of graphs; everything else is refused. -/
theorem C70_data (L : Lib) (k : Kind) (path : Option Src) (m : Mem) (o : Opts) (hw : PyDict.WF o) :
    ∃ f a r, Configured o f a k ∧ Takes L k m a r ∧
    (∀ x, construct L k path (some m) (some o) = .ok x ↔
      (k = .csv → LegalCsv o) ∧ ∃ m' a' b, r = .ok (m', a') ∧ (k ≠ .csv → b = a') ∧ (k = .csv → Completed a' b) ∧
        ∃ e, Said o "encoding" .none e ∧ x = ⟨k, path, some o, some m', f, e, b⟩) := by
  have hok : optionsOk k o = true ↔ (k = .csv → LegalCsv o) := by
    rw [← csvOptionsOk_iff o hw]
    cases k <;> simp [optionsOk]
  have htake : ∃ r, Takes L k m (initAttrs k o) r ∧
      ((refused k (some m) = true ∧ r = .error .valueError) ∨ (refused k (some m) = false ∧ r = loadMem L k m (initAttrs k o))) := by
    cases m with
    | text s => refine ⟨_, ?_, .inr ⟨rfl, rfl⟩⟩; cases k <;> simp [Takes, loadMem]
    | frame n => cases k <;> first | (refine ⟨_, ?_, .inl ⟨rfl, rfl⟩⟩; simp [Takes]) | (refine ⟨_, ?_, .inr ⟨rfl, rfl⟩⟩; simp [Takes, loadMem])
    | graph n => cases k <;> first | (refine ⟨_, ?_, .inl ⟨rfl, rfl⟩⟩; simp [Takes]) | (refine ⟨_, ?_, .inr ⟨rfl, rfl⟩⟩; simp [Takes, loadMem])
    | other n => cases k <;> first | (refine ⟨_, ?_, .inl ⟨rfl, rfl⟩⟩; simp [Takes]) | (refine ⟨_, ?_, .inr ⟨rfl, rfl⟩⟩; simp [Takes, loadMem])
  obtain ⟨r, ht, hr⟩ := htake
  refine ⟨initFormat k o, initAttrs k o, r, configured k o hw, ht, ?_⟩
  intro x
  rw [← hok]
  unfold construct init
  simp only [Option.getD_some]
  cases ho : optionsOk k o with
  | false =>
    rw [if_pos (by simp)]
    constructor
    · intro h; cases h
    · rintro ⟨h, -⟩; cases h
  | true =>
    rcases hr with ⟨h1, rfl⟩ | ⟨h1, rfl⟩
    · rw [h1, if_pos (by simp)]
      constructor
      · intro h; cases h
      · rintro ⟨-, m', a', b, h, -⟩; cases h
    · rw [h1, if_neg (by simp)]
      cases hl : loadMem L k m (initAttrs k o) with
      | error e =>
        constructor
        · intro h; cases h
        · rintro ⟨-, m', a', b, h, -⟩; cases h
      | ok p =>
        obtain ⟨m', a'⟩ := p
        constructor
        · intro h
          cases h
          refine ⟨rfl, m', a', if k = .csv then fillCsv a' else a', rfl, fun h => if_neg h, fun h => ?_, _, said_opt o hw _ _, rfl⟩
          rw [if_pos h]
          exact completed_fill a'
        · rintro ⟨-, m2, a2, b, h, hb1, hb2, e, he, rfl⟩
          cases h
          have hbb : b = if k = .csv then fillCsv a' else a' := by
            by_cases hk : k = .csv
            · rw [if_pos hk]; exact completed_unique (hb2 hk) (completed_fill a')
            · rw [if_neg hk]; exact hb1 hk
          have hee := said_unique o hw _ _ _ _ he (said_opt o hw "encoding" .none)
          subst hbb
          subst hee
          rfl

example : (construct sample .csv none (some (.text "a;b")) (some [("quotechar", .str "'")])).toOption.map (·.attrs) =
    some (.csv (.int 1) (.str ",") (.str "'") (.strs []) (.str "auto") false .none) := by decide +kernel

/-- C70: recognising a file as text never says no and leaves the options as they are: the encoding that was found is thrown away, and is looked for
again when the data are read. -/
theorem C70_text_options (L : Lib) (src : Src) (o : Opts) (r : Except Err (Bool × Opts)) (h : isMatch L .text src o = r) :
    r = .ok (true, o) ∨ ∃ e, L.detect src = .error e ∧ r = .error e := by
  subst h
  dsimp only [isMatch, textMatch]
  by_cases hc : (PyDict.has o "encoding" || L.isTextStream src) = true
  · exact .inl (by rw [if_pos hc])
  · rw [if_neg hc]
    cases hd : L.detect src with
    | ok e => exact .inl rfl
    | error e => exact .inr ⟨e, rfl, rfl⟩

example : (isMatch sample .text (.stream 1) [("samples_per_line", .int 3)]).toOption = some (true, [("samples_per_line", .int 3)]) := by
  decide +kernel

/-- C71 fails when the data or options of a reload are refused: the reader has lost its own. -/
theorem C71_rejected_fails (L : Lib) (x : Obj) (src : Option Src) (hs : ¬ Given src) (data : Option Mem) (options : Option Opts)
    (h : (x.kind = .text ∧ ∃ m, data = some m ∧ ∀ s, m ≠ .text s) ∨
      (x.kind = .csv ∧ PyDict.WF (options.getD []) ∧ ∃ c d q b hd ch s, x.attrs = .csv c d q b hd ch s ∧
        ¬ LegalCsv (PyDict.set (PyDict.set (PyDict.set (options.getD []) "header" hd) "delimiter" d) "quotechar" q))) :
    (reload L x src data options).1 = { x with data := none, options := none } ∧
    (reload L x src data options).2.2 = some .valueError := by
  have hg : given src = false := by
    cases hg : given src with
    | false => rfl
    | true => exact absurd ((given_iff src).1 hg) hs
  have noSrc : ∀ o, baseReload L x src o = ({ x with data := none, options := none }, o, none) := by
    intro o
    unfold baseReload
    cases src with
    | none => rfl
    | some s => simp [hg]
  rcases h with ⟨hk, m, rfl, hm⟩ | ⟨hk, hw, c, d, q, b, hd, ch, s, ha, hl⟩
  · have : refused .text (some m) = true := by
      cases m with
      | text s => exact absurd rfl (hm s)
      | _ => rfl
    unfold reload reloadWith
    rw [hk]
    dsimp only
    rw [noSrc]
    dsimp only
    rw [hk]
    unfold init
    rw [this]
    exact ⟨rfl, rfl⟩
  · rw [← csvOptionsOk_iff _ (PyDict.WF_set (PyDict.WF_set (PyDict.WF_set hw _ _) _ _) _ _)] at hl
    have hl' : csvOptionsOk (keepCsv x.attrs (options.getD [])) = false := by
      rw [ha]
      simpa [keepCsv] using hl
    unfold reload reloadWith
    rw [hk]
    dsimp only
    rw [noSrc]
    dsimp only
    rw [hk]
    unfold init
    have ho : optionsOk .csv (keepCsv x.attrs (options.getD [])) = false := hl'
    simp [ho]

example : (reload sample ⟨.text, some (.stream 1), some [], some (.text "a"), .str "text", .none, .text (.int 5)⟩ none (some (.frame 1)) none).1 =
    ⟨.text, some (.stream 1), none, none, .str "text", .none, .text (.int 5)⟩ := by decide +kernel

end Verif.Props.Reader
