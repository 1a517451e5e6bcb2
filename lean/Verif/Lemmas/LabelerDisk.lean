import Verif.Spec.LabelerDisk
import Verif.Lemmas.PyDict
import Mathlib.Tactic.SplitIfs

/-!
# Lemmas on values written to disk
-/

namespace Verif.LabelerDisk

open Verif Spec

theorem map_ok {α β : Type} {f : α → β} {x : Except Err α} {y : β} (h : x.map f = .ok y) : ∃ a, x = .ok a ∧ f a = y := by
  cases x with
  | error e => cases h
  | ok a => exact ⟨a, rfl, by injection h⟩

theorem encodeList_cons {v : Val} {t m : List Val} (h : encodeList (v :: t) = .ok m) :
    ∃ w u, m = w :: u ∧ encode v = .ok w ∧ encodeList t = .ok u := by
  rw [encodeList] at h
  cases hv : encode v with
  | error e => rw [hv] at h; cases h
  | ok w =>
    rw [hv] at h
    obtain ⟨u, hu, rfl⟩ := map_ok h
    exact ⟨w, u, rfl, rfl, hu⟩

theorem encodeDict_cons {k : String} {v : Val} {t m : List (String × Val)} (h : encodeDict ((k, v) :: t) = .ok m) :
    ∃ w u, m = (k, w) :: u ∧ encode v = .ok w ∧ encodeDict t = .ok u := by
  rw [encodeDict] at h
  cases hv : encode v with
  | error e => rw [hv] at h; cases h
  | ok w =>
    rw [hv] at h
    obtain ⟨u, hu, rfl⟩ := map_ok h
    exact ⟨w, u, rfl, rfl, hu⟩

theorem encodeList_nil {m : List Val} (h : encodeList [] = .ok m) : m = [] := by
  rw [encodeList] at h; cases h; rfl

theorem encodeDict_nil {m : List (String × Val)} (h : encodeDict [] = .ok m) : m = [] := by
  rw [encodeDict] at h; cases h; rfl

mutual
theorem encode_form : ∀ (v w : Val), encode v = .ok w → form w = form v
  | .none, w, h => by rw [encode] at h; cases h; rfl
  | .bool _, w, h => by rw [encode] at h; cases h; rfl
  | .int _, w, h => by rw [encode] at h; cases h; rfl
  | .float _, w, h => by rw [encode] at h; cases h; rfl
  | .str _, w, h => by rw [encode] at h; cases h; rfl
  | .list l, w, h => by
    rw [encode] at h
    obtain ⟨m, hm, rfl⟩ := map_ok h
    rw [form, form, encodeList_form l m hm]
  | .tuple l, w, h => by
    rw [encode] at h
    obtain ⟨m, hm, rfl⟩ := map_ok h
    rw [form, form, encodeList_form l m hm]
  | .dict d, w, h => by
    rw [encode] at h
    obtain ⟨m, hm, rfl⟩ := map_ok h
    rw [form, form, encodeDict_form d m hm]
  | .array _, w, h => by rw [encode] at h; cases h
  | .pattern _, w, h => by rw [encode] at h; cases h
  | .rng _, w, h => by rw [encode] at h; cases h
theorem encodeList_form : ∀ (l m : List Val), encodeList l = .ok m → formList m = formList l
  | [], m, h => by rw [encodeList_nil h]
  | v :: t, m, h => by
    obtain ⟨w, u, rfl, hv, ht⟩ := encodeList_cons h
    rw [formList, formList, encode_form v w hv, encodeList_form t u ht]
theorem encodeDict_form : ∀ (l m : List (String × Val)), encodeDict l = .ok m → formDict m = formDict l
  | [], m, h => by rw [encodeDict_nil h]
  | (k, v) :: t, m, h => by
    obtain ⟨w, u, rfl, hv, ht⟩ := encodeDict_cons h
    rw [formDict, formDict, encode_form v w hv, encodeDict_form t u ht]
end

mutual
theorem encode_plain : ∀ v : Val, plain v = true ↔ ∃ w, encode v = .ok w
  | .none => by simp [plain, encode]
  | .bool _ => by simp [plain, encode]
  | .int _ => by simp [plain, encode]
  | .float _ => by simp [plain, encode]
  | .str _ => by simp [plain, encode]
  | .list l => by
    rw [plain, encode, encodeList_plain l]
    exact ⟨fun ⟨m, h⟩ => ⟨.list m, by rw [h]; rfl⟩, fun ⟨w, h⟩ => (map_ok h).imp fun _ h => h.1⟩
  | .tuple l => by
    rw [plain, encode, encodeList_plain l]
    exact ⟨fun ⟨m, h⟩ => ⟨.list m, by rw [h]; rfl⟩, fun ⟨w, h⟩ => (map_ok h).imp fun _ h => h.1⟩
  | .dict d => by
    rw [plain, encode, encodeDict_plain d]
    exact ⟨fun ⟨m, h⟩ => ⟨.dict m, by rw [h]; rfl⟩, fun ⟨w, h⟩ => (map_ok h).imp fun _ h => h.1⟩
  | .array _ => by simp [plain, encode]
  | .pattern _ => by simp [plain, encode]
  | .rng _ => by simp [plain, encode]
theorem encodeList_plain : ∀ l : List Val, plainList l = true ↔ ∃ m, encodeList l = .ok m
  | [] => by simp [plainList, encodeList]
  | v :: t => by
    rw [plainList, Bool.and_eq_true, encode_plain v, encodeList_plain t]
    constructor
    · rintro ⟨⟨w, hw⟩, u, hu⟩
      exact ⟨w :: u, by rw [encodeList, hw, hu]; rfl⟩
    · rintro ⟨m, h⟩
      obtain ⟨w, u, rfl, hv, ht⟩ := encodeList_cons h
      exact ⟨⟨w, hv⟩, u, ht⟩
theorem encodeDict_plain : ∀ l : List (String × Val), plainDict l = true ↔ ∃ m, encodeDict l = .ok m
  | [] => by simp [plainDict, encodeDict]
  | (k, v) :: t => by
    rw [plainDict, Bool.and_eq_true, encode_plain v, encodeDict_plain t]
    constructor
    · rintro ⟨⟨w, hw⟩, u, hu⟩
      exact ⟨(k, w) :: u, by rw [encodeDict, hw, hu]; rfl⟩
    · rintro ⟨m, h⟩
      obtain ⟨w, u, rfl, hv, ht⟩ := encodeDict_cons h
      exact ⟨⟨w, hv⟩, u, ht⟩
end

mutual
theorem encode_simple : ∀ (v w : Val), simple v = true → encode v = .ok w → w = v
  | .none, w, _, h => by rw [encode] at h; cases h; rfl
  | .bool _, w, _, h => by rw [encode] at h; cases h; rfl
  | .int _, w, _, h => by rw [encode] at h; cases h; rfl
  | .float _, w, _, h => by rw [encode] at h; cases h; rfl
  | .str _, w, _, h => by rw [encode] at h; cases h; rfl
  | .list l, w, s, h => by
    rw [encode] at h
    obtain ⟨m, hm, rfl⟩ := map_ok h
    rw [simple] at s
    rw [encodeList_simple l m s hm]
  | .tuple l, w, s, h => by rw [simple] at s; cases s
  | .dict d, w, s, h => by
    rw [encode] at h
    obtain ⟨m, hm, rfl⟩ := map_ok h
    rw [simple, Bool.and_eq_true] at s
    rw [encodeDict_simple d m s.2 hm]
  | .array _, w, _, h => by rw [encode] at h; cases h
  | .pattern _, w, _, h => by rw [encode] at h; cases h
  | .rng _, w, _, h => by rw [encode] at h; cases h
theorem encodeList_simple : ∀ (l m : List Val), simpleList l = true → encodeList l = .ok m → m = l
  | [], m, _, h => encodeList_nil h
  | v :: t, m, s, h => by
    obtain ⟨w, u, rfl, hv, ht⟩ := encodeList_cons h
    rw [simpleList, Bool.and_eq_true] at s
    rw [encode_simple v w s.1 hv, encodeList_simple t u s.2 ht]
theorem encodeDict_simple : ∀ (l m : List (String × Val)), simpleDict l = true → encodeDict l = .ok m → m = l
  | [], m, _, h => encodeDict_nil h
  | (k, v) :: t, m, s, h => by
    obtain ⟨w, u, rfl, hv, ht⟩ := encodeDict_cons h
    rw [simpleDict, Bool.and_eq_true] at s
    rw [encode_simple v w s.1 hv, encodeDict_simple t u s.2 ht]
end

mutual
theorem eqv_refl : ∀ v : Val, simple v = true → plain v = true → eqv v v = true
  | .none, _, _ => by simp [eqv]
  | .bool _, _, _ => by simp [eqv]
  | .int _, _, _ => by simp [eqv]
  | .float _, _, _ => by simp [eqv]
  | .str _, _, _ => by simp [eqv]
  | .list l, s, p => by
    rw [simple] at s; rw [plain] at p
    rw [eqv]; exact eqvList_refl l s p
  | .tuple l, s, _ => by rw [simple] at s; cases s
  | .dict d, s, p => by
    rw [simple, Bool.and_eq_true] at s; rw [plain] at p
    rw [eqv, beq_self_eq_true, Bool.true_and]
    exact eqvDict_refl d d (fun k v h => PyDict.get?_of_mem (of_decide_eq_true s.1) h) s.2 p
  | .array l, _, p => by rw [plain] at p; cases p
  | .pattern _, _, p => by rw [plain] at p; cases p
  | .rng _, _, p => by rw [plain] at p; cases p
theorem eqvList_refl : ∀ l : List Val, simpleList l = true → plainList l = true → eqvList l l = true
  | [], _, _ => by rw [eqvList]
  | v :: t, s, p => by
    rw [simpleList, Bool.and_eq_true] at s; rw [plainList, Bool.and_eq_true] at p
    rw [eqvList, eqv_refl v s.1 p.1, eqvList_refl t s.2 p.2]; rfl
theorem eqvDict_refl : ∀ (l b : List (String × Val)), (∀ k v, (k, v) ∈ l → PyDict.get? b k = some v) → simpleDict l = true →
    plainDict l = true → eqvDict l b = true
  | [], _, _, _, _ => by rw [eqvDict]
  | (k, v) :: t, b, hb, s, p => by
    rw [simpleDict, Bool.and_eq_true] at s; rw [plainDict, Bool.and_eq_true] at p
    rw [eqvDict, hb k v (by simp)]
    simp only
    rw [eqv_refl v s.1 p.1, eqvDict_refl t b (fun k v h => hb k v (by simp [h])) s.2 p.2]; rfl
end

theorem encodeDict_keys {d e : Params} (h : encodeDict d = .ok e) : PyDict.keys e = PyDict.keys d := by
  induction d generalizing e with
  | nil => rw [encodeDict_nil h]
  | cons kv t ih =>
    obtain ⟨w, u, rfl, hv, ht⟩ := encodeDict_cons (k := kv.1) (v := kv.2) h
    simp only [PyDict.keys, List.map_cons] at ih ⊢
    rw [ih ht]

theorem encodeDict_some {d e : Params} (h : encodeDict d = .ok e) {k : String} {v : Val} (hk : PyDict.get? d k = some v) :
    ∃ w, encode v = .ok w ∧ PyDict.get? e k = some w := by
  induction d generalizing e with
  | nil => cases hk
  | cons kv t ih =>
    obtain ⟨w, u, rfl, hv, ht⟩ := encodeDict_cons (k := kv.1) (v := kv.2) h
    rw [PyDict.get?] at hk
    rw [PyDict.get?]
    split_ifs at hk ⊢ with hc
    · injection hk with hk
      exact ⟨w, hk ▸ hv, rfl⟩
    · exact ih ht hk

theorem encodeDict_none {d e : Params} (h : encodeDict d = .ok e) {k : String} : PyDict.get? e k = none ↔ PyDict.get? d k = none := by
  rw [PyDict.get?_eq_none_iff, PyDict.get?_eq_none_iff, encodeDict_keys h]

theorem encodeDict_back {d e : Params} (h : encodeDict d = .ok e) {k : String} {w : Val} (hk : PyDict.get? e k = some w) :
    ∃ v, encode v = .ok w ∧ PyDict.get? d k = some v := by
  cases hd : PyDict.get? d k with
  | none => rw [(encodeDict_none h).2 hd] at hk; cases hk
  | some v =>
    obtain ⟨w', hw, he⟩ := encodeDict_some h hd
    rw [he] at hk
    injection hk with hk
    exact ⟨v, hk ▸ hw, rfl⟩

theorem encodeList_mem {l m : List Val} (h : encodeList l = .ok m) : ∀ w ∈ m, ∃ v ∈ l, encode v = .ok w := by
  induction l generalizing m with
  | nil => rw [encodeList_nil h]; simp
  | cons v t ih =>
    obtain ⟨w, u, rfl, hv, ht⟩ := encodeList_cons h
    intro x hx
    rcases List.mem_cons.1 hx with rfl | hx
    · exact ⟨v, by simp, hv⟩
    · obtain ⟨y, hy, e⟩ := ih ht x hx
      exact ⟨y, by simp [hy], e⟩

theorem encodeDict_mem {l m : Params} (h : encodeDict l = .ok m) : ∀ k w, (k, w) ∈ m → ∃ v, (k, v) ∈ l ∧ encode v = .ok w := by
  induction l generalizing m with
  | nil => rw [encodeDict_nil h]; simp
  | cons kv t ih =>
    obtain ⟨w, u, rfl, hv, ht⟩ := encodeDict_cons (k := kv.1) (v := kv.2) h
    intro k x hx
    rcases List.mem_cons.1 hx with hx | hx
    · injection hx with h1 h2
      subst h1 h2
      exact ⟨kv.2, by simp, hv⟩
    · obtain ⟨y, hy, e⟩ := ih ht k x hx
      exact ⟨y, by simp [hy], e⟩

theorem encode_isStr {v w : Val} (h : encode v = .ok w) (hs : v.isStr = true) : w.isStr = true := by
  cases v <;> simp [Val.isStr] at hs
  rw [encode] at h; cases h; rfl

theorem encode_isBool {v w : Val} (h : encode v = .ok w) (hs : v.isBool = true) : w.isBool = true := by
  cases v <;> simp [Val.isBool] at hs
  rw [encode] at h; cases h; rfl

theorem encode_isDict {v w : Val} (h : encode v = .ok w) (hs : v.isDict = true) : w.isDict = true := by
  cases v <;> simp [Val.isDict] at hs
  rw [encode] at h
  obtain ⟨m, -, rfl⟩ := map_ok h
  rfl

theorem encode_num {v w : Val} (h : encode v = .ok w) : w.num? = v.num? := by
  cases v <;> rw [encode] at h <;> first
    | (cases h; rfl)
    | (obtain ⟨m, -, rfl⟩ := map_ok h; rfl)
    | cases h

theorem encode_int {v w : Val} (h : encode v = .ok w) : w.int? = v.int? := by
  cases v <;> rw [encode] at h <;> first
    | (cases h; rfl)
    | (obtain ⟨m, -, rfl⟩ := map_ok h; rfl)
    | cases h

theorem encode_isNone {v w : Val} (h : encode v = .ok w) : w.isNone = v.isNone := by
  cases v <;> rw [encode] at h <;> first
    | (cases h; rfl)
    | (obtain ⟨m, -, rfl⟩ := map_ok h; rfl)
    | cases h

theorem encode_between {v w : Val} (h : encode v = .ok w) (lo : ℚ) (hi : Option ℚ) : w.between lo hi = v.between lo hi := by
  unfold Val.between; rw [encode_num h]

theorem encodeList_isStr {l m : List Val} (h : encodeList l = .ok m) (hs : l.all Val.isStr = true) :
    m.all Val.isStr = true := by
  rw [List.all_eq_true] at hs ⊢
  intro w hw
  obtain ⟨v, hv, e⟩ := encodeList_mem h w hw
  exact encode_isStr e (hs v hv)

theorem encode_charOk {k : String} {v w : Val} (h : encode v = .ok w) (ho : charOk k v = true) : charOk k w = true := by
  unfold charOk at ho ⊢
  by_cases h1 : k = "max_length"
  · rw [if_pos h1] at ho ⊢; rw [encode_int h]; exact ho
  rw [if_neg h1] at ho ⊢
  by_cases h2 : k ∈ ["default_label", "pad_label", "flatten_separator"]
  · rw [if_pos h2] at ho ⊢; exact encode_isStr h ho
  rw [if_neg h2] at ho ⊢
  by_cases h3 : k ∈ ["flatten_split", "word_level_min_percent"]
  · rw [if_pos h3] at ho ⊢; rw [encode_between h]; exact ho
  rw [if_neg h3] at ho ⊢
  by_cases h4 : k ∈ ["is_separate_at_max_len", "use_word_level_argmax", "is_pred_labels"]
  · rw [if_pos h4] at ho ⊢; exact encode_isBool h ho
  rw [if_neg h4] at ho ⊢
  by_cases h5 : k = "output_format"
  · rw [if_pos h5] at ho ⊢
    cases v <;> simp at ho
    rw [encode] at h; cases h
    simpa using ho
  rw [if_neg h5] at ho ⊢
  by_cases h6 : k = "separators"
  · rw [if_pos h6] at ho ⊢
    cases v <;> simp only [Bool.false_eq_true] at ho
    · rw [encode] at h
      obtain ⟨m, hm, rfl⟩ := map_ok h
      exact encodeList_isStr hm ho
    · rw [encode] at h
      obtain ⟨m, hm, rfl⟩ := map_ok h
      exact encodeList_isStr hm ho
  rw [if_neg h6] at ho ⊢
  by_cases h7 : k = "random_state"
  · rw [if_pos h7] at ho ⊢
    cases v <;> simp [Val.isRng] at ho
    rw [encode] at h; cases h
  rw [if_neg h7] at ho ⊢
  by_cases h8 : k = "encoding_map"
  · rw [if_pos h8] at ho ⊢; exact encode_isDict h ho
  rw [if_neg h8]

theorem encode_regexOk {k : String} {v w : Val} (h : encode v = .ok w) (ho : regexOk [] [] k v = true) :
    regexOk [] [] k w = true := by
  unfold regexOk at ho ⊢
  by_cases h1 : k = "aggregation_func"
  · rw [if_pos h1] at ho ⊢
    cases v <;> simp at ho
    rw [encode] at h; cases h
    simpa using ho
  rw [if_neg h1] at ho ⊢
  by_cases h2 : k = "priority_order"
  · rw [if_pos h2] at ho ⊢
    rw [encode_isNone h]
    by_cases hn : v.isNone = true
    · rw [if_pos hn] at ho ⊢; exact ho
    · rw [if_neg hn] at ho ⊢
      cases v <;> simp at ho
      · rw [encode] at h
        obtain ⟨m, hm, rfl⟩ := map_ok h
        rfl
      · rw [encode] at h; cases h
  rw [if_neg h2] at ho ⊢
  by_cases h7 : k = "random_state"
  · rw [if_pos h7] at ho ⊢
    cases v <;> simp [Val.isRng] at ho
    rw [encode] at h; cases h
  rw [if_neg h7] at ho ⊢
  exact ho

theorem encodeList_ints (l : List ℤ) : encodeList (l.map .int) = .ok (l.map .int) := by
  induction l with
  | nil => rw [List.map_nil, encodeList]
  | cons a t ih => rw [List.map_cons, encodeList, encode, ih]; rfl

theorem mapM_ints (l : List ℤ) : (l.map Val.int).mapM Val.int? = some l := by
  induction l with
  | nil => rfl
  | cons a t ih => rw [List.map_cons, List.mapM_cons, ih]; rfl

/-- A generator comes back with its state. -/
theorem asRng_encode {W : Type} (E : Env W) (id : ℕ) (r : Rng) {w : Val} (h : encode (getState (.rng r)) = .ok w) :
    asRng E id w = .rng ⟨id, r.state⟩ := by
  obtain ⟨i, ws, g⟩ := r
  cases g with
  | none =>
    simp only [getState, encode, encodeList, encodeList_ints, Except.map] at h
    cases h
    simp only [asRng, middle, stateOf, mapM_ints, Option.map_some]
  | some q =>
    simp only [getState, encode, encodeList, encodeList_ints, Except.map] at h
    cases h
    simp only [asRng, middle, stateOf, mapM_ints, Option.map_some]

end Verif.LabelerDisk
