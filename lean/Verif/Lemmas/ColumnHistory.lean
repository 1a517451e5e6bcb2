import Verif.Lemmas.ColumnSteps
import Verif.Spec.ColumnSteps

/-! Helper lemmas about histories of column profiles: every step keeps the kinds of attributes. -/

namespace Verif.ColumnJson

open Verif
open Verif.Schema (Key)
open Verif.Spec.ColumnJson

variable {F T L : Type} {lib : Lib F T L}

/-! ### What holds between the steps -/

/-- What steps read. -/
def Extra (s : String) (v : Val F T L) : Prop :=
  (s ∈ ["sample_size", "match_count", "num_zeros", "num_negatives"] → AnInt v) ∧ (s = "_batch_history" → ∃ l, v = .list l) ∧
    (s = "order" → v = .none ∨ ∃ t, v = .str t)

/-- An order of numbers has a first and a last number. -/
def Ordered (a : Dict F T L) : Prop :=
  PyDict.get? a (.str "_data_store_type") = some (.func "float64") →
    ∃ v w, PyDict.get? a (.str "_first_value") = some v ∧ PyDict.get? a (.str "_last_value") = some w ∧ AFloat v ∧ AFloat w

/-- Between the steps. -/
structure Inv (lib : Lib F T L) (c : Cls) (a : Dict F T L) : Prop where
  ok : ColumnOk lib c a
  extra : ∀ s v, (.str s, v) ∈ a → Extra s v
  seen : c = .order → PyDict.get? a (.str "order") = some .none ∨ Ordered a

/-- Profiles that stand for each other. -/
structure Alike (lib : Lib F T L) (a b : Dict F T L) : Prop where
  keys : ∀ k, k ∈ a.map Prod.fst ↔ k ∈ b.map Prod.fst
  same : ∀ k v w, PyDict.get? a k = some v → PyDict.get? b k = some w → Same lib v w

/-- `f` works on profiles, and does the same to profiles that stand for each other. -/
def KeepsAll (lib : Lib F T L) (c : Cls) (f : Dict F T L → Except Err (Dict F T L)) : Prop :=
  ∀ a b, Inv lib c a → Inv lib c b → Alike lib a b →
    ∃ a' b', f a = .ok a' ∧ f b = .ok b' ∧ Inv lib c a' ∧ Inv lib c b' ∧ Alike lib a' b'

theorem KeepsAll.comp {c : Cls} {f g : Dict F T L → Except Err (Dict F T L)} (hf : KeepsAll lib c f) (hg : KeepsAll lib c g) :
    KeepsAll lib c (andThen f g) := by
  intro a b ha hb hs
  obtain ⟨a1, b1, h1, h2, h3, h4, h5⟩ := hf a b ha hb hs
  obtain ⟨a2, b2, g1, g2, g3, g4, g5⟩ := hg a1 b1 h3 h4 h5
  exact ⟨a2, b2, by simp [andThen, h1, g1], by simp [andThen, h2, g2], g3, g4, g5⟩

/-- The attributes an order is read from. -/
def orderNames : List String := ["sample_size", "order", "_first_value", "_last_value", "_data_store_type"]

theorem store_order {c : Cls} {a : Dict F T L} (h : ColumnOk lib c a) (hs : Key.str "_data_store_type" ∈ a.map Prod.fst) : c = .order := by
  obtain ⟨s, hk, hs⟩ := h.only _ hs
  cases hk
  cases c <;> simp [required, possible, required.base, required.numeric] at hs ⊢

/-- The attributes and their kinds, without the order. -/
structure Kinds (lib : Lib F T L) (c : Cls) (a : Dict F T L) : Prop where
  nodup : (a.map Prod.fst).Nodup
  has : ∀ s ∈ required c, .str s ∈ a.map Prod.fst
  only : ∀ k ∈ a.map Prod.fst, ∃ s, k = .str s ∧ (s ∈ required c ∨ s ∈ possible c)
  fits : ∀ s v, (.str s, v) ∈ a → Fits lib c s v
  extra : ∀ s v, (.str s, v) ∈ a → Extra s v

theorem Inv.kinds {c : Cls} {a : Dict F T L} (h : Inv lib c a) : Kinds lib c a := ⟨h.ok.nodup, h.ok.has, h.ok.only, h.ok.fits, h.extra⟩

theorem kinds_set {c : Cls} {a : Dict F T L} (h : Kinds lib c a) {s : String} {v : Val F T L} (hs : s ∈ required c ∨ s ∈ possible c)
    (hf : Fits lib c s v) (he : Extra s v) : Kinds lib c (PyDict.set a (.str s) v) := by
  refine ⟨PyDict.WF_set h.nodup _ _, fun t ht => (keys_set_mem a _ _ v).2 (.inr (h.has t ht)), ?_, ?_, ?_⟩
  · intro k hk
    rcases (keys_set_mem a _ k v).1 hk with rfl | hk
    · exact ⟨s, rfl, hs⟩
    · exact h.only k hk
  · intro t w hw
    rcases mem_set h.nodup hw with ⟨hk, rfl⟩ | ⟨_, hw⟩
    · cases hk; exact hf
    · exact h.fits t w hw
  · intro t w hw
    rcases mem_set h.nodup hw with ⟨hk, rfl⟩ | ⟨_, hw⟩
    · cases hk; exact he
    · exact h.extra t w hw

/-- An order with numbers is in order. -/
theorem Kinds.inv {c : Cls} {a : Dict F T L} (h : Kinds lib c a) (ho : c = .order → Ordered a) : Inv lib c a := by
  have hc : ∀ hm : Key.str "_data_store_type" ∈ a.map Prod.fst, c = .order := by
    intro hm
    obtain ⟨s, hk, hs⟩ := h.only _ hm
    cases hk
    cases c <;> simp [required, possible, required.base, required.numeric] at hs ⊢
  refine ⟨⟨h.nodup, h.has, h.only, h.fits, ?_⟩, h.extra, fun hc => .inr (ho hc)⟩
  intro hm
  obtain ⟨v, w, h1, h2, h3⟩ := ho (hc (List.mem_map_of_mem (f := Prod.fst) hm)) (PyDict.get?_of_mem h.nodup hm)
  exact .inr ⟨v, w, PyDict.mem_of_get? h1, PyDict.mem_of_get? h2, h3⟩

theorem inv_set {c : Cls} {a : Dict F T L} (h : Inv lib c a) {s : String} {v : Val F T L} (hs : s ∈ required c ∨ s ∈ possible c)
    (hf : Fits lib c s v) (he : Extra s v) (ho : c = .order → s ∉ orderNames) : Inv lib c (PyDict.set a (.str s) v) := by
  have hk := kinds_set h.kinds hs hf he
  by_cases hc : c = .order
  · have hn := ho hc
    have get : ∀ t ∈ orderNames, PyDict.get? (PyDict.set a (.str s) v) (.str t) = PyDict.get? a (.str t) := by
      intro t ht
      rw [PyDict.get?_set, if_neg]
      intro h'; cases h'; exact hn ht
    refine ⟨⟨hk.nodup, hk.has, hk.only, hk.fits, ?_⟩, hk.extra, fun _ => ?_⟩
    · intro hm
      have hm' := PyDict.get?_of_mem hk.nodup hm
      rw [get _ (by simp [orderNames])] at hm'
      rcases h.ok.order (PyDict.mem_of_get? hm') with h0 | ⟨v, w, h1, h2, h3⟩
      · exact .inl (PyDict.mem_of_get? (by rw [get _ (by simp [orderNames])]; exact PyDict.get?_of_mem h.ok.nodup h0))
      · exact .inr ⟨v, w, PyDict.mem_of_get? (by rw [get _ (by simp [orderNames])]; exact PyDict.get?_of_mem h.ok.nodup h1),
          PyDict.mem_of_get? (by rw [get _ (by simp [orderNames])]; exact PyDict.get?_of_mem h.ok.nodup h2), h3⟩
    · unfold Ordered
      rw [get _ (by simp [orderNames]), get _ (by simp [orderNames]), get _ (by simp [orderNames]), get _ (by simp [orderNames])]
      exact h.seen hc
  · exact hk.inv fun h => absurd h hc

theorem alike_set {a b : Dict F T L} (h : Alike lib a b) (k : Key) {v w : Val F T L} (hv : Same lib v w) :
    Alike lib (PyDict.set a k v) (PyDict.set b k w) := by
  refine ⟨fun k' => by rw [keys_set_mem, keys_set_mem, h.keys k'], fun k' v' w' hv' hw' => ?_⟩
  rw [PyDict.get?_set] at hv' hw'
  split_ifs at hv' hw' with hk
  · cases hv'; cases hw'; exact hv
  · exact h.same k' v' w' hv' hw'

theorem keeps_set {c : Cls} {s : String} {v : Val F T L} (hs : s ∈ required c ∨ s ∈ possible c)
    (hf : Fits lib c s v) (he : Extra s v) (ho : c = .order → s ∉ orderNames) : KeepsAll lib c (setAttr s v) := fun _ _ ha hb hab =>
  ⟨_, _, rfl, rfl, inv_set ha hs hf he ho, inv_set hb hs hf he ho, alike_set hab _ (fits_refl hf)⟩

theorem get_required {c : Cls} {a : Dict F T L} (h : Inv lib c a) {s : String} (hs : s ∈ required c) :
    ∃ v, PyDict.get? a (.str s) = some v ∧ Fits lib c s v ∧ Extra s v := by
  obtain ⟨v, hv⟩ := (PyDict.mem_keys_iff a (.str s)).1 (h.ok.has s hs)
  exact ⟨v, hv, h.ok.fits s v (PyDict.mem_of_get? hv), h.extra s v (PyDict.mem_of_get? hv)⟩

theorem keeps_on {c : Cls} {s : String} {K : Val F T L → Prop} {f : Val F T L → Except Err (Val F T L)} (hs : s ∈ required c)
    (hK : ∀ v, Fits lib c s v ∧ Extra s v ↔ K v) (hf : Keeps lib K f) (ho : c = .order → s ∉ orderNames) :
    KeepsAll lib c (onAttr f (.str s)) := by
  intro a b ha hb hab
  obtain ⟨v, hv, fv, ev⟩ := get_required ha hs
  obtain ⟨w, hw, fw, ew⟩ := get_required hb hs
  obtain ⟨v', w', h1, h2, h3, h4, h5⟩ := hf v w ((hK v).1 ⟨fv, ev⟩) ((hK w).1 ⟨fw, ew⟩) (hab.same _ v w hv hw)
  obtain ⟨f3, e3⟩ := (hK v').2 h3
  obtain ⟨f4, e4⟩ := (hK w').2 h4
  exact ⟨_, _, by simp [onAttr, attr, hv, h1, Except.map], by simp [onAttr, attr, hw, h2, Except.map],
    inv_set ha (.inl hs) f3 e3 ho, inv_set hb (.inl hs) f4 e4 ho, alike_set hab _ h5⟩

/-! ### Kinds of the attributes -/

theorem extra_of {s : String} {v : Val F T L}
    (h : s ∉ ["sample_size", "match_count", "num_zeros", "num_negatives", "_batch_history", "order"]) : Extra s v := by
  simp only [List.mem_cons, List.not_mem_nil, or_false, not_or] at h
  exact ⟨fun hs => by simp at hs; tauto, fun hs => by tauto, fun hs => by tauto⟩

theorem num_plain (x : Num F) : Plain (x.val : Val F T L) := by
  cases x
  · exact .num (x := .inl _) rfl
  · exact .num (x := .inr _) rfl
  · exact .num (x := .inl _) rfl
  · exact .num (x := .inr _) rfl

theorem scalar_plain (x : Scalar F) : Plain (x.val : Val F T L) := by
  cases x
  · exact .none
  · exact .bool _
  · exact .str _
  · exact num_plain _

theorem strDict {α : Type} (l : List α) (k : α → String) (v : α → Val F T L) (P : Val F T L → Prop) (hv : ∀ x, P (v x)) :
    StrKeys (fromPairs (l.map fun x => (Key.str (k x), v x))) ∧ ∀ k' w, (k', w) ∈ fromPairs (l.map fun x => (Key.str (k x), v x)) → P w := by
  refine ⟨⟨fromPairs_nodup' _, fun k' hk => ?_⟩, fun k' w hw => ?_⟩
  · obtain ⟨⟨a, b⟩, hx, rfl⟩ := List.mem_map.1 hk
    obtain ⟨y, _, hy⟩ := List.mem_map.1 (mem_fromPairs hx)
    cases hy; exact ⟨_, rfl⟩
  · obtain ⟨y, _, hy⟩ := List.mem_map.1 (mem_fromPairs hw)
    cases hy; exact hv y

theorem numbers_plain (l : List (String × Num F)) : Plain (numbers l : Val F T L) := by
  obtain ⟨h1, h2⟩ := strDict (T := T) (L := L) l (fun x => x.1) (fun x => x.2.val) Plain fun x => num_plain x.2
  exact .dict h1 h2

theorem counts_plain (l : List (String × ℤ)) : PlainDict (counts l : List (Key × Val F T L)) :=
  strDict l (fun x => x.1) (fun x => .int x.2) Plain fun x => .num (x := .inl x.2) rfl

theorem texts_plain (l : List String) : Plain (texts l : Val F T L) := .list fun v hv => by
  obtain ⟨s, _, rfl⟩ := List.mem_map.1 hv; exact .str s

theorem numArray_ok (l : List (Num F)) : OptArray (numArray l : Val F T L) := .inr ⟨_, rfl, .list fun v hv => by
  obtain ⟨s, _, rfl⟩ := List.mem_map.1 hv; exact num_plain s⟩

theorem bars_ok (b : Bars F) : OptArray ((barVals b).1 : Val F T L) ∧ OptArray ((barVals b).2 : Val F T L) := by
  cases b with
  | none => exact ⟨.inl rfl, .inl rfl⟩
  | some x => exact ⟨numArray_ok _, numArray_ok _⟩

theorem keeps_putBars (b : Bars F) : Keeps lib Histogram (putBars (T := T) (L := L) b) :=
  good_inHist ((good_bins _ (bars_ok b).1).comp (good_bins _ (bars_ok b).2))

theorem npFloat_ok (f : F) : OptFloat (.npFloat f : Val F T L) := .inr ⟨f, .inr rfl⟩

theorem keeps_loss {s : String} (hs : s ≠ "histogram") (f : F) : Keeps lib Histogram (putItem (T := T) (L := L) s (.npFloat f)) :=
  good_hist (fun _ => optFloat_plain (npFloat_ok f)) (fun h => absurd h hs) fun _ => npFloat_ok f

theorem keeps_losses (x y : F) : Keeps lib Histogram (putLosses (T := T) (L := L) x y) :=
  (keeps_loss (by decide) x).comp (keeps_loss (by decide) y)

theorem freshHist_ok : Histogram (freshHist lib) := by
  refine ⟨_, rfl, ⟨by simp, by simp⟩, ?_, ⟨.npFloat (lib.ofRat 0), by simp, .inr ⟨_, .inr rfl⟩⟩,
    ⟨.npFloat (lib.ofRat 0), by simp, .inr ⟨_, .inr rfl⟩⟩, _, by simp; rfl, _, rfl, ⟨by simp, by simp⟩, ?_⟩
  · intro k w hw hk
    simp only [List.mem_cons, Prod.mk.injEq, List.not_mem_nil, or_false] at hw
    rcases hw with ⟨rfl, rfl⟩ | ⟨rfl, rfl⟩ | ⟨rfl, rfl⟩ | ⟨rfl, rfl⟩
    · exact .num rfl
    · exact .num rfl
    · exact .num rfl
    · exact absurd rfl hk
  · intro k w hw
    simp only [List.mem_cons, Prod.mk.injEq, List.not_mem_nil, or_false] at hw
    rcases hw with ⟨rfl, rfl⟩ | ⟨rfl, rfl⟩ <;> exact .inl rfl

/-! ### Steps -/

theorem plain_set {c : Cls} {s : String} {v : Val F T L} (hs : s ∈ required c ∨ s ∈ possible c) (hp : plainName c s = true) (hv : Plain v)
    (he : s ∉ ["sample_size", "match_count", "num_zeros", "num_negatives", "_batch_history", "order"])
    (ho : c = .order → s ∉ orderNames) : KeepsAll lib c (setAttr s v) :=
  keeps_set hs ((fits_plain v hp).2 hv) (extra_of he) ho

theorem keeps_int {c : Cls} {s : String} (hs : s ∈ required c) (h4 : s ∈ ["sample_size", "match_count", "num_zeros", "num_negatives"])
    (ho : c = .order → s ∉ orderNames) (n : ℤ) : KeepsAll lib c (onAttr (addInt n) (.str s)) := by
  have key : ∀ v : Val F T L, (∃ z, v = .int z ∨ v = .npInt z) → Fits lib c s v ∧ Extra s v := by
    rintro v ⟨z, hz⟩
    have hn : number v = some (.inl z) := by rcases hz with rfl | rfl <;> rfl
    have hp : Plain v := .num hn
    have hi : OptInt v := .inr ⟨z, hz⟩
    refine ⟨?_, fun _ => ⟨z, hn⟩, ?_, ?_⟩
    · simp only [List.mem_cons, List.not_mem_nil, or_false] at h4
      rcases h4 with rfl | rfl | rfl | rfl
      · simpa [Fits] using hp
      · simpa [Fits] using hp
      · simpa [Fits] using hi
      · simpa [Fits] using hi
    · rintro rfl; simp at h4
    · rintro rfl; simp at h4
  exact keeps_on hs (fun v => Iff.rfl) (keeps_addInt (fun v h => h.2.1 h4) (fun z => key _ ⟨z, .inl rfl⟩) (fun z => key _ ⟨z, .inr rfl⟩) n) ho

theorem size_required (c : Cls) : "sample_size" ∈ required c ∧ "metadata" ∈ required c ∧ "times" ∈ required c := by
  cases c <;> decide +kernel

theorem keeps_size {c : Cls} (hc : c ≠ .order) (n : ℤ) (rest : List (String × Num F)) :
    KeepsAll lib c (putSize (T := T) (L := L) n rest) :=
  (keeps_int (size_required c).1 (by simp) (fun h => absurd h hc) n).comp
    (plain_set (.inl (size_required c).2.1) (by cases c <;> decide +kernel) (numbers_plain rest) (by decide +kernel) (fun h => absurd h hc))

/-! ### The order -/

theorem get_kinds {c : Cls} {a : Dict F T L} (h : Kinds lib c a) {s : String} (hs : s ∈ required c) :
    ∃ v, PyDict.get? a (.str s) = some v ∧ Extra s v := by
  obtain ⟨v, hv⟩ := (PyDict.mem_keys_iff a (.str s)).1 (h.has s hs)
  exact ⟨v, hv, h.extra s v (PyDict.mem_of_get? hv)⟩

theorem ordered_set {a : Dict F T L} (h : Ordered a) {s : String} {v : Val F T L}
    (hs : s ∉ ["_first_value", "_last_value", "_data_store_type"]) : Ordered (PyDict.set a (.str s) v) := by
  have get : ∀ t ∈ ["_first_value", "_last_value", "_data_store_type"],
      PyDict.get? (PyDict.set a (.str s) v) (.str t) = PyDict.get? a (.str t) := by
    intro t ht
    rw [PyDict.get?_set, if_neg]
    intro h'; cases h'; exact hs ht
  unfold Ordered
  rw [get _ (by simp), get _ (by simp), get _ (by simp)]
  exact h

theorem size_order {a b : Dict F T L} (ha : Kinds lib .order a) (hb : Kinds lib .order b) (oa : Ordered a) (ob : Ordered b)
    (hab : Alike lib a b) (n : ℤ) (rest : List (String × Num F)) :
    ∃ a' b', putSize n rest a = .ok a' ∧ putSize n rest b = .ok b' ∧ Inv lib .order a' ∧ Inv lib .order b' ∧ Alike lib a' b' := by
  obtain ⟨v, hv, ev⟩ := get_kinds ha (size_required .order).1
  obtain ⟨w, hw, ew⟩ := get_kinds hb (size_required .order).1
  obtain ⟨v', w', h1, h2, h3, h4, h5⟩ := keeps_addInt (K := AnInt) (fun _ h => h) (fun z => ⟨z, rfl⟩)
    (fun z => ⟨z, rfl⟩) n v w (ev.1 (by simp)) (ew.1 (by simp)) (hab.same _ v w hv hw)
  have key : ∀ {a : Dict F T L} {v'}, Kinds lib .order a → Ordered a → AnInt v' →
      Inv lib .order (PyDict.set (PyDict.set a (.str "sample_size") v') (.str "metadata") (numbers rest)) := by
    intro a v' ha oa hv
    refine (kinds_set (kinds_set ha (.inl (size_required .order).1) ?_ ?_) (.inl (size_required .order).2.1) ?_ (extra_of (by decide +kernel))).inv
      fun _ => ordered_set (ordered_set oa (by decide +kernel)) (by decide +kernel)
    · obtain ⟨z, hz⟩ := hv
      have hp : Plain v' := .num hz
      simpa [Fits] using hp
    · exact ⟨fun _ => hv, by simp, by simp⟩
    · simpa [Fits] using numbers_plain rest
  exact ⟨_, _, by simp [putSize, andThen, onAttr, attr, hv, h1, Except.map, setAttr],
    by simp [putSize, andThen, onAttr, attr, hw, h2, Except.map, setAttr], key ha oa h3, key hb ob h4,
    alike_set (alike_set hab _ h5) _ (plain_refl (numbers_plain rest))⟩

/-- The profile after `_update_order`. -/
def orderSet (o : String) (ends : Ends F) (piecewise : Bool) (a : Dict F T L) : Dict F T L :=
  PyDict.set (PyDict.set (PyDict.set (PyDict.set (PyDict.set a (.str "order") (.str o)) (.str "_first_value") ends.vals.1)
    (.str "_last_value") ends.vals.2.1) (.str "_piecewise") (.bool piecewise)) (.str "_data_store_type") ends.vals.2.2

theorem ends_plain (ends : Ends F) : Plain (ends.vals.1 : Val F T L) ∧ Plain (ends.vals.2.1 : Val F T L) ∧
    StoreType (ends.vals.2.2 : Val F T L) := by
  cases ends with
  | texts s t => exact ⟨.str _, .str _, .inl rfl⟩
  | numbers x y => exact ⟨.num (x := .inr x) rfl, .num (x := .inr y) rfl, .inr rfl⟩

theorem orderSet_ok {o : String} {ends : Ends F} {piecewise : Bool} {a : Dict F T L} (ha : Kinds lib .order a) :
    Kinds lib .order (orderSet o ends piecewise a) ∧ Ordered (orderSet o ends piecewise a) := by
  obtain ⟨h1, h2, h3⟩ := ends_plain (T := T) (L := L) ends
  constructor
  · refine kinds_set (kinds_set (kinds_set (kinds_set (kinds_set ha (.inl (by decide +kernel)) ?_ ⟨by simp, by simp, fun _ => .inr ⟨_, rfl⟩⟩)
      (.inl (by decide +kernel)) ?_ (extra_of (by decide +kernel))) (.inl (by decide +kernel)) ?_ (extra_of (by decide +kernel)))
      (.inl (by decide +kernel)) ?_ (extra_of (by decide +kernel))) (.inl (by decide +kernel)) ?_ (extra_of (by decide +kernel))
    · simpa [Fits] using Plain.str o
    · simpa [Fits] using h1
    · simpa [Fits] using h2
    · simpa [Fits] using Plain.bool piecewise
    · simpa [Fits] using h3
  · intro h
    cases ends with
    | texts s t => simp [orderSet, PyDict.get?_set, Ends.vals] at h
    | numbers x y =>
      exact ⟨.npFloat x, .npFloat y, by simp [orderSet, PyDict.get?_set, Ends.vals], by simp [orderSet, PyDict.get?_set, Ends.vals],
        ⟨x, .inr rfl⟩, ⟨y, .inr rfl⟩⟩

theorem orderSet_alike {o : String} {ends : Ends F} {piecewise : Bool} {a b : Dict F T L} (h : Alike lib a b) :
    Alike lib (orderSet o ends piecewise a) (orderSet o ends piecewise b) := by
  obtain ⟨h1, h2, h3⟩ := ends_plain (T := T) (L := L) ends
  refine alike_set (alike_set (alike_set (alike_set (alike_set h _ (.str o)) _ (plain_refl h1)) _ (plain_refl h2)) _ (.bool _)) _ ?_
  rcases h3 with h3 | h3 <;> rw [h3] <;> exact .func _

theorem keeps_order (o : String) (ends : Ends F) (piecewise : Bool) (n : ℤ) (rest : List (String × Num F)) :
    KeepsAll lib .order (andThen (putOrder (T := T) (L := L) o ends piecewise) (putSize n rest)) := by
  intro a b ha hb hab
  obtain ⟨v, hv, _, ev⟩ := get_required ha (s := "order") (by decide +kernel)
  obtain ⟨w, hw, _, ew⟩ := get_required hb (s := "order") (by decide +kernel)
  have hs := hab.same _ v w hv hw
  have put : ∀ {a : Dict F T L} {v}, PyDict.get? a (.str "order") = some v → (v = .none ∨ ∃ t, v = .str t) → v ≠ .str "random" →
      putOrder o ends piecewise a = .ok (orderSet o ends piecewise a) := by
    intro a v hv hv' hr
    unfold putOrder
    rw [hv]
    rcases hv' with rfl | ⟨t, rfl⟩
    · rfl
    · by_cases ht : t = "random"
      · exact absurd (by rw [ht]) hr
      · simp only [ht]
        rfl
  have random : ∀ {a : Dict F T L}, PyDict.get? a (.str "order") = some (.str "random") → putOrder o ends piecewise a = .ok a := by
    intro a hv
    unfold putOrder
    rw [hv]
    rfl
  have hvw : v = w := by
    rcases ev.2.2 rfl with rfl | ⟨t, rfl⟩
    · cases hs with
      | none => rfl
      | num h => simp [number] at h
      | time h => simp [moment] at h
    · cases hs with
      | str => rfl
      | num h => simp [number] at h
      | time h => simp [moment] at h
  subst hvw
  by_cases hr : v = .str "random"
  · subst hr
    have oa : Ordered a := by
      rcases ha.seen rfl with h | h
      · rw [hv] at h; cases h
      · exact h
    have ob : Ordered b := by
      rcases hb.seen rfl with h | h
      · rw [hw] at h; cases h
      · exact h
    obtain ⟨a', b', h1, h2, h3⟩ := size_order ha.kinds hb.kinds oa ob hab n rest
    exact ⟨a', b', by simp [andThen, random hv, h1], by simp [andThen, random hw, h2], h3⟩
  · obtain ⟨k1, o1⟩ := orderSet_ok (o := o) (ends := ends) (piecewise := piecewise) ha.kinds
    obtain ⟨k2, o2⟩ := orderSet_ok (o := o) (ends := ends) (piecewise := piecewise) hb.kinds
    obtain ⟨a', b', h1, h2, h3⟩ := size_order k1 k2 o1 o2 (orderSet_alike hab) n rest
    exact ⟨a', b', by simp [andThen, put hv (ev.2.2 rfl) hr, h1], by simp [andThen, put hw (ev.2.2 rfl) hr, h2], h3⟩

/-! ### Every step -/

theorem keeps_ok (c : Cls) : KeepsAll lib c (.ok : Dict F T L → Except Err (Dict F T L)) := fun a b ha hb hab => ⟨a, b, rfl, rfl, ha, hb, hab⟩

theorem keeps_step {c : Cls} {s : Step F T} (h : StepOk lib c s) : KeepsAll lib c (step lib s) := by
  obtain ⟨h, hd⟩ := h
  have notOrder : c.numeric = true → c ≠ .order := by cases c <;> simp [Cls.numeric]
  cases s with
  | time what t =>
    refine keeps_on (K := Times) (size_required c).2.2 (fun v => ⟨fun h => by simpa [Fits] using h.1, fun h => ⟨by simpa [Fits] using h, extra_of (by decide +kernel)⟩⟩)
      (good_times what (.num (x := .inr t) rfl)) (fun _ => by decide +kernel)
  | size n rest =>
    simp only [Step.of, bne_iff_ne, ne_eq] at h
    exact keeps_size h n rest
  | hits n =>
    simp only [Step.of] at h
    refine keeps_int ?_ (by simp) (fun _ => by decide +kernel) n
    revert h; cases c <;> decide +kernel
  | setting k v =>
    simp only [Step.of, List.contains_iff_mem] at h
    have key : ∀ c : Cls, ∀ k ∈ c.settings, k ∈ required c ∧ plainName c k = true ∧
        k ∉ ["sample_size", "match_count", "num_zeros", "num_negatives", "_batch_history", "order"] ∧ k ∉ orderNames := by
      intro c; cases c <;> decide +kernel
    obtain ⟨h1, h2, h3, h4⟩ := key c k h
    exact plain_set (.inl h1) h2 (scalar_plain v) h3 fun _ => h4
  | disable k what =>
    simp only [Step.of, List.contains_iff_mem] at h
    have key : ∀ c : Cls, ∀ k ∈ c.calculations, k ∈ required c ∧ k ∈ calcNames ∧ k ≠ "times" ∧
        k ∉ ["sample_size", "match_count", "num_zeros", "num_negatives", "_batch_history", "order"] ∧ k ∉ orderNames := by
      intro c; cases c <;> decide +kernel
    obtain ⟨h1, h2, h3, h4, h5⟩ := key c k h
    have hfit : ∀ v : Val F T L, Fits lib c k v ↔ Calculations (methods c) v := by
      intro v; unfold Fits; rw [if_neg h3, if_pos (by exact h2)]
    exact keeps_on (K := Calculations (methods c)) h1 (fun v => ⟨fun h => (hfit v).1 h.1, fun h => ⟨(hfit v).2 h, extra_of h4⟩⟩)
      (good_calculations what) fun _ => h5
  | stat k numpy f =>
    simp only [Step.of, Bool.and_eq_true, List.contains_iff_mem] at h
    have ho : OptFloat (floatVal numpy f : Val F T L) := by unfold floatVal; split_ifs <;> [exact .inr ⟨f, .inr rfl⟩; exact .inr ⟨f, .inl rfl⟩]
    have hf : AFloat (floatVal numpy f : Val F T L) := by unfold floatVal; split_ifs <;> [exact ⟨f, .inr rfl⟩; exact ⟨f, .inl rfl⟩]
    have hr : k ∈ required c ∧ k ∉ ["sample_size", "match_count", "num_zeros", "num_negatives", "_batch_history", "order"] := by
      have key : ∀ c : Cls, c.numeric = true → ∀ k ∈ ["min", "max", "sum", "_biased_variance", "_biased_skewness", "_biased_kurtosis"],
          k ∈ required c ∧ k ∉ ["sample_size", "match_count", "num_zeros", "num_negatives", "_batch_history", "order"] := by
        intro c; cases c <;> decide +kernel
      exact key c h.1 k h.2
    have hc : c ≠ .datetime := by rintro rfl; simp [Cls.numeric] at h
    refine keeps_set (.inl hr.1) ?_ (extra_of hr.2) fun hc => absurd hc (notOrder h.1)
    have h2 := h.2
    simp only [List.mem_cons, List.not_mem_nil, or_false] at h2
    rcases h2 with rfl | rfl | rfl | rfl | rfl | rfl
    · simpa [Fits, hc] using ho
    · simpa [Fits, hc] using ho
    · simpa [Fits, hc] using ho
    · simpa [Fits] using hf
    · simpa [Fits] using hf
    · simpa [Fits] using hf
  | counter k n =>
    simp only [Step.of, Bool.and_eq_true, List.contains_iff_mem] at h
    have key : ∀ c : Cls, c.numeric = true → ∀ k ∈ ["num_zeros", "num_negatives"],
        k ∈ required c ∧ k ∈ ["sample_size", "match_count", "num_zeros", "num_negatives"] := by
      intro c; cases c <;> decide +kernel
    exact keeps_int (key c h.1 k h.2).1 (key c h.1 k h.2).2 (fun hc => absurd hc (notOrder h.1)) n
  | batch props =>
    simp only [Step.of] at h
    have hr : "_batch_history" ∈ required c := by revert h; cases c <;> decide +kernel
    refine keeps_on (K := PlainList) hr (fun v => ⟨fun h => ?_, ?_⟩) (good_push (numbers_plain props)) fun hc => absurd hc (notOrder h)
    · obtain ⟨l, rfl⟩ := h.2.2.1 rfl
      exact ⟨l, rfl, by simpa [Fits] using h.1⟩
    · rintro ⟨l, rfl, hl⟩
      exact ⟨by simpa [Fits] using hl, by simp, fun _ => ⟨l, rfl⟩, by simp⟩
  | bars stored each suggested loss total =>
    simp only [Step.of] at h
    have hr : "histogram_methods" ∈ required c ∧ "_stored_histogram" ∈ required c := by revert h; cases c <;> decide +kernel
    refine KeepsAll.comp ?_ ?_
    · refine keeps_on (K := Histograms) hr.1 (fun v => ⟨fun h => by simpa [Fits] using h.1, fun h => ⟨by simpa [Fits] using h, extra_of (by decide +kernel)⟩⟩)
        (good_hists fun k => (keeps_putBars each).comp (good_hist (fun _ => .num (x := .inl _) rfl) (by simp) (by simp)))
        fun hc => absurd hc (notOrder h)
    · exact keeps_on (K := Histogram) hr.2 (fun v => ⟨fun h => by simpa [Fits] using h.1, fun h => ⟨by simpa [Fits] using h, extra_of (by decide +kernel)⟩⟩)
        ((keeps_putBars _).comp (keeps_losses _ _)) fun hc => absurd hc (notOrder h)
  | quantiles q =>
    simp only [Step.of] at h
    refine plain_set (.inl ?_) ?_ (.list fun v hv => ?_) (by decide +kernel) fun _ => by decide +kernel
    · revert h; cases c <;> decide +kernel
    · cases c <;> decide +kernel
    · obtain ⟨f, _, rfl⟩ := List.mem_map.1 hv; exact .num (x := .inr f) rfl
  | report best made loss total =>
    simp only [Step.of] at h
    have hr : "histogram_methods" ∈ required c ∧ "histogram_selection" ∈ required c := by revert h; cases c <;> decide +kernel
    refine KeepsAll.comp ?_ (plain_set (.inl hr.2) (by cases c <;> decide +kernel) (.str best) (by decide +kernel) fun _ => by decide +kernel)
    refine keeps_on (K := Histograms) hr.1 (fun v => ⟨fun h => by simpa [Fits] using h.1, fun h => ⟨by simpa [Fits] using h, extra_of (by decide +kernel)⟩⟩)
      (good_hists fun k => (good_hist (fun h => absurd rfl h) (fun _ => ⟨_, rfl, ⟨by simp, by simp⟩, ?_⟩) (by simp)).comp (keeps_losses _ _))
      fun hc => absurd hc (notOrder h)
    intro k' w hw
    simp only [List.mem_cons, Prod.mk.injEq, List.not_mem_nil, or_false] at hw
    rcases hw with ⟨_, rfl⟩ | ⟨_, rfl⟩ <;> exact numArray_ok _
  | methods names =>
    simp only [Step.of] at h
    have hr : "histogram_methods" ∈ required c ∧ "histogram_bin_method_names" ∈ required c := by revert h; cases c <;> decide +kernel
    show KeepsAll lib c (andThen (setAttr "histogram_bin_method_names" (texts names))
      (setAttr "histogram_methods" (.dict (fromPairs (names.map fun m => (.str m, freshHist lib))))))
    have hpl : plainName c "histogram_bin_method_names" = true := by cases c <;> decide +kernel
    refine KeepsAll.comp (f := setAttr "histogram_bin_method_names" (texts names)) (plain_set (.inl hr.2) hpl (texts_plain names) (by decide +kernel) fun _ => by decide +kernel) ?_
    refine keeps_set (.inl hr.1) ?_ (extra_of (by decide +kernel)) fun _ => by decide +kernel
    obtain ⟨h1, h2⟩ := strDict names (fun x => x) (fun _ => freshHist lib) Histogram fun _ => freshHist_ok
    have : Histograms (.dict (fromPairs (names.map fun m => (Key.str m, freshHist lib)))) := ⟨_, rfl, h1, h2⟩
    simpa [Fits] using this
  | precision min max var sum mean n =>
    simp only [Step.of, beq_iff_eq] at h
    subst h
    have hp : ∀ (s : String) (f : F), Keeps lib Precision (putItem s (.npFloat f)) := fun s f =>
      good_precision (optFloat_plain (npFloat_ok f)) fun _ => npFloat_ok f
    refine keeps_on (K := Precision) (by decide +kernel) (fun v => ⟨fun h => by simpa [Fits] using h.1, fun h => ⟨by simpa [Fits] using h, extra_of (by decide +kernel)⟩⟩)
      ((hp _ _).comp ((hp _ _).comp ((hp _ _).comp ((hp _ _).comp ((hp _ _).comp
        (good_precision (.num (x := .inl n) rfl) (by simp))))))) (by simp)
  | vocab l =>
    simp only [Step.of, beq_iff_eq] at h; subst h
    exact plain_set (.inl (by decide +kernel)) (by decide +kernel) (texts_plain l) (by decide +kernel) (by simp)
  | long b =>
    simp only [Step.of, beq_iff_eq] at h; subst h
    exact plain_set (.inr (by decide +kernel)) (by decide +kernel) (.str _) (by decide +kernel) (by simp)
  | formats l =>
    simp only [Step.of, beq_iff_eq] at h; subst h
    exact plain_set (.inl (by decide +kernel)) (by decide +kernel) (texts_plain l) (by decide +kernel) (by simp)
  | date earliest numpy s t =>
    simp only [Step.of, beq_iff_eq] at h; subst h
    have ht := hd _ _ _ _ rfl
    have hm : OptMoment lib (if numpy then .stamp t else .date t : Val F T L) := by
      cases numpy
      · exact .inr ⟨t, rfl, ht⟩
      · exact .inr ⟨t, rfl, ht⟩
    cases earliest
    · exact (plain_set (.inl (by decide +kernel)) (by decide +kernel) (.str s) (by decide +kernel) (by simp)).comp
        (keeps_set (.inl (by decide +kernel)) (by simpa [Fits] using hm) (extra_of (by decide +kernel)) (by simp))
    · exact (plain_set (.inl (by decide +kernel)) (by decide +kernel) (.str s) (by decide +kernel) (by simp)).comp
        (keeps_set (.inl (by decide +kernel)) (by simpa [Fits] using hm) (extra_of (by decide +kernel)) (by simp))
  | order o ends piecewise n rest =>
    simp only [Step.of, beq_iff_eq] at h; subst h
    exact keeps_order o ends piecewise n rest
  | categories default l =>
    simp only [Step.of, beq_iff_eq] at h; subst h
    refine keeps_set (.inl (by decide +kernel)) ?_ (extra_of (by decide +kernel)) (by simp)
    have : Categories (if default then .ddict .int (counts l) else .dict (counts l) : Val F T L) := by
      cases default
      · exact ⟨_, .inl rfl, counts_plain l⟩
      · exact ⟨_, .inr rfl, counts_plain l⟩
    simpa [Fits] using this
  | stop met at_ =>
    simp only [Step.of, beq_iff_eq] at h; subst h
    refine (plain_set (.inl (by decide +kernel)) (by decide +kernel) (.bool met) (by decide +kernel) (by simp)).comp ?_
    cases at_ with
    | none => exact keeps_ok _
    | some x =>
      exact (plain_set (.inl (by decide +kernel)) (by decide +kernel) (.num (x := .inr x.1) rfl) (by decide +kernel) (by simp)).comp
        (plain_set (.inl (by decide +kernel)) (by decide +kernel) (.num (x := .inl x.2) rfl) (by decide +kernel) (by simp))
  | labels mapping possible =>
    simp only [Step.of, beq_iff_eq] at h; subst h
    show KeepsAll lib .labeler (andThen (setAttr "_reverse_label_mapping" (.dict (fromPairs (mapping.map fun x => (.int x.1, .str x.2)))))
      (setAttr "_possible_data_labels" (texts possible)))
    refine KeepsAll.comp (g := setAttr "_possible_data_labels" (texts possible)) ?_
      (plain_set (.inl (by decide +kernel)) (by decide +kernel) (texts_plain possible) (by decide +kernel) (by simp))
    refine keeps_set (.inl (by decide +kernel)) ?_ (extra_of (by decide +kernel)) (by simp)
    have : Mapping (.dict (fromPairs (mapping.map fun x => (Key.int x.1, (.str x.2 : Val F T L))))) := by
      refine .inr ⟨_, rfl, fromPairs_nodup' _, fun k hk => ?_, fun k w hw => ?_⟩
      · obtain ⟨⟨a, b⟩, hx, rfl⟩ := List.mem_map.1 hk
        obtain ⟨y, _, hy⟩ := List.mem_map.1 (mem_fromPairs hx)
        cases hy; exact ⟨_, rfl⟩
      · obtain ⟨y, _, hy⟩ := List.mem_map.1 (mem_fromPairs hw)
        cases hy; exact .str _
    simpa [Fits] using this
  | predictions sums ranks =>
    simp only [Step.of, beq_iff_eq] at h; subst h
    show KeepsAll lib .labeler (andThen (setAttr "_sum_predictions" (numArray sums)) (setAttr "_rank_distribution" (.dict (counts ranks))))
    refine KeepsAll.comp (g := setAttr "_rank_distribution" (.dict (counts ranks))) ?_
      (plain_set (.inl (by decide +kernel)) (by decide +kernel) (.dict (counts_plain ranks).1 (counts_plain ranks).2) (by decide +kernel) (by simp))
    exact keeps_set (.inl (by decide +kernel)) (by simpa [Fits] using numArray_ok sums) (extra_of (by decide +kernel)) (by simp)

/-! ### Saving and loading -/

theorem same_int {v w : Val F T L} (h : Same lib v w) (hv : AnInt v) : AnInt w := by
  obtain ⟨z, hz⟩ := hv
  cases h with
  | num h1 h2 => rw [hz] at h1; cases h1; exact ⟨z, h2⟩
  | time h => cases v <;> simp [moment, number] at h hz
  | _ => simp [number] at hz

theorem same_float {v w : Val F T L} (h : Same lib v w) (hv : AFloat v) : AFloat w := by
  obtain ⟨f, hf⟩ := hv
  have hn : number v = some (.inr f) := by rcases hf with rfl | rfl <;> rfl
  cases h with
  | num h1 h2 =>
    rw [hn] at h1; cases h1
    cases w <;> simp [number] at h2
    · subst h2; exact ⟨_, .inl rfl⟩
    · subst h2; exact ⟨_, .inr rfl⟩
  | time h => cases v <;> simp [moment, number] at h hn
  | _ => simp [number] at hn

theorem same_const {v w : Val F T L} (h : Same lib v w) (hv : v = .none ∨ (∃ s, v = .str s) ∨ ∃ s, v = .func s) : w = v := by
  rcases hv with rfl | ⟨s, rfl⟩ | ⟨s, rfl⟩ <;> cases h with
    | num h => simp [number] at h
    | time h => simp [moment] at h
    | _ => rfl

theorem same_const' {v w : Val F T L} (h : Same lib v w) (hw : ∃ s, w = .func s) : v = w := by
  obtain ⟨s, rfl⟩ := hw
  cases h with
  | num _ h => simp [number] at h
  | time _ h => simp [moment] at h
  | _ => rfl

theorem inv_alike {c : Cls} {a r : Dict F T L} (ha : Inv lib c a) (hr : ColumnOk lib c r) (h : Alike lib a r) : Inv lib c r := by
  have back : ∀ k w, PyDict.get? r k = some w → ∃ v, PyDict.get? a k = some v ∧ Same lib v w := by
    intro k w hw
    obtain ⟨v, hv⟩ := (PyDict.mem_keys_iff a k).1 ((h.keys k).2 ((PyDict.mem_keys_iff r k).2 ⟨w, hw⟩))
    exact ⟨v, hv, h.same k v w hv hw⟩
  have forth : ∀ k v, PyDict.get? a k = some v → ∃ w, PyDict.get? r k = some w ∧ Same lib v w := by
    intro k v hv
    obtain ⟨w, hw⟩ := (PyDict.mem_keys_iff r k).1 ((h.keys k).1 ((PyDict.mem_keys_iff a k).2 ⟨v, hv⟩))
    exact ⟨w, hw, h.same k v w hv hw⟩
  refine ⟨hr, fun s w hw => ?_, fun hc => ?_⟩
  · obtain ⟨v, hv, hs⟩ := back _ _ (PyDict.get?_of_mem hr.nodup hw)
    have he := ha.extra s v (PyDict.mem_of_get? hv)
    refine ⟨fun h => same_int hs (he.1 h), fun h => ?_, fun h => ?_⟩
    · obtain ⟨l, rfl⟩ := he.2.1 h
      cases hs with
      | num h => simp [number] at h
      | time h => simp [moment] at h
      | list => exact ⟨_, rfl⟩
    · rcases he.2.2 h with rfl | ⟨t, rfl⟩
      · exact .inl (same_const hs (.inl rfl))
      · exact .inr ⟨t, same_const hs (.inr (.inl ⟨t, rfl⟩))⟩
  · rcases ha.seen hc with h | ho
    · obtain ⟨w, hw, hs⟩ := forth _ _ h
      rw [same_const hs (.inl rfl)] at hw; exact .inl hw
    · refine .inr fun hst => ?_
      obtain ⟨v, hv, hs⟩ := back _ _ hst
      rw [same_const' hs ⟨_, rfl⟩] at hv
      obtain ⟨x, y, h1, h2, h3, h4⟩ := ho hv
      obtain ⟨x', hx, sx⟩ := forth _ _ h1
      obtain ⟨y', hy, sy⟩ := forth _ _ h2
      exact ⟨x', y', hx, hy, same_float sx h3, same_float sy h4⟩

theorem alike_of_same {n : String} {a b : Dict F T L} (h : Same lib (.obj n a) (.obj n b)) : Alike lib a b := by
  cases h with
  | num h => simp [number] at h
  | time h => simp [moment] at h
  | obj h1 h2 => exact ⟨h1, h2⟩

/-! ### What steps leave alone -/

/-- `f` leaves an attribute as it is. -/
def Leaves (k : Key) (f : Dict F T L → Except Err (Dict F T L)) : Prop := ∀ a a', f a = .ok a' → PyDict.get? a' k = PyDict.get? a k

theorem Leaves.comp {k : Key} {f g : Dict F T L → Except Err (Dict F T L)} (hf : Leaves k f) (hg : Leaves k g) : Leaves k (andThen f g) := by
  intro a a' h
  unfold andThen at h
  cases hfa : f a with
  | error e => rw [hfa] at h; cases h
  | ok b => rw [hfa] at h; rw [hg b a' h, hf a b hfa]

theorem leaves_set {k : Key} {s : String} {v : Val F T L} (h : Key.str s ≠ k) : Leaves k (setAttr s v) := by
  intro a a' ha
  cases ha
  rw [PyDict.get?_set, if_neg h]

theorem leaves_on {k k' : Key} {f : Val F T L → Except Err (Val F T L)} (h : k' ≠ k) : Leaves k (onAttr f k') := by
  intro a a' ha
  unfold onAttr at ha
  cases hv : attr a k' with
  | error e => rw [hv] at ha; cases ha
  | ok v =>
    rw [hv] at ha
    cases hf : f v with
    | error e => simp [hf, Except.map] at ha
    | ok w =>
      simp only [hf, Except.map, Except.ok.injEq] at ha
      rw [← ha, PyDict.get?_set, if_neg h]

theorem leaves_order {o : String} {ends : Ends F} {p : Bool} :
    Leaves (.str "sample_size") (putOrder (T := T) (L := L) o ends p) := by
  intro a a' h
  unfold putOrder at h
  split at h
  · cases h
  · cases h; rfl
  · exact ((leaves_set (by simp)).comp ((leaves_set (by simp)).comp ((leaves_set (by simp)).comp
      ((leaves_set (by simp)).comp (leaves_set (by simp)))))) a a' h

/-- How many values a step is about. -/
def stepSize : Step F T → ℤ
  | .size n _ => n
  | .order _ _ _ n _ => n
  | _ => 0

theorem size_put {n : ℤ} {rest : List (String × Num F)} {a a' : Dict F T L} {v : Val F T L} {z : ℤ} (h : putSize n rest a = .ok a')
    (hv : PyDict.get? a (.str "sample_size") = some v) (hz : number v = some (.inl z)) :
    ∃ w, PyDict.get? a' (.str "sample_size") = some w ∧ number w = some (.inl (z + n)) := by
  have hw : ∃ w, addInt n v = .ok w ∧ number w = some (.inl (z + n)) := by
    cases v <;> simp [number] at hz <;> subst hz <;> exact ⟨_, rfl, rfl⟩
  obtain ⟨w, h1, h2⟩ := hw
  simp only [putSize, andThen, onAttr, attr, hv, h1, Except.map, setAttr, Except.ok.injEq] at h
  subst h
  exact ⟨w, by simp [PyDict.get?_set], h2⟩

theorem leaves_step {c : Cls} {s : Step F T} (hs : s.of c = true) (hn : ∀ n r, s ≠ .size n r) (ho : ∀ o e p n r, s ≠ .order o e p n r) :
    Leaves (.str "sample_size") (step lib s) := by
  cases s with
  | size n r => exact absurd rfl (hn n r)
  | order o e p n r => exact absurd rfl (ho o e p n r)
  | time what t => exact leaves_on (by simp)
  | hits n => exact leaves_on (by simp)
  | setting k v =>
    refine leaves_set ?_
    simp only [Step.of, List.contains_iff_mem] at hs
    rintro h; cases h
    have : ∀ c : Cls, "sample_size" ∉ c.settings := by intro c; cases c <;> decide +kernel
    exact this c hs
  | disable k what =>
    refine leaves_on ?_
    simp only [Step.of, List.contains_iff_mem] at hs
    rintro h; cases h
    have : ∀ c : Cls, "sample_size" ∉ c.calculations := by intro c; cases c <;> decide +kernel
    exact this c hs
  | stat k numpy f =>
    refine leaves_set ?_
    simp only [Step.of, Bool.and_eq_true, List.contains_iff_mem] at hs
    rintro h; cases h
    simp at hs
  | counter k n =>
    refine leaves_on ?_
    simp only [Step.of, Bool.and_eq_true, List.contains_iff_mem] at hs
    rintro h; cases h
    simp at hs
  | batch props => exact leaves_on (by simp)
  | bars => exact (leaves_on (by simp)).comp (leaves_on (by simp))
  | quantiles q => exact leaves_set (by simp)
  | report => exact (leaves_on (by simp)).comp (leaves_set (by simp))
  | methods names => exact Leaves.comp (f := setAttr "histogram_bin_method_names" (texts names)) (leaves_set (by simp)) (leaves_set (by simp))
  | precision => exact leaves_on (by simp)
  | vocab l => exact leaves_set (by simp)
  | long b => exact leaves_set (by simp)
  | formats l => exact leaves_set (by simp)
  | date earliest numpy s t =>
    cases earliest <;> exact (leaves_set (by simp)).comp (leaves_set (by simp))
  | categories default l => exact leaves_set (by simp)
  | stop met at_ =>
    refine (leaves_set (by simp)).comp ?_
    cases at_ with
    | none => intro a a' h; cases h; rfl
    | some x => exact (leaves_set (by simp)).comp (leaves_set (by simp))
  | labels m p => exact Leaves.comp (g := setAttr "_possible_data_labels" (texts p)) (leaves_set (by simp)) (leaves_set (by simp))
  | predictions x y => exact Leaves.comp (f := setAttr "_sum_predictions" (numArray x)) (leaves_set (by simp)) (leaves_set (by simp))

theorem size_step {c : Cls} {s : Step F T} (hs : s.of c = true) {a a' : Dict F T L} {v : Val F T L} {z : ℤ} (h : step lib s a = .ok a')
    (hv : PyDict.get? a (.str "sample_size") = some v) (hz : number v = some (.inl z)) :
    ∃ w, PyDict.get? a' (.str "sample_size") = some w ∧ number w = some (.inl (z + stepSize s)) := by
  by_cases h1 : ∃ n r, s = .size n r
  · obtain ⟨n, r, rfl⟩ := h1
    exact size_put h hv hz
  by_cases h2 : ∃ o e p n r, s = .order o e p n r
  · obtain ⟨o, e, p, n, r, rfl⟩ := h2
    simp only [step, andThen] at h
    cases hp : putOrder o e p a with
    | error e => rw [hp] at h; cases h
    | ok b =>
      rw [hp] at h
      exact size_put h (by rw [leaves_order a b hp]; exact hv) hz
  · have h0 : stepSize s = 0 := by
      cases s <;> first | rfl | (exfalso; exact h1 ⟨_, _, rfl⟩) | (exfalso; exact h2 ⟨_, _, _, _, _, rfl⟩)
    refine ⟨v, ?_, by rw [h0, Int.add_zero]; exact hz⟩
    rw [leaves_step hs (fun n r h => h1 ⟨n, r, h⟩) (fun o e p n r h => h2 ⟨o, e, p, n, r, h⟩) a a' h]
    exact hv

end Verif.ColumnJson
