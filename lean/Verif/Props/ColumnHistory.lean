import Verif.Lemmas.ColumnHistory
import Verif.Props.ColumnJson

/-!
# Column profiles that are updated, saved and loaded (C85)
-/

namespace Verif.Props.ColumnHistory

open Verif Verif.ColumnJson Verif.Spec.ColumnJson
open Verif.Schema (Key)
open Verif.Props.ColumnJson (lib0 lib0_ok C85_new C85_profile same_trans)

variable {F T L : Type} {lib : Lib F T L}

theorem inv_fresh (c : Cls) {name lab : Val F T L} (hn : Plain name) (hl : c = .labeler → ALabeler lib lab) :
    Inv lib c (fresh lib c name lab) := by
  refine ⟨C85_new c hn hl, ?_, ?_⟩
  · have hall : ∀ p ∈ fresh lib c name lab, ∀ s, p.1 = Key.str s → Extra s p.2 := by
      cases c
      all_goals
        simp only [fresh, freshNumeric, freshBase, List.cons_append, List.nil_append, List.forall_mem_cons, Key.str.injEq, forall_eq']
        simp only [List.not_mem_nil, false_implies, implies_true, and_true]
        simp [Extra, AnInt, number]
    exact fun s v h => hall _ h s rfl
  · rintro rfl
    exact .inl rfl

theorem alike_refl {c : Cls} {a : Dict F T L} (h : ColumnOk lib c a) : Alike lib a a := by
  refine ⟨fun _ => Iff.rfl, fun k v w hv hw => ?_⟩
  rw [hv] at hw; cases hw
  obtain ⟨s, rfl, _⟩ := h.only k ((PyDict.mem_keys_iff a k).2 ⟨v, hv⟩)
  exact fits_refl (h.fits s v (PyDict.mem_of_get? hv))

theorem same_of_alike {n : String} {a b : Dict F T L} (h : Alike lib a b) : Same lib (.obj n a) (.obj n b) := .obj h.keys h.same

theorem live_ok (hl : LibOk lib) {c : Cls} : ∀ (h : List (Event F T)) (a b : Dict F T L), HistoryOk lib c h → Inv lib c a → Inv lib c b →
    Alike lib b a → ∃ a' b', live lib c h a = .ok a' ∧ live lib c (unsaved h) b = .ok b' ∧ Inv lib c a' ∧ Inv lib c b' ∧ Alike lib b' a'
  | [], a, b, _, ha, hb, hab => ⟨a, b, rfl, rfl, ha, hb, hab⟩
  | .step s :: t, a, b, h, ha, hb, hab => by
    obtain ⟨b1, a1, h1, h2, h3, h4, h5⟩ := keeps_step (h s List.mem_cons_self) b a hb ha hab
    obtain ⟨a2, b2, g1, g2, g3⟩ := live_ok hl t a1 b1 (fun s hs => h s (List.mem_cons_of_mem _ hs)) h4 h3 h5
    exact ⟨a2, b2, by simp [live, h2, g1], by simp [unsaved, live, h1, g2], g3⟩
  | .reload :: t, a, b, h, ha, hb, hab => by
    obtain ⟨r, h1, h2, h3⟩ := C85_profile hl ha.ok 0
    have h1' : reload lib (loadColumn lib) (.obj c.name a) = .ok (.obj c.name r) := by
      simp only [Props.ColumnJson.times] at h1
      cases hr : reload lib (loadColumn lib) (.obj c.name a) with
      | error e => rw [hr] at h1; cases h1
      | ok u => rw [hr] at h1; exact h1
    have hbr : Alike lib b r := alike_of_same (same_trans (same_of_alike (n := c.name) hab) h2)
    obtain ⟨a2, b2, g1, g2, g3⟩ := live_ok hl t r b (fun s hs => h s (List.mem_cons_of_mem _ hs)) (inv_alike ha h3 (alike_of_same h2)) hb hbr
    exact ⟨a2, b2, by simp [live, h1', g1], by simpa [unsaved] using g2, g3⟩

/-- A column profile that was updated, reported, and saved and loaded in between, any number of times and in any order, never failed on
the way, is one that survives, and is the one it would be had it never been saved. -/
theorem C85_history (hl : LibOk lib) (c : Cls) {name lab : Val F T L} (hn : Plain name) (hlab : c = .labeler → ALabeler lib lab)
    {h : List (Event F T)} (hh : HistoryOk lib c h) :
    ∃ a b, live lib c h (fresh lib c name lab) = .ok a ∧ live lib c (unsaved h) (fresh lib c name lab) = .ok b ∧
      ColumnOk lib c a ∧ Same lib (.obj c.name b) (.obj c.name a) := by
  have hi := inv_fresh c hn hlab
  obtain ⟨a, b, h1, h2, h3, _, h5⟩ := live_ok hl h _ _ hh hi hi (alike_refl hi.ok)
  exact ⟨a, b, h1, h2, h3.ok, same_of_alike h5⟩

/-- Saving and loading it once more, or more often, gives it again. -/
theorem C85_history_saved (hl : LibOk lib) (c : Cls) {name lab : Val F T L} (hn : Plain name) (hlab : c = .labeler → ALabeler lib lab)
    {h : List (Event F T)} (hh : HistoryOk lib c h) (n : ℕ) :
    ∃ a r, live lib c h (fresh lib c name lab) = .ok a ∧
      Props.ColumnJson.times (reload lib (loadColumn lib)) (n + 1) (.obj c.name a) = .ok (.obj c.name r) ∧
      Same lib (.obj c.name a) (.obj c.name r) := by
  obtain ⟨a, _, h1, _, h3, _⟩ := C85_history hl c hn hlab hh
  obtain ⟨r, h4, h5, _⟩ := C85_profile hl h3 n
  exact ⟨a, r, h1, h4, h5⟩

/-- Every attribute with a number has that number, whether or not the profile was saved and loaded on the way. -/
theorem C85_history_numbers (hl : LibOk lib) (c : Cls) {name lab : Val F T L} (hn : Plain name) (hlab : c = .labeler → ALabeler lib lab)
    {h : List (Event F T)} (hh : HistoryOk lib c h) {b : Dict F T L} (hb : live lib c (unsaved h) (fresh lib c name lab) = .ok b)
    {k : Key} {v : Val F T L} {x : ℤ ⊕ F} (hv : PyDict.get? b k = some v) (hx : number v = some x) :
    ∃ a u, live lib c h (fresh lib c name lab) = .ok a ∧ PyDict.get? a k = some u ∧ number u = some x := by
  obtain ⟨a, b', h1, h2, _, h4⟩ := C85_history hl c hn hlab hh
  rw [hb] at h2; cases h2
  have hal := alike_of_same h4
  obtain ⟨u, hu⟩ := (PyDict.mem_keys_iff a k).1 ((hal.keys k).1 ((PyDict.mem_keys_iff b k).2 ⟨v, hv⟩))
  refine ⟨a, u, h1, hu, ?_⟩
  have hs := hal.same k v u hv hu
  cases hs with
  | num h5 h6 => rw [hx] at h5; cases h5; exact h6
  | time h => cases v <;> simp [moment, number] at h hx
  | _ => simp [number] at hx

theorem live_size (hl : LibOk lib) {c : Cls} : ∀ (h : List (Event F T)) (a a' : Dict F T L) (v : Val F T L) (z : ℤ), HistoryOk lib c h →
    Inv lib c a → live lib c h a = .ok a' → PyDict.get? a (.str "sample_size") = some v → number v = some (.inl z) →
    ∃ w, PyDict.get? a' (.str "sample_size") = some w ∧ number w = some (.inl (z + seenIn h))
  | [], a, a', v, z, _, _, h, hv, hz => by cases h; exact ⟨v, hv, by simpa [seenIn] using hz⟩
  | .step s :: t, a, a', v, z, hh, ha, h, hv, hz => by
    have hok := hh s List.mem_cons_self
    obtain ⟨_, a1, _, h2, _, h4, _⟩ := keeps_step hok a a ha ha (alike_refl ha.ok)
    rw [live, h2] at h
    obtain ⟨w, hw, hn⟩ := size_step hok.1 h2 hv hz
    obtain ⟨u, hu, hun⟩ := live_size hl t a1 a' w _ (fun s hs => hh s (List.mem_cons_of_mem _ hs)) h4 h hw hn
    refine ⟨u, hu, ?_⟩
    rw [hun]
    cases s <;> simp [seenIn, stepSize, Int.add_assoc]
  | .reload :: t, a, a', v, z, hh, ha, h, hv, hz => by
    obtain ⟨r, h1, h2, h3⟩ := C85_profile hl ha.ok 0
    have h1' : reload lib (loadColumn lib) (.obj c.name a) = .ok (.obj c.name r) := by
      simp only [Props.ColumnJson.times] at h1
      cases hr : reload lib (loadColumn lib) (.obj c.name a) with
      | error e => rw [hr] at h1; cases h1
      | ok u => rw [hr] at h1; exact h1
    rw [live, h1'] at h
    have hal := alike_of_same h2
    obtain ⟨w, hw⟩ := (PyDict.mem_keys_iff r (.str "sample_size")).1 ((hal.keys _).1 ((PyDict.mem_keys_iff a _).2 ⟨v, hv⟩))
    have hwn : number w = some (.inl z) := by
      have hs := hal.same _ v w hv hw
      cases hs with
      | num h5 h6 => rw [hz] at h5; cases h5; exact h6
      | time h => cases v <;> simp [moment, number] at h hz
      | _ => simp [number] at hz
    obtain ⟨u, hu, hun⟩ := live_size hl t r a' w z (fun s hs => hh s (List.mem_cons_of_mem _ hs)) (inv_alike ha h3 hal) h hw hwn
    exact ⟨u, hu, by simpa [seenIn] using hun⟩

/-- The number of values seen is that of all updates, those before and after each saving and loading. -/
theorem C85_history_size (hl : LibOk lib) (c : Cls) {name lab : Val F T L} (hn : Plain name) (hlab : c = .labeler → ALabeler lib lab)
    {h : List (Event F T)} (hh : HistoryOk lib c h) :
    ∃ a v, live lib c h (fresh lib c name lab) = .ok a ∧ PyDict.get? a (.str "sample_size") = some v ∧
      number v = some (.inl (seenIn h)) := by
  have hi := inv_fresh c hn hlab
  obtain ⟨a, _, h1, _⟩ := live_ok hl h _ _ hh hi hi (alike_refl hi.ok)
  obtain ⟨w, hw, hx⟩ := live_size hl h _ a (.int 0) 0 hh hi h1 (by cases c <;> rfl) rfl
  exact ⟨a, w, h1, hw, by simpa using hx⟩

/-! ### Examples -/

/-- An order that is updated, saved, loaded and updated again. -/
def orderHistory : List (Event ℤ String) :=
  [.reload, .step (.time "order" 1), .step (.order "ascending" (.numbers 2 5) false 3 []), .reload, .reload,
    .step (.order "random" (.texts "2" "a") false 4 []), .reload, .step (.order "ascending" (.numbers 7 8) true 1 [])]

example : HistoryOk lib0 .order orderHistory := by
  intro s hs
  simp only [orderHistory, List.mem_cons, Event.step.injEq, reduceCtorEq, false_or, List.not_mem_nil, or_false] at hs
  rcases hs with rfl | rfl | rfl | rfl <;> exact ⟨rfl, fun _ _ _ _ h => by cases h⟩

/-- Its size is that of all updates, and its order that of the second: a random order stays. -/
example : (live lib0 .order orderHistory (fresh lib0 .order (.str "x") .none)).map (fun a =>
    (PyDict.get? a (.str "sample_size"), PyDict.get? a (.str "order"), PyDict.get? a (.str "_last_value"))) =
    .ok (some (.int 8), some (.str "random"), some (.str "a")) := rfl

/-- A column of numbers with a histogram, batches and a report, saved in between. -/
def intHistory : List (Event ℤ String) :=
  [.step (.setting "bias_correction" (.bool false)), .step (.methods ["auto", "custom"]),
    .step (.bars ([.npInt 2, .npInt 1], [.float 0, .float 1, .float 2]) none (fun _ => 2) 1 1), .step (.counter "num_zeros" 2), .reload,
    .step (.batch [("min", .npFloat 0)]), .step (.report "auto" (fun _ => ([.npInt 3], [.float 0, .float 2])) (fun _ => 4) (fun _ => 4)),
    .reload, .step (.disable "_NumericStatsMixin__calculations" "min"), .step (.hits 3), .step (.size 3 []), .reload,
    .step (.counter "num_zeros" 1)]

example : HistoryOk lib0 .int intHistory := by
  intro s hs
  simp only [intHistory, List.mem_cons, Event.step.injEq, reduceCtorEq, false_or, List.not_mem_nil, or_false] at hs
  rcases hs with rfl | rfl | rfl | rfl | rfl | rfl | rfl | rfl | rfl | rfl <;> exact ⟨by decide +kernel, fun _ _ _ _ h => by cases h⟩

example : (live lib0 .int intHistory (fresh lib0 .int (.str "x") .none)).map (fun a =>
    (PyDict.get? a (.str "num_zeros"), PyDict.get? a (.str "sample_size"), PyDict.get? a (.str "histogram_selection"))) =
    .ok (some (.npInt 3), some (.int 3), some (.str "auto")) := rfl

end Verif.Props.ColumnHistory
