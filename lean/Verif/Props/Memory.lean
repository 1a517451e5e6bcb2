import Verif.Lemmas.Memory
import Verif.Props.FloatStats
import Verif.Props.Unstructured

/-!
# C116: the memory size of a profile of text is the number of bytes of all its lines

For all texts, units and histories of updates and merges, in floating point.
-/

namespace Verif.Props.Memory

open Verif Verif.Memory Verif.Spec.Memory

variable {fl : ℚ → ℚ}

theorem power_of_unit {unit : String} {size : ℕ} (h : Unit unit size) : ∃ k, power unit = some k ∧ k ≤ 3 ∧ size = 1024 ^ k := by
  rcases h with ⟨rfl, rfl⟩ | ⟨rfl, rfl⟩ | ⟨rfl, rfl⟩ | ⟨rfl, rfl⟩
  · exact ⟨0, by decide, by decide, by norm_num⟩
  · exact ⟨1, by decide, by decide, by norm_num⟩
  · exact ⟨2, by decide, by decide, by norm_num⟩
  · exact ⟨3, by decide, by decide, by norm_num⟩

theorem power_none {unit : String} (h : ¬ ∃ size, Unit unit size) : power unit = none := by
  unfold power
  split_ifs with h1 h2 h3 h4
  · exact absurd ⟨_, Or.inl ⟨h1, rfl⟩⟩ h
  · exact absurd ⟨_, Or.inr (Or.inl ⟨h2, rfl⟩)⟩ h
  · exact absurd ⟨_, Or.inr (Or.inr (Or.inl ⟨h3, rfl⟩))⟩ h
  · exact absurd ⟨_, Or.inr (Or.inr (Or.inr ⟨h4, rfl⟩))⟩ h
  · rfl

theorem exact_div (hx : Exact fl) {n k : ℕ} (hn : n < 2 ^ 53) (hk : k ≤ 3) : fl (fl n / 1024 ^ k) = n / 1024 ^ k := by
  have h0 : fl n = n := by simpa using hx n 0 hn (by omega)
  have h1 := hx n (10 * k) hn (by omega)
  rw [h0, show (1024 : ℚ) ^ k = 2 ^ (10 * k) by rw [pow_mul]; norm_num]
  exact h1

/-- The memory of texts in a unit is their number of bytes in UTF-8 divided by the size of the unit, with no error of rounding. -/
theorem C116_size (hx : Exact fl) (ls : List String) {unit : String} {size : ℕ} (hu : Unit unit size) (hb : bytes ls < 2 ^ 53) :
    getMemorySize fl (ls.map points) unit = .ok ((bytes ls : ℚ) / size) := by
  obtain ⟨k, h1, h2, rfl⟩ := power_of_unit hu
  unfold getMemorySize
  simp only [h1, total_points, bind, Except.bind]
  rw [exact_div hx hb h2]
  push_cast
  rfl

/-- For Python's strings, being a sequence of characters is having no surrogates. -/
theorem characters_iff {t : PyText} (h : ∀ c ∈ t, c < 0x110000) : Characters t ↔ ∀ c ∈ t, ¬ (0xD800 ≤ c ∧ c < 0xE000) := by
  constructor
  · rintro ⟨s, rfl⟩ c hc
    obtain ⟨d, -, rfl⟩ := List.mem_map.mp hc
    have hv := d.valid
    simp only [UInt32.isValidChar, Nat.isValidChar] at hv
    have hn : d.toNat = d.val.toNat := rfl
    omega
  · intro hs
    refine ⟨String.ofList (t.map Char.ofNat), ?_⟩
    unfold points
    rw [String.toList_ofList, List.map_map]
    conv => rhs; rw [← List.map_id t]
    apply List.map_congr_left
    intro c hc
    have hv : c.isValidChar := by
      have := h c hc
      have := hs c hc
      simp only [Nat.isValidChar]
      omega
    show (Char.ofNat c).toNat = c
    unfold Char.ofNat
    rw [dif_pos hv]
    rfl

/-- Units other than B, K, M and G raise a ValueError. With one of these there is a result exactly if all texts are sequences of characters, and
otherwise the codec raises. -/
theorem C116_raises (fl : ℚ → ℚ) (ls : List PyText) (hl : ∀ t ∈ ls, ∀ c ∈ t, c < 0x110000) (unit : String) :
    ((¬ ∃ size, Unit unit size) → getMemorySize fl ls unit = .error .valueError) ∧
    ((∃ size, Unit unit size) → ((∃ v, getMemorySize fl ls unit = .ok v) ↔ ∀ t ∈ ls, Characters t) ∧
      ((∃ t ∈ ls, ¬ Characters t) → getMemorySize fl ls unit = .error .valueError)) := by
  refine ⟨fun h => by simp [getMemorySize, power_none h], fun ⟨size, hu⟩ => ?_⟩
  obtain ⟨k, h1, -, -⟩ := power_of_unit hu
  have ch : (∀ t ∈ ls, Characters t) ↔ ∀ t ∈ ls, ∀ c ∈ t, ¬ (0xD800 ≤ c ∧ c < 0xE000) :=
    forall₂_congr fun t ht => characters_iff (hl t ht)
  rcases total_cases ls 0 with ⟨⟨t, ht, c, hc, hs⟩, h2⟩ | ⟨h3, n, h2⟩
  · have e : getMemorySize fl ls unit = .error .valueError := by simp [getMemorySize, h1, h2, bind, Except.bind]
    refine ⟨⟨fun ⟨v, hv⟩ => ?_, fun h => absurd hs (ch.mp h t ht c hc)⟩, fun _ => e⟩
    rw [e] at hv
    cases hv
  · refine ⟨⟨fun _ => ch.mpr h3, fun _ => ⟨fl (fl n / 1024 ^ k), by simp [getMemorySize, h1, h2, bind, Except.bind]⟩⟩, ?_⟩
    rintro ⟨t, ht, hn⟩
    exact absurd (ch.mpr h3 t ht) hn

theorem bytes_append (xs ys : List String) : bytes (xs ++ ys) = bytes xs + bytes ys := by simp [bytes]

/-- After any history of updates and merges, the memory size is exactly the number of bytes of all lines, in units of 2^20 bytes. -/
theorem C116_history (hx : Exact fl) (h : Strings) (hb : bytes h.lines < 2 ^ 53) :
    run fl h.history = .ok ((bytes h.lines : ℚ) / 1048576) := by
  have e20 : (1048576 : ℚ) = 2 ^ 20 := by norm_num
  have sum : ∀ a b : ℕ, a + b < 2 ^ 53 → fl ((a : ℚ) / 1048576 + (b : ℚ) / 1048576) = ((a + b : ℕ) : ℚ) / 1048576 := by
    intro a b hab
    rw [← add_div, e20, ← Nat.cast_add]
    exact hx _ 20 hab (by omega)
  induction h with
  | new => simp [Strings.history, Strings.lines, run, bytes]
  | update h ls ih =>
    simp only [Strings.lines, bytes_append] at hb ⊢
    simp only [Strings.history, run, ih (by omega), bind, Except.bind]
    by_cases h0 : ls = []
    · subst h0
      simp [bytes]
    · rw [if_neg (by simpa using h0)]
      have := C116_size hx ls (unit := "M") (Or.inr (Or.inr (Or.inl ⟨rfl, rfl⟩))) (by omega)
      simp only [this]
      rw [show ((1048576 : ℕ) : ℚ) = 1048576 by norm_num, sum _ _ hb]
  | merge h1 h2 ih1 ih2 =>
    simp only [Strings.lines, bytes_append] at hb ⊢
    simp only [Strings.history, run, ih1 (by omega), ih2 (by omega), bind, Except.bind]
    rw [sum _ _ hb]

/-- The memory size does not depend on how lines are ordered, put into batches and merged. -/
theorem C116_batches (hx : Exact fl) (h h' : Strings) (hp : h.lines.Perm h'.lines) (hb : bytes h.lines < 2 ^ 53) :
    run fl h.history = run fl h'.history := by
  have e : bytes h.lines = bytes h'.lines := (hp.map _).sum_eq
  rw [C116_history hx h hb, C116_history hx h' (e ▸ hb), e]

/-- A history raises exactly if one of its texts is not a sequence of characters. -/
theorem C116_history_raises (fl : ℚ → ℚ) (h : History) (hl : ∀ t ∈ texts h, ∀ c ∈ t, c < 0x110000) :
    ((∃ v, run fl h = .ok v) ↔ ∀ t ∈ texts h, Characters t) ∧ ((∃ t ∈ texts h, ¬ Characters t) → run fl h = .error .valueError) := by
  suffices hs : (∃ v, run fl h = .ok v) ∧ (∀ t ∈ texts h, Characters t) ∨ run fl h = .error .valueError ∧ ¬ ∀ t ∈ texts h, Characters t by
    rcases hs with ⟨h1, h2⟩ | ⟨h1, h2⟩
    · exact ⟨⟨fun _ => h2, fun _ => h1⟩, fun ⟨t, ht, hn⟩ => absurd (h2 t ht) hn⟩
    · refine ⟨⟨fun ⟨v, hv⟩ => ?_, fun hc => absurd hc h2⟩, fun _ => h1⟩
      rw [h1] at hv
      cases hv
  induction h with
  | new => exact Or.inl ⟨⟨0, rfl⟩, by simp [texts]⟩
  | update h ls ih =>
    simp only [texts, List.mem_append] at hl ⊢
    rcases ih (fun t ht => hl t (Or.inl ht)) with ⟨⟨v, h1⟩, h2⟩ | ⟨h1, h2⟩
    · have hg := (C116_raises fl ls (fun t ht => hl t (Or.inr ht)) "M").2 ⟨_, Or.inr (Or.inr (Or.inl ⟨rfl, rfl⟩))⟩
      by_cases h0 : ls = []
      · subst h0
        exact Or.inl ⟨⟨v, by simp [run, h1, bind, Except.bind]⟩, by simpa using h2⟩
      · by_cases hc : ∀ t ∈ ls, Characters t
        · obtain ⟨d, hd⟩ := hg.1.mpr hc
          refine Or.inl ⟨⟨fl (v + d), by simp [run, h1, hd, h0, bind, Except.bind]⟩, ?_⟩
          rintro t (ht | ht)
          · exact h2 t ht
          · exact hc t ht
        · refine Or.inr ⟨?_, fun hx => hc fun t ht => hx t (Or.inr ht)⟩
          have := hg.2 (by push Not at hc; exact hc)
          simp [run, h1, this, h0, bind, Except.bind]
    · exact Or.inr ⟨by simp [run, h1, bind, Except.bind], fun hx => h2 fun t ht => hx t (Or.inl ht)⟩
  | merge h1 h2 ih1 ih2 =>
    simp only [texts, List.mem_append] at hl ⊢
    rcases ih1 (fun t ht => hl t (Or.inl ht)) with ⟨⟨v, e1⟩, c1⟩ | ⟨e1, c1⟩
    · rcases ih2 (fun t ht => hl t (Or.inr ht)) with ⟨⟨w, e2⟩, c2⟩ | ⟨e2, c2⟩
      · refine Or.inl ⟨⟨fl (v + w), by simp [run, e1, e2, bind, Except.bind]⟩, ?_⟩
        rintro t (ht | ht)
        · exact c1 t ht
        · exact c2 t ht
      · exact Or.inr ⟨by simp [run, e1, e2, bind, Except.bind], fun hx => c2 fun t ht => hx t (Or.inr ht)⟩
    · exact Or.inr ⟨by simp [run, e1, bind, Except.bind], fun hx => c1 fun t ht => hx t (Or.inl ht)⟩

/-- Doubles round like this. -/
theorem C116_double : Exact Spec.FloatStats.double := by
  intro n k hn _
  unfold Spec.FloatStats.double
  have hk : (0 : ℚ) < 2 ^ k := by positivity
  split_ifs with h0 hneg
  · exact h0.symm
  · have : (0 : ℚ) ≤ n / 2 ^ k := by positivity
    linarith
  · have hn0 : 0 < n := by
      rcases Nat.eq_zero_or_pos n with rfl | h
      · simp at h0
      · exact h
    rw [dbl_scale (by exact_mod_cast hn0), Double.dbl_nat hn0 hn]

/-- The memory reported by the profiles of `Verif.Model.Unstructured`, which add the memory of batches, for all options, samples and histories. -/
theorem C116_report (ch : Words.Chars) (h : Unstructured.History) (hs : UnstructuredSpec.Sensible h) {s : Unstructured.State}
    (hr : Unstructured.run ch (fun ls => (bytes ls : ℚ) / 1048576) h = .ok s) {r : Unstructured.Report} (hp : Unstructured.report s = .ok r) :
    r.memorySize = (bytes (UnstructuredSpec.allLines h) : ℚ) / 1048576 := by
  obtain ⟨seen, -, -, -, hm⟩ := Props.Unstructured.C80_counts h hs hr hp
  rw [hm]
  clear hm hp hr hs
  induction h with
  | new o => simp [UnstructuredSpec.memory, UnstructuredSpec.allLines, bytes]
  | update h b ih =>
    simp only [UnstructuredSpec.memory, UnstructuredSpec.allLines, bytes_append, ih]
    split_ifs with h0
    · simp [h0, bytes]
    · push_cast; ring
  | merge h1 h2 ih1 ih2 =>
    simp only [UnstructuredSpec.memory, UnstructuredSpec.allLines, bytes_append, ih1, ih2]
    push_cast
    ring

/-- Two batches, merged with a third. -/
def sample : Strings := .merge (.update (.update .new ["abc", "é"]) ["€"]) (.update .new ["😀"])

example : run Spec.FloatStats.double sample.history = .ok (12 / 1048576) := by
  have hb : bytes sample.lines = 12 := by decide +kernel
  rw [C116_history C116_double sample (by rw [hb]; norm_num), hb]
  norm_num

example : getMemorySize id [[0x61], [0xD800]] "K" = .error .valueError ∧ getMemorySize id [[0x61], [0x20AC]] "K" = .ok (4 / 1024) ∧
    getMemorySize id [[0x61]] "T" = .error .valueError := by
  refine ⟨by decide +kernel, by decide +kernel, by decide +kernel⟩

end Verif.Props.Memory
