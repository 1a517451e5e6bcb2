import Verif.Lemmas.DateTime
import Mathlib.Order.Fin.Basic

/-!
# Date columns (C37)
-/

namespace Verif.DateTime

open Verif.DateTimeSpec

variable {D : Type} [LinearOrder D] [BoundedOrder D]

/-- **One batch**: the counted values are distinct positions of the batch, each read by the first supported format that
recognises it (readings in May by `%b` formats may be put aside); a value that is not counted is recognised by no format
except for May in a `%b` format; the formats reported are those used, in the order of the list; minimum and maximum are
texts of a smallest and a largest counted date. -/
theorem C37_batch (parse : String → String → Option D) (isMay : D → Bool) (xs : List String) :
    ∃ (as : List (Reading D)) (rest : List String), (as.map (·.text) ++ rest).Perm xs ∧
      (batchProfile parse isMay xs).count = as.length ∧
      (∀ a ∈ as, Proper parse isMay supported a) ∧
      (∀ x ∈ rest, ∀ f ∈ supported, Aside parse isMay f x) ∧
      (∀ f, f ∈ (batchProfile parse isMay xs).formats ↔ ∃ a ∈ as, a.format = f) ∧
      (batchProfile parse isMay xs).formats.Sublist supported ∧
      IsMin as (batchProfile parse isMay xs).minText ∧ IsMax as (batchProfile parse isMay xs).maxText := by
  obtain ⟨as, h⟩ := loop_inv parse isMay xs formats
  exact ⟨as, _, h.perm, h.count, fun a ha => (h.proper a ha).proper, fun x hx => aside_all.1 (h.rest x hx), h.formats, h.inOrder,
    h.min.isMin, h.max.isMax⟩

/-- What a batch that was looked at is known to contain. -/
theorem batch_count (parse : String → String → Option D) (isMay : D → Bool) (xs : List String)
    (hm : NoMay parse isMay xs) [DecidablePred (IsDate parse)] :
    (batchProfile parse isMay xs).count = xs.countP fun x => decide (IsDate parse x) := by
  obtain ⟨as, rest, hp, hc, hpr, hr, _⟩ := C37_batch parse isMay xs
  rw [hc, ← hp.countP_eq, List.countP_append]
  have h1 : (as.map (·.text)).countP (fun x => decide (IsDate parse x)) = as.length := by
    rw [← List.length_map (f := fun a : Reading D => a.text), List.countP_eq_length]
    intro x hx
    obtain ⟨a, ha, rfl⟩ := List.mem_map.1 hx
    obtain ⟨h, pre, post, he, _⟩ := hpr a ha
    exact decide_eq_true ⟨a.format, by rw [he]; simp, by rw [h]; simp⟩
  have h2 : rest.countP (fun x => decide (IsDate parse x)) = 0 := by
    rw [List.countP_eq_zero]
    intro x hx hd
    obtain ⟨f, hf, hn⟩ := of_decide_eq_true hd
    obtain ⟨d, hd⟩ := Option.ne_none_iff_exists'.1 hn
    obtain ⟨hs, hmay⟩ := hr x hx f hf d hd
    have := hm x (hp.mem_iff.1 (List.mem_append_right _ hx)) f hf hs d hd
    rw [this] at hmay
    exact nomatch hmay
  omega

/-- **Exact count**: unless a value is in May under a format with an abbreviated month, the number of dates counted in a
batch is the number of its values recognised by some supported format. -/
theorem C37_count_exact (parse : String → String → Option D) (isMay : D → Bool) (xs : List String)
    (hm : NoMay parse isMay xs) [DecidablePred (IsDate parse)] :
    (batchProfile parse isMay xs).count = xs.countP fun x => decide (IsDate parse x) :=
  batch_count parse isMay xs hm

/-- The number of dates in a batch never exceeds the number of its values. -/
theorem count_le (parse : String → String → Option D) (isMay : D → Bool) (xs : List String) :
    (batchProfile parse isMay xs).count ≤ xs.length := by
  obtain ⟨as, rest, hp, hc, _⟩ := C37_batch parse isMay xs
  have := hp.length_eq
  simp at this
  omega

omit [BoundedOrder D] in
theorem aside_step (parse : String → String → Option D) (isMay : D → Bool) (s : Loop D) (f : Format)
    (h : ∀ x ∈ s.rest, AsideF parse isMay f x) :
    (step parse isMay s f).rest = s.rest ∧ (step parse isMay s f).count = s.count := by
  unfold step
  by_cases he : s.rest = []
  · simp [he]
  · rw [if_neg he]
    by_cases hv : recognised parse f s.rest = []
    · have hf : (s.rest.filter fun x => (parse f.text x).isNone) = s.rest := by
        rw [List.filter_eq_self]
        intro x hx
        rcases hd : parse f.text x with _ | d
        · rfl
        · have : (x, d) ∈ recognised parse f s.rest := mem_recognised.2 ⟨hx, hd⟩
          rw [hv] at this
          exact nomatch this
      simp [hv, hf]
    · obtain ⟨p, hp⟩ := List.exists_mem_of_ne_nil _ hv
      obtain ⟨hx, hd⟩ := mem_recognised.1 hp
      have hall : f.short = true ∧ recognised parse f s.rest ≠ [] ∧
          ∀ p ∈ recognised parse f s.rest, isMay p.2 = true :=
        ⟨(h p.1 hx p.2 hd).1, hv, fun q hq => by
          obtain ⟨hx, hd⟩ := mem_recognised.1 hq
          exact (h q.1 hx q.2 hd).2⟩
      rw [if_pos hall]
      exact ⟨rfl, rfl⟩

theorem aside_loop (parse : String → String → Option D) (isMay : D → Bool) (xs : List String) (fs : List Format)
    (h : ∀ x ∈ xs, ∀ f ∈ fs, AsideF parse isMay f x) :
    (fs.foldl (step parse isMay) (start xs)).rest = xs ∧ (fs.foldl (step parse isMay) (start xs)).count = 0 := by
  induction fs using List.reverseRecOn with
  | nil => exact ⟨rfl, rfl⟩
  | append_singleton fs f ih =>
    obtain ⟨h1, h2⟩ := ih fun x hx g hg => h x hx g (List.mem_append_left _ hg)
    rw [List.foldl_append]
    obtain ⟨g1, g2⟩ := aside_step parse isMay (fs.foldl (step parse isMay) (start xs)) f
      (by rw [h1]; exact fun x hx => h x hx f (by simp))
    exact ⟨g1.trans h1, g2.trans h2⟩

/-- **The sample is honest**: if a date is counted in the sample inspected first, then one is counted in the batch. -/
theorem C37_sample_honest (parse : String → String → Option D) (isMay : D → Bool) (sample xs : List String)
    (hs : List.Subperm sample xs) (h : 0 < (batchProfile parse isMay sample).count) :
    0 < (batchProfile parse isMay xs).count := by
  by_contra hz
  obtain ⟨as, rest, hp, hc, _, hr, _⟩ := C37_batch parse isMay xs
  have hnil : as = [] := List.length_eq_zero_iff.1 (by omega)
  rw [hnil, List.map_nil, List.nil_append] at hp
  have : ∀ x ∈ sample, ∀ f ∈ formats, AsideF parse isMay f x :=
    fun x hx => aside_all.2 (hr x (hp.mem_iff.2 (hs.subset hx)))
  have := (aside_loop parse isMay sample formats this).2
  rw [batchProfile, this] at h
  exact absurd h (Nat.lt_irrefl _)

/-- A minimum of a profile. -/
def StateMin (as : List (Reading D)) : Option (D × Option String) → Prop
  | none => as = []
  | some (o, t) => MinInv as o t

/-- A maximum of a profile. -/
def StateMax (as : List (Reading D)) : Option (D × Option String) → Prop
  | none => as = []
  | some (o, t) => MaxInv as o t

theorem updateMin_spec {as bs : List (Reading D)} {m : Option (D × Option String)} {o : D} {t : Option String}
    (h : StateMin as m) (h' : MinInv bs o t) : StateMin (as ++ bs) (updateMin m o t) := by
  rcases m with _ | ⟨o', t'⟩
  · rw [show as = [] from h]
    exact h'
  · have := (MinInv.merge h h').1
    unfold updateMin
    by_cases hlt : o < o'
    · simpa [hlt, StateMin] using this
    · simpa [hlt, StateMin] using this

theorem updateMax_spec {as bs : List (Reading D)} {m : Option (D × Option String)} {o : D} {t : Option String}
    (h : StateMax as m) (h' : MaxInv bs o t) : StateMax (as ++ bs) (updateMax m o t) := by
  rcases m with _ | ⟨o', t'⟩
  · rw [show as = [] from h]
    exact h'
  · have := (MaxInv.merge h h').1
    unfold updateMax
    by_cases hlt : o' < o
    · simpa [hlt, StateMax] using this
    · simpa [hlt, StateMax] using this

theorem mergeMin_spec {as bs : List (Reading D)} {m n : Option (D × Option String)} (h : StateMin as m)
    (h' : StateMin bs n) : StateMin (as ++ bs) (mergeMin m n) := by
  rcases m with _ | ⟨o, t⟩
  · rw [show as = [] from h]
    exact h'
  rcases n with _ | ⟨o', t'⟩
  · rw [show bs = [] from h', List.append_nil]
    exact h
  · have := (MinInv.merge h h').2
    unfold mergeMin
    by_cases hlt : o < o'
    · simpa [hlt, StateMin] using this
    · simpa [hlt, StateMin] using this

theorem mergeMax_spec {as bs : List (Reading D)} {m n : Option (D × Option String)} (h : StateMax as m)
    (h' : StateMax bs n) : StateMax (as ++ bs) (mergeMax m n) := by
  rcases m with _ | ⟨o, t⟩
  · rw [show as = [] from h]
    exact h'
  rcases n with _ | ⟨o', t'⟩
  · rw [show bs = [] from h', List.append_nil]
    exact h
  · have := (MaxInv.merge h h').2
    unfold mergeMax
    by_cases hlt : o' < o
    · simpa [hlt, StateMax] using this
    · simpa [hlt, StateMax] using this

theorem StateMin.isMin {as : List (Reading D)} {c : Col D} (h : StateMin as c.min) : IsMin as c.minText := by
  unfold Col.minText
  rcases hc : c.min with _ | ⟨o, t⟩
  · rw [hc] at h
    rw [show as = [] from h]
    exact Or.inr ⟨rfl, by simp⟩
  · rw [hc] at h
    exact MinInv.isMin h

theorem StateMax.isMax {as : List (Reading D)} {c : Col D} (h : StateMax as c.max) : IsMax as c.maxText := by
  unfold Col.maxText
  rcases hc : c.max with _ | ⟨o, t⟩
  · rw [hc] at h
    rw [show as = [] from h]
    exact Or.inr ⟨rfl, by simp⟩
  · rw [hc] at h
    exact MaxInv.isMax h

/-- **Any history**: after any updates and merges the counted values are distinct positions of the data, each properly read
as a date by a supported format; the formats are those used, each once; minimum and maximum are texts of a smallest and a
largest counted date. -/
theorem C37_history (order : List String → List String) (ho : ∀ l, (order l).Perm l)
    (parse : String → String → Option D) (isMay : D → Bool) (h : History) :
    ∃ (as : List (Reading D)) (rest : List String), (as.map (·.text) ++ rest).Perm (values h) ∧
      (run order parse isMay h).matchCount = as.length ∧
      (run order parse isMay h).sampleSize = (values h).length ∧
      (∀ a ∈ as, Proper parse isMay supported a) ∧
      (run order parse isMay h).formats.Nodup ∧
      (∀ f, f ∈ (run order parse isMay h).formats ↔ ∃ a ∈ as, a.format = f) ∧
      IsMin as (run order parse isMay h).minText ∧ IsMax as (run order parse isMay h).maxText := by
  suffices ∃ (as : List (Reading D)) (rest : List String), (as.map (·.text) ++ rest).Perm (values h) ∧
      (run order parse isMay h).matchCount = as.length ∧
      (run order parse isMay h).sampleSize = (values h).length ∧
      (∀ a ∈ as, Proper parse isMay supported a) ∧
      (run order parse isMay h).formats.Nodup ∧
      (∀ f, f ∈ (run order parse isMay h).formats ↔ ∃ a ∈ as, a.format = f) ∧
      StateMin as (run order parse isMay h).min ∧ StateMax as (run order parse isMay h).max by
    obtain ⟨as, rest, h1, h2, h3, h4, h5, h6, h7, h8⟩ := this
    exact ⟨as, rest, h1, h2, h3, h4, h5, h6, h7.isMin, h8.isMax⟩
  induction h with
  | new => exact ⟨[], [], by simp [values], rfl, rfl, by simp, by simp [run, new], by simp [run, new], rfl, rfl⟩
  | update h b ih =>
    obtain ⟨as, rest, h1, h2, h3, h4, h5, h6, h7, h8⟩ := ih
    simp only [run, values]
    unfold update
    by_cases he : b.values.length = 0
    · rw [if_pos he, List.length_eq_zero_iff.1 he, List.append_nil]
      exact ⟨as, rest, h1, h2, h3, h4, h5, h6, h7, h8⟩
    rw [if_neg he]
    by_cases hg : isDateColumn parse isMay b = true
    · rw [if_pos hg]
      obtain ⟨bs, hb⟩ := loop_inv parse isMay b.values formats
      refine ⟨as ++ bs, rest ++ (batchProfile parse isMay b.values).rest, ?_, ?_, ?_, ?_, ?_, ?_, ?_, ?_⟩
      · have := h1.append hb.perm
        refine List.Perm.trans ?_ this
        simp only [List.map_append, List.append_assoc]
        refine List.Perm.append_left _ ?_
        rw [← List.append_assoc, ← List.append_assoc]
        exact List.Perm.append_right _ List.perm_append_comm
      · simp [h2, batchProfile, hb.count]
      · simp [h3]
      · intro a ha
        rcases List.mem_append.1 ha with ha | ha
        · exact h4 a ha
        · exact (hb.proper a ha).proper
      · show (if _ then _ else _ : List String).Nodup
        split_ifs
        · exact h5
        · exact combineUnique_nodup order ho _ _
      · intro f
        have hbf := hb.formats f
        have : f ∈ (if (batchProfile parse isMay b.values).formats = [] then (run order parse isMay h).formats else
            combineUnique order (run order parse isMay h).formats (batchProfile parse isMay b.values).formats) ↔
            f ∈ (run order parse isMay h).formats ∨ f ∈ (batchProfile parse isMay b.values).formats := by
          split_ifs with hn
          · simp [hn]
          · exact combineUnique_mem order ho _ _ f
        refine this.trans ?_
        rw [h6, batchProfile, hbf]
        constructor
        · rintro (⟨a, ha, e⟩ | ⟨a, ha, e⟩)
          · exact ⟨a, List.mem_append_left _ ha, e⟩
          · exact ⟨a, List.mem_append_right _ ha, e⟩
        · rintro ⟨a, ha, e⟩
          rcases List.mem_append.1 ha with ha | ha
          · exact Or.inl ⟨a, ha, e⟩
          · exact Or.inr ⟨a, ha, e⟩
      · exact updateMin_spec h7 hb.min
      · exact updateMax_spec h8 hb.max
    · rw [if_neg hg]
      refine ⟨as, rest ++ b.values, ?_, h2, by simp [h3], h4, h5, h6, h7, h8⟩
      rw [← List.append_assoc]
      exact List.Perm.append_right _ h1
  | merge g1 g2 ih1 ih2 =>
    obtain ⟨as, rest, h1, h2, h3, h4, h5, h6, h7, h8⟩ := ih1
    obtain ⟨bs, rest', k1, k2, k3, k4, k5, k6, k7, k8⟩ := ih2
    refine ⟨as ++ bs, rest ++ rest', ?_, ?_, ?_, ?_, ?_, ?_, ?_, ?_⟩
    · refine List.Perm.trans ?_ (h1.append k1)
      simp only [List.map_append, List.append_assoc]
      refine List.Perm.append_left _ ?_
      rw [← List.append_assoc, ← List.append_assoc]
      exact List.Perm.append_right _ List.perm_append_comm
    · simp [run, merge, h2, k2]
    · simp [run, merge, h3, k3, values]
    · intro a ha
      rcases List.mem_append.1 ha with ha | ha
      · exact h4 a ha
      · exact k4 a ha
    · exact combineUnique_nodup order ho _ _
    · intro f
      refine (combineUnique_mem order ho _ _ f).trans ?_
      rw [h6, k6]
      constructor
      · rintro (⟨a, ha, e⟩ | ⟨a, ha, e⟩)
        · exact ⟨a, List.mem_append_left _ ha, e⟩
        · exact ⟨a, List.mem_append_right _ ha, e⟩
      · rintro ⟨a, ha, e⟩
        rcases List.mem_append.1 ha with ha | ha
        · exact Or.inl ⟨a, ha, e⟩
        · exact Or.inr ⟨a, ha, e⟩
    · exact mergeMin_spec h7 k7
    · exact mergeMax_spec h8 k8

/-- At least a tenth of each sample are dates. -/
def Dense (parse : String → String → Option D) [DecidablePred (IsDate parse)] : History → Prop
  | .new => True
  | .update h b => Dense parse h ∧ b.sample.length ≤ 10 * b.sample.countP fun x => decide (IsDate parse x)
  | .merge h1 h2 => Dense parse h1 ∧ Dense parse h2

/-- **Batch independence, partial**: if no value is in May under a `%b` format and a tenth of each inspected sample are
dates, then the number of dates counted is the number of values recognised by a supported format, whatever the batches.
Missing: sparse batches and May, for which `C37_threshold_fails` and `C37_may_fails` show that batching matters. -/
theorem C37_batching_partial (order : List String → List String) (parse : String → String → Option D) (isMay : D → Bool)
    [DecidablePred (IsDate parse)] (h : History) (hv : Valid h) (hm : NoMay parse isMay (values h)) (hd : Dense parse h) :
    (run order parse isMay h).matchCount = (values h).countP fun x => decide (IsDate parse x) := by
  induction h with
  | new => rfl
  | update h b ih =>
    have hm1 : NoMay parse isMay (values h) := fun x hx => hm x (List.mem_append_left _ hx)
    have hm2 : NoMay parse isMay b.values := fun x hx => hm x (List.mem_append_right _ hx)
    have hm3 : NoMay parse isMay b.sample := fun x hx => hm2 x (hv.2.1.subset hx)
    have ih := ih hv.1 hm1 hd.1
    simp only [run, values, List.countP_append]
    unfold update
    by_cases he : b.values.length = 0
    · rw [if_pos he, List.length_eq_zero_iff.1 he, ih]
      rfl
    · have hg : isDateColumn parse isMay b = true := by
        rw [isDateColumn, if_neg he, batch_count parse isMay _ hm3]
        exact decide_eq_true hd.2
      rw [if_neg he, if_pos hg]
      simp only
      rw [ih, batch_count parse isMay _ hm2]
  | merge h1 h2 ih1 ih2 =>
    simp only [run, merge, values, List.countP_append]
    rw [ih1 hv.1 (fun x hx => hm x (List.mem_append_left _ hx)) hd.1,
      ih2 hv.2 (fun x hx => hm x (List.mem_append_right _ hx)) hd.2]

/-- **A column of dates** is recognised as such in any batches: without May under a `%b` format, if every value is
recognised by a supported format then every value is counted. -/
theorem C37_all_dates (order : List String → List String) (parse : String → String → Option D) (isMay : D → Bool)
    (h : History) (hv : Valid h) (hm : NoMay parse isMay (values h)) (hall : ∀ x ∈ values h, IsDate parse x) :
    (run order parse isMay h).matchCount = (values h).length := by
  classical
  rw [C37_batching_partial order parse isMay h hv hm, List.countP_eq_length]
  · exact fun x hx => decide_eq_true (hall x hx)
  · clear hm
    induction h with
    | new => trivial
    | update h b ih =>
      refine ⟨ih hv.1 fun x hx => hall x (List.mem_append_left _ hx), ?_⟩
      have : b.sample.countP (fun x => decide (IsDate parse x)) = b.sample.length := by
        rw [List.countP_eq_length]
        exact fun x hx => decide_eq_true (hall x (List.mem_append_right _ (hv.2.1.subset hx)))
      omega
    | merge h1 h2 ih1 ih2 =>
      exact ⟨ih1 hv.1 fun x hx => hall x (List.mem_append_left _ hx),
        ih2 hv.2 fun x hx => hall x (List.mem_append_right _ hx)⟩

/-! ## Examples and counterexamples -/

/-- A small calendar: 0 and 9 are the ends, 5 is in May. -/
def smallParse (f x : String) : Option (Fin 10) :=
  if f = "%Y-%m-%d" ∧ x = "2013-03-07" then some 3
  else if f = "%d%b%y" ∧ x = "12Mar13" then some 4
  else if f = "%d%b%y" ∧ x = "12May13" then some 5
  else if f = "%Y-%m-%dT%H:%M:%S.%fZ" ∧ x = "9999-12-31T23:59:59.999999Z" then some 9
  else none

@[inherit_doc smallParse] def smallMay (d : Fin 10) : Bool := d == 5

/-- Batches whose sample is the whole batch. -/
def whole (xs : List String) : Batch := ⟨xs, xs⟩

example : (run id smallParse smallMay (.merge (.update .new (whole ["12Mar13", "x", "2013-03-07"]))
    (.update .new (whole ["12May13", "12Mar13"])))).matchCount = 4 ∧
    (run id smallParse smallMay (.merge (.update .new (whole ["12Mar13", "x", "2013-03-07"]))
    (.update .new (whole ["12May13", "12Mar13"])))).maxText = some "12May13" := by
  decide +kernel

example : Valid (.update .new (whole ["12Mar13", "2013-03-07"])) ∧
    NoMay smallParse smallMay (values (.update .new (whole ["12Mar13", "2013-03-07"]))) ∧
    ∀ x ∈ values (.update .new (whole ["12Mar13", "2013-03-07"])), IsDate smallParse x := by
  refine ⟨⟨trivial, List.Subperm.refl _, rfl⟩, ?_, ?_⟩
  · unfold NoMay Abbreviated
    decide +kernel
  · unfold IsDate
    decide +kernel

/-- **Counterexample**: one date among nineteen other values is not counted, in a batch of its own it is. -/
theorem C37_threshold_fails :
    (run id smallParse smallMay (.update .new (whole ("2013-03-07" :: List.replicate 19 "x")))).matchCount = 0 ∧
      (run id smallParse smallMay
        (.update (.update .new (whole ["2013-03-07"])) (whole (List.replicate 19 "x")))).matchCount = 1 := by
  decide +kernel

/-- **Counterexample**: a date in May with an abbreviated month is counted only in company of one in another month. -/
theorem C37_may_fails :
    (run id smallParse smallMay (.update .new (whole ["12May13", "12Mar13"]))).matchCount = 2 ∧
      (run id smallParse smallMay (.update (.update .new (whole ["12May13"])) (whole ["12Mar13"]))).matchCount = 1 := by
  decide +kernel

/-- **Counterexample**: a column holding only the last representable date has no minimum. -/
theorem C37_last_date_fails :
    (run id smallParse smallMay (.update .new (whole ["9999-12-31T23:59:59.999999Z"]))).matchCount = 1 ∧
      (run id smallParse smallMay (.update .new (whole ["9999-12-31T23:59:59.999999Z"]))).minText = none := by
  decide +kernel

end Verif.DateTime
