import Verif.Spec.OptionObjects
import Verif.Lemmas.PyDict
import Mathlib.Data.List.Basic
import Mathlib.Data.List.Nodup
import Mathlib.Data.List.Perm.Subperm
import Mathlib.Tactic.Tauto

/-! Lemmas about copies and comparison of options. -/

namespace Verif.OptionObjects

open Verif Spec

variable {α : Type}

theorem Obj.ind {P : Obj α → Prop} (hi : ∀ a, P (.imm a)) (hc : ∀ i a, P (.cont i a)) (hl : ∀ i, P (.labeler i))
    (ho : ∀ i c fs, (∀ kv ∈ fs, P kv.2) → P (.opt i c fs)) : ∀ o, P o
  | .imm a => hi a
  | .cont i a => hc i a
  | .labeler i => hl i
  | .opt i c fs => ho i c fs fun kv h =>
      have : sizeOf kv < sizeOf fs := List.sizeOf_lt_of_mem h
      have : sizeOf kv.2 < sizeOf kv := by cases kv; simp; omega
      Obj.ind hi hc hl ho kv.2
termination_by o => sizeOf o
decreasing_by simp; omega

theorem isSub_antisymm (a b : Cls) (h1 : isSub a b = true) (h2 : isSub b a = true) : a = b := by
  cases a <;> cases b <;> first | rfl | (exfalso; revert h1 h2; decide)

theorem isSub_refl (a : Cls) : isSub a a = true := by cases a <;> rfl

theorem get?_some_iff {d : List (String × Obj α)} (h : (d.map Prod.fst).Nodup) {k : String} {v : Obj α} :
    PyDict.get? d k = some v ↔ (k, v) ∈ d := by
  induction d with
  | nil => simp [PyDict.get?]
  | cons kv d ih =>
    obtain ⟨k', v'⟩ := kv
    simp only [List.map_cons, List.nodup_cons] at h
    simp only [PyDict.get?, List.mem_cons, Prod.mk.injEq]
    by_cases hk : k' = k
    · subst hk
      simp only [if_true, Option.some.injEq, true_and]
      refine ⟨fun h => Or.inl h.symm, fun h' => h'.elim (fun h => h.symm) fun h' => ?_⟩
      exact absurd (List.mem_map.2 ⟨_, h', rfl⟩) h.1
    · simp only [hk, if_false, ih h.2]
      refine ⟨Or.inr, fun h' => h'.elim (fun h => absurd h.1.symm hk) id⟩

theorem get?_mem {d : List (String × Obj α)} {k : String} {v : Obj α} (h : PyDict.get? d k = some v) : (k, v) ∈ d := by
  induction d with
  | nil => simp [PyDict.get?] at h
  | cons kv d ih =>
    obtain ⟨k', v'⟩ := kv
    simp only [PyDict.get?] at h
    by_cases hk : k' = k
    · subst hk; simp at h; simp [h]
    · simp only [hk, if_false] at h; exact List.mem_cons_of_mem _ (ih h)

theorem eqFields_iff (ops : Ops α) (fa fb : Fields α) :
    eqFields ops fa fb = true ↔ ∀ kv ∈ fa, ∃ w, PyDict.get? fb kv.1 = some w ∧ eqObj ops kv.2 w = true := by
  induction fa with
  | nil => simp [eqFields]
  | cons kv rest ih =>
    obtain ⟨k, v⟩ := kv
    simp only [eqFields, Bool.and_eq_true, ih, List.mem_cons, forall_eq_or_imp]
    refine and_congr ?_ Iff.rfl
    cases PyDict.get? fb k <;> simp

theorem eqOpt_iff (ops : Ops α) (i j : Nat) (c d : Cls) (fa fb : Fields α) :
    eqObj ops (.opt i c fa) (.opt j d fb) = true ↔ c = d ∧ fa.length = fb.length ∧ eqFields ops fa fb = true := by
  simp only [eqObj]
  by_cases h : c = d
  · subst h; simp [isSub_refl]
  · simp only [h, false_and, iff_false]
    split
    · next h' =>
      simp only [Bool.and_eq_true, bne_iff_ne] at h'
      intro hh
      simp only [Bool.and_eq_true] at hh
      exact h (isSub_antisymm _ _ hh.1 h'.1)
    · next h' =>
      intro hh
      simp only [Bool.and_eq_true] at hh
      refine h' ?_
      simp only [Bool.and_eq_true, bne_iff_ne]
      exact ⟨hh.1, fun e => h e.symm⟩

/-- The relations of a choice of operations. -/
def Ops.R (ops : Ops α) : α → α → Prop := fun a b => ops.eq a b = true
def Ops.L (ops : Ops α) : Nat → Nat → Prop := fun i j => i = j ∨ ops.labelerEq i j = true

theorem eqObj_iff (ops : Ops α) (a : Obj α) : ∀ b, Proper a → Proper b →
    (eqObj ops a b = true ↔ Agree ops.R ops.L a b) := by
  induction a using Obj.ind with
  | hi a =>
    intro b _ _
    cases b with
    | imm b => exact ⟨fun h => .imm_imm h, fun h => by cases h; assumption⟩
    | cont j b => exact ⟨fun h => .imm_cont h, fun h => by cases h; assumption⟩
    | labeler j => exact ⟨fun h => (by simp [eqObj] at h), fun h => (by cases h)⟩
    | opt j c f => exact ⟨fun h => (by simp [eqObj] at h), fun h => (by cases h)⟩
  | hc i a =>
    intro b _ _
    cases b with
    | imm b => exact ⟨fun h => .cont_imm h, fun h => by cases h; assumption⟩
    | cont j b => exact ⟨fun h => .cont_cont h, fun h => by cases h; assumption⟩
    | labeler j => exact ⟨fun h => (by simp [eqObj] at h), fun h => (by cases h)⟩
    | opt j c f => exact ⟨fun h => (by simp [eqObj] at h), fun h => (by cases h)⟩
  | hl i =>
    intro b _ _
    cases b with
    | labeler j =>
      refine ⟨fun h => .labeler ?_, fun h => ?_⟩
      · simpa [eqObj, Ops.L] using h
      · cases h with | labeler h => simpa [eqObj, Ops.L] using h
    | imm b => exact ⟨fun h => (by simp [eqObj] at h), fun h => (by cases h)⟩
    | cont j b => exact ⟨fun h => (by simp [eqObj] at h), fun h => (by cases h)⟩
    | opt j c f => exact ⟨fun h => (by simp [eqObj] at h), fun h => (by cases h)⟩
  | ho i c fa ih =>
    intro b ha hb
    cases b with
    | imm b => exact ⟨fun h => (by simp [eqObj] at h), fun h => (by cases h)⟩
    | cont j b => exact ⟨fun h => (by simp [eqObj] at h), fun h => (by cases h)⟩
    | labeler j => exact ⟨fun h => (by simp [eqObj] at h), fun h => (by cases h)⟩
    | opt j d fb =>
      cases ha with | opt hna hpa =>
      cases hb with | opt hnb hpb =>
      rw [eqOpt_iff, eqFields_iff]
      constructor
      · rintro ⟨rfl, hlen, hall⟩
        refine .opt ?_ ?_
        · have hsub : fa.map Prod.fst ⊆ fb.map Prod.fst := by
            intro k hk
            obtain ⟨kv, hkv, rfl⟩ := List.mem_map.1 hk
            obtain ⟨w, hw, _⟩ := hall kv hkv
            exact List.mem_map.2 ⟨_, get?_mem hw, rfl⟩
          have hp := (List.subperm_of_subset hna hsub).perm_of_length_le (by simp [hlen])
          exact fun k => hp.mem_iff
        · intro k v w hv hw
          obtain ⟨w', hw', he⟩ := hall _ hv
          have := (get?_some_iff hnb).2 hw
          rw [this] at hw'
          cases hw'
          exact ((ih _ hv) w (hpa _ hv) (hpb _ hw)).1 he
      · intro h
        cases h with
        | opt hk hv =>
        refine ⟨rfl, ?_, ?_⟩
        · have hp : (fa.map Prod.fst).Perm (fb.map Prod.fst) := (List.perm_ext_iff_of_nodup hna hnb).2 hk
          simpa using hp.length_eq
        · intro kv hkv
          obtain ⟨⟨k', w⟩, hw, hk'⟩ := List.mem_map.1 ((hk kv.1).1 (List.mem_map.2 ⟨_, hkv, rfl⟩))
          simp only at hk'
          subst hk'
          exact ⟨w, (get?_some_iff hnb).2 hw, ((ih _ hkv) w (hpa _ hkv) (hpb _ hw)).2 (hv _ _ _ hkv hw)⟩

theorem Agree.refl {R : α → α → Prop} {L : Nat → Nat → Prop} (hR : ∀ a, R a a) (hL : ∀ i, L i i) (a : Obj α) :
    Proper a → Agree R L a a := by
  induction a using Obj.ind with
  | hi a => exact fun _ => .imm_imm (hR a)
  | hc i a => exact fun _ => .cont_cont (hR a)
  | hl i => exact fun _ => .labeler (hL i)
  | ho i c fs ih =>
    intro h
    cases h with | opt hn hp =>
    refine .opt (fun _ => Iff.rfl) fun k v w hv hw => ?_
    have := (get?_some_iff hn).2 hv
    rw [(get?_some_iff hn).2 hw] at this
    cases this
    exact ih _ hv (hp _ hv)

theorem Agree.symm {R : α → α → Prop} {L : Nat → Nat → Prop} (hR : ∀ a b, R a b → R b a) (hL : ∀ i j, L i j → L j i)
    {a b : Obj α} (h : Agree R L a b) : Agree R L b a := by
  induction h with
  | imm_imm h => exact .imm_imm (hR _ _ h)
  | imm_cont h => exact .cont_imm (hR _ _ h)
  | cont_imm h => exact .imm_cont (hR _ _ h)
  | cont_cont h => exact .cont_cont (hR _ _ h)
  | labeler h => exact .labeler (hL _ _ h)
  | opt hk _ ih => exact .opt (fun k => (hk k).symm) fun k v w hv hw => ih k w v hw hv

theorem Agree.trans {R : α → α → Prop} {L : Nat → Nat → Prop} (hR : ∀ a b c, R a b → R b c → R a c)
    (hL : ∀ i j k, L i j → L j k → L i k) {a b : Obj α} (h : Agree R L a b) : ∀ {c}, Agree R L b c → Agree R L a c := by
  induction h with
  | imm_imm h => intro c h'; cases h' with
    | imm_imm h' => exact .imm_imm (hR _ _ _ h h')
    | imm_cont h' => exact .imm_cont (hR _ _ _ h h')
  | imm_cont h => intro c h'; cases h' with
    | cont_imm h' => exact .imm_imm (hR _ _ _ h h')
    | cont_cont h' => exact .imm_cont (hR _ _ _ h h')
  | cont_imm h => intro c h'; cases h' with
    | imm_imm h' => exact .cont_imm (hR _ _ _ h h')
    | imm_cont h' => exact .cont_cont (hR _ _ _ h h')
  | cont_cont h => intro c h'; cases h' with
    | cont_imm h' => exact .cont_imm (hR _ _ _ h h')
    | cont_cont h' => exact .cont_cont (hR _ _ _ h h')
  | labeler h => intro c h'; cases h' with
    | labeler h' => exact .labeler (hL _ _ _ h h')
  | opt hk _ ih =>
    intro c h'
    cases h' with
    | opt hk' hv' =>
      refine .opt (fun k => (hk k).trans (hk' k)) fun k v w hv hw => ?_
      obtain ⟨⟨k', u⟩, hu, e⟩ := List.mem_map.1 ((hk k).1 (List.mem_map.2 ⟨_, hv, rfl⟩))
      simp only at e
      subst e
      exact ih _ v u hv hu (hv' _ u w hu hw)

/-! ### Copies -/

theorem mem_copyFields (fresh : Nat → Nat) (keep : Bool) (fs : Fields α) (kw : String × Obj α) :
    kw ∈ copyFields fresh keep fs ↔ ∃ kv ∈ fs, kw = (kv.1, if keep && kv.1 == "data_labeler_object" then kv.2
      else deepcopy fresh kv.2) := by
  induction fs with
  | nil => simp [copyFields]
  | cons kv rest ih => obtain ⟨k, v⟩ := kv; simp only [copyFields, List.mem_cons, ih, exists_eq_or_imp]

theorem keys_copyFields (fresh : Nat → Nat) (keep : Bool) (fs : Fields α) :
    (copyFields fresh keep fs).map Prod.fst = fs.map Prod.fst := by
  induction fs with
  | nil => rfl
  | cons kv rest ih => obtain ⟨k, v⟩ := kv; simp only [copyFields, List.map_cons, ih]

theorem proper_copy (fresh : Nat → Nat) (o : Obj α) : Proper o → Proper (deepcopy fresh o) := by
  induction o using Obj.ind with
  | hi a => exact fun _ => .imm
  | hc i a => exact fun _ => .cont
  | hl i => exact fun _ => .labeler
  | ho i c fs ih =>
    intro h
    cases h with | opt hn hp =>
    refine .opt (by rw [keys_copyFields]; exact hn) fun kw hkw => ?_
    obtain ⟨kv, hkv, rfl⟩ := (mem_copyFields ..).1 hkw
    dsimp only
    split
    · exact hp _ hkv
    · exact ih _ hkv (hp _ hkv)

theorem agree_copy {R : α → α → Prop} {L : Nat → Nat → Prop} (hR : ∀ a, R a a) (hL : ∀ i, L i i) (fresh : Nat → Nat)
    (o : Obj α) : Proper o → Usual o → Agree R L (deepcopy fresh o) o := by
  induction o using Obj.ind with
  | hi a => exact fun _ _ => .imm_imm (hR a)
  | hc i a => exact fun _ _ => .cont_cont (hR a)
  | hl i => intro _ h; cases h
  | ho i c fs ih =>
    intro h hu
    cases h with | opt hn hp =>
    cases hu with | opt hu _ =>
    simp only [deepcopy]
    refine .opt (fun k => by rw [keys_copyFields]) fun k v w hv hw => ?_
    obtain ⟨kv, hkv, e⟩ := (mem_copyFields ..).1 hv
    obtain ⟨k', v'⟩ := kv
    simp only [Prod.mk.injEq] at e
    obtain ⟨rfl, rfl⟩ := e
    have := (get?_some_iff hn).2 hw
    rw [(get?_some_iff hn).2 hkv] at this
    cases this
    split
    · exact Agree.refl hR hL _ (hp _ hkv)
    · next hk =>
      exact ih _ hkv (hp _ hkv) (hu _ hkv fun ⟨h1, h2⟩ => by simp only at h2; subst h1 h2; simp at hk)

/-- What can be reached from a copy is new or a data labeler that is kept. -/
theorem reach_copy (fresh : Nat → Nat) (addr : Nat) (o : Obj α) : Usual o → Reach addr (deepcopy fresh o) →
    (∃ j, Reach j o ∧ fresh j = addr) ∨ Held addr o := by
  induction o using Obj.ind with
  | hi a => intro _ h; cases h
  | hc i a => intro _ h; cases h; exact Or.inl ⟨i, .cont, rfl⟩
  | hl i => intro h; cases h
  | ho i c fs ih =>
    intro hu h
    cases hu with | opt hu hu' =>
    simp only [deepcopy] at h
    cases h with
    | here => exact Or.inl ⟨i, .here, rfl⟩
    | under hkw h =>
      obtain ⟨kv, hkv, rfl⟩ := (mem_copyFields ..).1 hkw
      dsimp only at h
      split at h
      · next hk =>
        simp only [Bool.and_eq_true, beq_iff_eq] at hk
        obtain ⟨rfl, hk⟩ := hk
        obtain ⟨k, v⟩ := kv
        simp only at hk h
        subst hk
        rcases hu' rfl _ hkv rfl with ⟨l, hl⟩ | ⟨a, ha⟩
        · simp only at hl
          subst hl
          cases h
          exact Or.inr (.here hkv)
        · simp only at ha
          subst ha
          cases h
      · next hk =>
        have hx := hu _ hkv fun ⟨h1, h2⟩ => by subst h1; simp [h2] at hk
        rcases ih _ hkv hx h with ⟨j, hj, e⟩ | hj
        · exact Or.inl ⟨j, .under hkv hj, e⟩
        · exact Or.inr (.under hkv hj)

theorem reach_of_held (addr : Nat) (o : Obj α) (h : Held addr o) : Reach addr o := by
  induction h with
  | here h => exact .under h .labeler
  | under h _ ih => exact .under h ih

theorem reach_copy_of_held (fresh : Nat → Nat) (addr : Nat) (o : Obj α) (h : Held addr o) (hu : Usual o) :
    Reach addr (deepcopy fresh o) := by
  induction h with
  | @here fields i h =>
    simp only [deepcopy]
    exact .under ((mem_copyFields ..).2 ⟨_, h, by simp; rfl⟩) .labeler
  | @under fields kv i c hkv h ih =>
    cases hu with | opt hu hu' =>
    simp only [deepcopy]
    refine .under ((mem_copyFields ..).2 ⟨kv, hkv, rfl⟩) ?_
    dsimp only
    split
    · exact reach_of_held _ _ h
    · next hk => exact ih (hu _ hkv fun ⟨h1, h2⟩ => by subst h1; simp [h2] at hk)

theorem pokeFields_eq_map (addr : Nat) (act : Act α) (fs : Fields α) :
    pokeFields addr act fs = fs.map fun kv => (kv.1, poke addr act kv.2) := by
  induction fs with
  | nil => rfl
  | cons kv rest ih => obtain ⟨k, v⟩ := kv; simp only [pokeFields, List.map_cons, ih]

theorem poke_unreached (addr : Nat) (act : Act α) (o : Obj α) : ¬ Reach addr o → poke addr act o = o := by
  induction o using Obj.ind with
  | hi a => intro _; rfl
  | hc i a =>
    intro h
    have : i ≠ addr := fun e => h (e ▸ .cont)
    cases act <;> simp [poke, this]
  | hl i => intro _; rfl
  | ho i c fs ih =>
    intro h
    have hi : i ≠ addr := fun e => h (e ▸ .here)
    have hf : pokeFields addr act fs = fs := by
      rw [pokeFields_eq_map]
      conv_rhs => rw [← List.map_id fs]
      refine List.map_congr_left fun kv hkv => ?_
      rw [ih kv hkv fun hr => h (.under hkv hr)]
      rfl
    cases act <;> simp [poke, hi, hf]

theorem mem_set (d : Fields α) (k : String) (v : Obj α) (kw : String × Obj α) (h : kw ∈ PyDict.set d k v) :
    kw = (k, v) ∨ (kw ∈ d) := by
  induction d with
  | nil => simp [PyDict.set] at h; exact Or.inl h
  | cons kv d ih =>
    obtain ⟨k', v'⟩ := kv
    simp only [PyDict.set] at h
    split at h
    · rcases List.mem_cons.1 h with h | h
      · exact Or.inl h
      · exact Or.inr (List.mem_cons_of_mem _ h)
    · rcases List.mem_cons.1 h with h | h
      · exact Or.inr (by simp [h])
      · exact (ih h).imp id (List.mem_cons_of_mem _)

theorem mem_set_self (d : Fields α) (k : String) (v : Obj α) : (k, v) ∈ PyDict.set d k v := by
  induction d with
  | nil => simp [PyDict.set]
  | cons kv d ih =>
    obtain ⟨k', v'⟩ := kv
    simp only [PyDict.set]
    split
    · simp
    · exact List.mem_cons_of_mem _ ih

theorem mem_set_other (d : Fields α) (k : String) (v : Obj α) (kw : String × Obj α) (h : kw ∈ d) (hk : kw.1 ≠ k) :
    kw ∈ PyDict.set d k v := by
  induction d with
  | nil => cases h
  | cons kv d ih =>
    obtain ⟨k', v'⟩ := kv
    simp only [PyDict.set]
    split
    · next e =>
      rcases List.mem_cons.1 h with h | h
      · subst h; exact absurd e hk
      · exact List.mem_cons_of_mem _ h
    · rcases List.mem_cons.1 h with h | h
      · simp [h]
      · exact List.mem_cons_of_mem _ (ih h)

end Verif.OptionObjects
