import Verif.S2tte.Encode

/-!
# Properties of stage-2 descriptors (C18, descriptor part of C12 and C16)
-/

namespace Verif.S2tte
open Spec

/-- Position of an entry's kind in the table of s2tt_pvt_defs.h:20-38. -/
def kindIdx : Entry → Nat
  | .unassigned .empty => 0
  | .unassigned .ram => 1
  | .unassigned .destroyed => 2
  | .assigned .empty _ => 3
  | .assigned .ram _ => 4
  | .assigned .destroyed _ => 5
  | .unassignedNs => 6
  | .assignedNs _ => 7
  | .table _ => 8

/-- C18: every legal entry has a descriptor; writing it trips no assertion. -/
theorem C18_encode_total (lpa2 : Bool) (level : Int) (e : Entry) (h : e.Ok lpa2 level) :
    ∃ w, encode lpa2 level e = some w := encode_total lpa2 level e h

/-- C18: the descriptor of an entry is recognised by the predicate of its own
kind and by no other. -/
theorem C18_recognised_exactly (lpa2 : Bool) (level : Int) (e : Entry) (w : W)
    (h : e.Ok lpa2 level) (hw : encode lpa2 level e = some w) (k : Nat) (hk : k < 9) :
    (recognisers w level)[k]? = some (decide (k = kindIdx e)) := by
  have hk' : k = 0 ∨ k = 1 ∨ k = 2 ∨ k = 3 ∨ k = 4 ∨ k = 5 ∨ k = 6 ∨ k = 7 ∨ k = 8 := by omega
  cases e with
  | unassigned r =>
    have hns : ∀ w' : W, w' = createUnassignedEmpty ∨ w' = createUnassignedRam ∨
        w' = createUnassignedDestroyed →
        isAssignedRam w' level = false ∧ isAssignedNs w' level = false ∧
        isTable w' level = false := by
      intro w' hw'
      have hd : w' &&& DESC_TYPE_MASK = 0 ∧ w' &&& NS = 0 := by
        rcases hw' with rfl | rfl | rfl <;> decide
      simp only [isAssignedRam, isAssignedNs, isTable, check, hd.1, hd.2]
      have a : ¬ (0#64 = L3_PAGE) := by decide
      have b : ¬ (0#64 = L012_BLOCK) := by decide
      have c : ¬ (0#64 = L012_TABLE) := by decide
      have d : 0#64 ≠ NS := by decide
      simp [a, b, c, d]
    obtain ⟨x1, x2, x3⟩ := hns w (by
      cases r <;> (simp only [encode, Option.some.injEq] at hw; subst hw; simp))
    simp only [recognisers, x1, x2, x3]
    cases r <;> (simp only [encode, Option.some.injEq] at hw; subst hw) <;>
      rcases hk' with rfl | rfl | rfl | rfl | rfl | rfl | rfl | rfl | rfl <;> rfl
  | unassignedNs =>
    simp only [encode, Option.some.injEq] at hw; subst hw
    have x1 : isAssignedRam createUnassignedNs level = false := by
      have : ¬ (createUnassignedNs &&& NS = 0#64) := by decide
      simp [isAssignedRam, check, this]
    have x2 : isAssignedNs createUnassignedNs level = false := by
      have a : ¬ (createUnassignedNs &&& DESC_TYPE_MASK = L3_PAGE) := by decide
      have b : ¬ (createUnassignedNs &&& DESC_TYPE_MASK = L012_BLOCK) := by decide
      simp [isAssignedNs, check, a, b]
    have x3 : isTable createUnassignedNs level = false := by
      have a : ¬ (createUnassignedNs &&& DESC_TYPE_MASK = L012_TABLE) := by decide
      simp [isTable, a]
    simp only [recognisers, x1, x2, x3, kindIdx]
    rcases hk' with rfl | rfl | rfl | rfl | rfl | rfl | rfl | rfl | rfl <;> rfl
  | assigned r pa =>
    obtain ⟨h1, h3, hp⟩ := h
    have hm := tte_masked lpa2 level pa h3 hp
    cases r
    · simp only [encode] at hw
      rw [createAssignedEmpty, createAssigned_inv lpa2 pa level _ h1 h3 (by simp) hp] at hw
      obtain rfl := Option.some.inj hw
      obtain ⟨f1, f2, f3, f4⟩ := fields_tte (paToS2tte pa lpa2) (HIPAS_ASSIGNED ||| RIPAS_EMPTY) hm
      rw [recognisers_congr _ _ level f1 f2 f3 f4]
      rcases levels_cases h1 h3 with rfl | rfl | rfl <;>
      rcases hk' with rfl | rfl | rfl | rfl | rfl | rfl | rfl | rfl | rfl <;> rfl
    · simp only [encode] at hw
      rw [createAssigned_ram lpa2 pa level h1 h3 hp] at hw
      obtain rfl := Option.some.inj hw
      obtain ⟨f1, f2, f3, f4⟩ := fields_tte (paToS2tte pa lpa2) (ramAttrs lpa2 level) hm
      rw [recognisers_congr _ _ level f1 f2 f3 f4]
      rcases levels_cases h1 h3 with rfl | rfl | rfl <;> cases lpa2 <;>
      rcases hk' with rfl | rfl | rfl | rfl | rfl | rfl | rfl | rfl | rfl <;> rfl
    · simp only [encode] at hw
      rw [createAssignedDestroyed, createAssigned_inv lpa2 pa level _ h1 h3 (by simp) hp] at hw
      obtain rfl := Option.some.inj hw
      obtain ⟨f1, f2, f3, f4⟩ :=
        fields_tte (paToS2tte pa lpa2) (HIPAS_ASSIGNED ||| RIPAS_DESTROYED) hm
      rw [recognisers_congr _ _ level f1 f2 f3 f4]
      rcases levels_cases h1 h3 with rfl | rfl | rfl <;>
      rcases hk' with rfl | rfl | rfl | rfl | rfl | rfl | rfl | rfl | rfl <;> rfl
  | assignedNs hd =>
    obtain ⟨h1, h3, hh⟩ := h
    simp only [encode] at hw
    rw [createAssignedNs_eq lpa2 level hd h1 h3 hh] at hw
    obtain rfl := Option.some.inj hw
    obtain ⟨f1, f2⟩ := fields_host hd (nsAttrs lpa2 level) (host_masked lpa2 level hd h3 hh)
    have hv : nsAttrs lpa2 level &&& DESC_TYPE_MASK ≠ 0 := by
      rcases levels_cases h1 h3 with rfl | rfl | rfl <;> cases lpa2 <;> decide
    rw [recognisers_congr_valid _ _ level f1 f2 hv]
    rcases levels_cases h1 h3 with rfl | rfl | rfl <;> cases lpa2 <;>
      rcases hk' with rfl | rfl | rfl | rfl | rfl | rfl | rfl | rfl | rfl <;> rfl
  | table pa =>
    obtain ⟨h1, h3, hp⟩ := h
    have hm := tte_masked lpa2 3 pa (by omega) hp
    simp only [encode] at hw
    rw [createTable_ok lpa2 pa level h1 h3 hp] at hw
    obtain rfl := Option.some.inj hw
    obtain ⟨f1, f2, f3, f4⟩ := fields_tte (paToS2tte pa lpa2) L012_TABLE hm
    rw [recognisers_congr _ _ level f1 f2 f3 f4]
    have : level = -1 ∨ level = 0 ∨ level = 1 ∨ level = 2 := by
      cases lpa2 <;> simp at h1 <;> omega
    rcases this with rfl | rfl | rfl | rfl <;>
      rcases hk' with rfl | rfl | rfl | rfl | rfl | rfl | rfl | rfl | rfl <;> rfl

/-- The physical address an entry carries (for an unprotected mapping: the one
the host named). -/
def entryPa (lpa2 : Bool) (level : Int) (e : Entry) (pa : W) : Prop :=
  match e with
  | .assigned _ p => pa = p
  | .table p => pa = p
  | .assignedNs h => ∀ i, pa.getLsbD i = hostPaBit lpa2 level h i
  | _ => False

theorem attrs_off (lpa2 : Bool) (level : Int) (h1 : 1 ≤ level) (h3 : level ≤ 3) :
    ∀ i, (ramAttrs lpa2 level).getLsbD i = true → ¬ (lsbOf level ≤ i ∧ i ≤ 47) ∧
      (lpa2 = true → ¬ (8 ≤ i ∧ i ≤ 9) ∧ ¬ (48 ≤ i ∧ i ≤ 49)) := by
  intro i hi
  have hlt : i < 64 := by
    apply Classical.byContradiction; intro hge
    rw [BitVec.getLsbD_of_ge _ _ (by omega)] at hi; simp at hi
  have : ∀ i : Fin 64, (ramAttrs lpa2 level).getLsbD i = true → i.val ≤ 10 ∧
      (lpa2 = true → ¬ (8 ≤ i.val ∧ i.val ≤ 9)) := by
    rcases levels_cases h1 h3 with rfl | rfl | rfl <;> cases lpa2 <;> decide
  have := this ⟨i, hlt⟩ hi
  have hl : 12 ≤ lsbOf level := by unfold lsbOf; omega
  simp at this
  refine ⟨by omega, fun h => ⟨this.2 h |> fun f => by omega, by omega⟩⟩

theorem inv_off (lpa2 : Bool) (level : Int) (C : W)
    (hC : C = HIPAS_ASSIGNED ||| RIPAS_EMPTY ∨ C = HIPAS_ASSIGNED ||| RIPAS_DESTROYED ∨
      C = L012_TABLE) :
    ∀ i, C.getLsbD i = true → ¬ (lsbOf level ≤ i ∧ i ≤ 47) ∧
      (lpa2 = true → ¬ (8 ≤ i ∧ i ≤ 9) ∧ ¬ (48 ≤ i ∧ i ≤ 49)) := by
  intro i hi
  have hlt : i < 64 := by
    apply Classical.byContradiction; intro hge
    rw [BitVec.getLsbD_of_ge _ _ (by omega)] at hi; simp at hi
  have : ∀ i : Fin 64, C.getLsbD i = true → i.val < 8 := by
    rcases hC with rfl | rfl | rfl <;> decide
  have := this ⟨i, hlt⟩ hi
  have hl : 12 ≤ lsbOf level := by unfold lsbOf; omega
  simp at this
  exact ⟨by omega, fun _ => ⟨by omega, by omega⟩⟩

theorem ns_off (lpa2 : Bool) (level : Int) (h1 : 1 ≤ level) (h3 : level ≤ 3) (i : Nat)
    (hr : (lsbOf level ≤ i ∧ i ≤ 47) ∨ (lpa2 = true ∧ ((8 ≤ i ∧ i ≤ 9) ∨ (48 ≤ i ∧ i ≤ 49)))) :
    (nsAttrs lpa2 level).getLsbD i = false := by
  have : ∀ i : Fin 64, ((lsbOf level ≤ i.val ∧ i.val ≤ 47) ∨
      (lpa2 = true ∧ ((8 ≤ i.val ∧ i.val ≤ 9) ∨ (48 ≤ i.val ∧ i.val ≤ 49)))) →
      (nsAttrs lpa2 level).getLsbD i = false := by
    rcases levels_cases h1 h3 with rfl | rfl | rfl <;> cases lpa2 <;> decide
  exact this ⟨i, by omega⟩ hr

/-- Host descriptor bits seen through the MMU are unaffected by the bits RMM adds. -/
theorem hwOaBit_ns (lpa2 : Bool) (level : Int) (h : W) (h1 : 1 ≤ level) (h3 : level ≤ 3) (i : Nat) :
    hwOaBit lpa2 (offBits level) (h ||| nsAttrs lpa2 level) i = hwOaBit lpa2 (offBits level) h i := by
  have hl := lsbOf_eq level
  have hb : offBits level ≤ 30 := by unfold offBits; omega
  unfold hwOaBit
  split
  · rw [BitVec.getLsbD_or, ns_off lpa2 level h1 h3 i (by omega)]; simp
  · split
    · rename_i hx
      rw [BitVec.getLsbD_or, ns_off lpa2 level h1 h3 i (Or.inr ⟨hx.1, by omega⟩)]; simp
    · split
      · rename_i hx
        rw [BitVec.getLsbD_or, ns_off lpa2 level h1 h3 (i - 42) (Or.inr ⟨hx.1, by omega⟩)]; simp
      · rfl

theorem recog_of (lpa2 : Bool) (level : Int) (e : Entry) (w : W)
    (h : e.Ok lpa2 level) (hw : encode lpa2 level e = some w) :
    isUnassignedEmpty w = decide (0 = kindIdx e) ∧ isUnassignedRam w = decide (1 = kindIdx e) ∧
    isUnassignedDestroyed w = decide (2 = kindIdx e) ∧
    isAssignedEmpty w level = decide (3 = kindIdx e) ∧
    isAssignedRam w level = decide (4 = kindIdx e) ∧
    isAssignedDestroyed w level = decide (5 = kindIdx e) ∧
    isUnassignedNs w = decide (6 = kindIdx e) ∧ isAssignedNs w level = decide (7 = kindIdx e) ∧
    isTable w level = decide (8 = kindIdx e) := by
  have H := C18_recognised_exactly lpa2 level e w h hw
  refine ⟨?_, ?_, ?_, ?_, ?_, ?_, ?_, ?_, ?_⟩
  · simpa [recognisers] using H 0 (by omega)
  · simpa [recognisers] using H 1 (by omega)
  · simpa [recognisers] using H 2 (by omega)
  · simpa [recognisers] using H 3 (by omega)
  · simpa [recognisers] using H 4 (by omega)
  · simpa [recognisers] using H 5 (by omega)
  · simpa [recognisers] using H 6 (by omega)
  · simpa [recognisers] using H 7 (by omega)
  · simpa [recognisers] using H 8 (by omega)

/-- Descriptor type of each kind of entry. -/
def descTypeOf (level : Int) : Entry → W
  | .assigned .ram _ => if level = 3 then L3_PAGE else L012_BLOCK
  | .assignedNs _ => if level = 3 then L3_PAGE else L012_BLOCK
  | .table _ => L012_TABLE
  | _ => 0

theorem descTypeOf_ram (level : Int) (pa : W) : descTypeOf level (.assigned .ram pa) ≠ 0 := by
  simp only [descTypeOf]; split <;> decide
theorem descTypeOf_ns (level : Int) (h : W) : descTypeOf level (.assignedNs h) ≠ 0 := by
  simp only [descTypeOf]; split <;> decide
theorem descTypeOf_table (level : Int) (pa : W) : descTypeOf level (.table pa) ≠ 0 := by
  simp only [descTypeOf]; decide

/-- Descriptor type field of an encoded entry. -/
theorem desc_type (lpa2 : Bool) (level : Int) (e : Entry) (w : W)
    (h : e.Ok lpa2 level) (hw : encode lpa2 level e = some w) :
    w &&& DESC_TYPE_MASK = descTypeOf level e := by
  cases e with
  | unassigned r =>
    cases r <;> (simp only [encode, Option.some.injEq] at hw; subst hw; rfl)
  | unassignedNs => simp only [encode, Option.some.injEq] at hw; subst hw; rfl
  | assigned r pa =>
    obtain ⟨h1, h3, hp⟩ := h
    have hm := tte_masked lpa2 level pa h3 hp
    cases r
    · simp only [encode] at hw
      rw [createAssignedEmpty, createAssigned_inv lpa2 pa level _ h1 h3 (by simp) hp] at hw
      obtain rfl := Option.some.inj hw
      rw [(fields_tte _ _ hm).1]; rfl
    · simp only [encode] at hw
      rw [createAssigned_ram lpa2 pa level h1 h3 hp] at hw
      obtain rfl := Option.some.inj hw
      rw [(fields_tte _ _ hm).1]
      rcases levels_cases h1 h3 with rfl | rfl | rfl <;> cases lpa2 <;> rfl
    · simp only [encode] at hw
      rw [createAssignedDestroyed, createAssigned_inv lpa2 pa level _ h1 h3 (by simp) hp] at hw
      obtain rfl := Option.some.inj hw
      rw [(fields_tte _ _ hm).1]; rfl
  | assignedNs hd =>
    obtain ⟨h1, h3, hh⟩ := h
    simp only [encode] at hw
    rw [createAssignedNs_eq lpa2 level hd h1 h3 hh] at hw
    obtain rfl := Option.some.inj hw
    rw [(fields_host hd _ (host_masked lpa2 level hd h3 hh)).1]
    rcases levels_cases h1 h3 with rfl | rfl | rfl <;> cases lpa2 <;> rfl
  | table pa =>
    obtain ⟨h1, h3, hp⟩ := h
    have hm := tte_masked lpa2 3 pa (by omega) hp
    simp only [encode] at hw
    rw [createTable_ok lpa2 pa level h1 h3 hp] at hw
    obtain rfl := Option.some.inj hw
    rw [(fields_tte _ _ hm).1]; rfl

/-- C18: `s2tte_pa` gives back exactly the address the entry was made with, for
every entry that carries one. -/
theorem C18_pa_roundtrip (lpa2 : Bool) (level : Int) (e : Entry) (w pa : W)
    (h : e.Ok lpa2 level) (hw : encode lpa2 level e = some w) (hp : entryPa lpa2 level e pa) :
    s2ttePa lpa2 w level = some pa := by
  have hr := recog_of lpa2 level e w h hw
  have hd := desc_type lpa2 level e w h hw
  unfold s2ttePa
  cases e with
  | unassigned r => exact absurd hp id
  | unassignedNs => exact absurd hp id
  | assigned r p =>
    obtain rfl : pa = p := hp
    obtain ⟨h1, h3, hpa⟩ := h
    have hmin : minLevel lpa2 ≤ level := by have := minLevel_le_one lpa2; omega
    have ht : isTable w level = false := by rw [hr.2.2.2.2.2.2.2.2]; cases r <;> rfl
    have hlive : hasPa w level = true := by
      unfold hasPa
      rw [hr.2.2.2.1, hr.2.2.2.2.2.1, hd]
      cases r
      · simp [kindIdx]
      · simp only [descTypeOf_ram, decide_true, ne_eq, not_false_eq_true, Bool.true_or]
      · simp [kindIdx]
    rw [if_pos ⟨hmin, h3, hlive⟩, ht]
    simp only [Bool.false_eq_true, if_false, Option.some.injEq]
    cases r
    · simp only [encode] at hw
      rw [createAssignedEmpty, createAssigned_inv lpa2 pa level _ h1 h3 (by simp) hpa] at hw
      obtain rfl := Option.some.inj hw
      exact toPa_tte lpa2 level pa _ h3 hpa (inv_off lpa2 level _ (by simp))
    · simp only [encode] at hw
      rw [createAssigned_ram lpa2 pa level h1 h3 hpa] at hw
      obtain rfl := Option.some.inj hw
      exact toPa_tte lpa2 level pa _ h3 hpa (attrs_off lpa2 level h1 h3)
    · simp only [encode] at hw
      rw [createAssignedDestroyed, createAssigned_inv lpa2 pa level _ h1 h3 (by simp) hpa] at hw
      obtain rfl := Option.some.inj hw
      exact toPa_tte lpa2 level pa _ h3 hpa (inv_off lpa2 level _ (by simp))
  | assignedNs hdv =>
    obtain ⟨h1, h3, hh⟩ := h
    have hmin : minLevel lpa2 ≤ level := by have := minLevel_le_one lpa2; omega
    have ht : isTable w level = false := by rw [hr.2.2.2.2.2.2.2.2]; rfl
    have hlive : hasPa w level = true := by
      unfold hasPa
      rw [hd]
      simp only [descTypeOf_ns, decide_true, ne_eq, not_false_eq_true, Bool.true_or]
    rw [if_pos ⟨hmin, h3, hlive⟩, ht]
    simp only [Bool.false_eq_true, if_false, Option.some.injEq]
    simp only [encode] at hw
    rw [createAssignedNs_eq lpa2 level hdv h1 h3 hh] at hw
    obtain rfl := Option.some.inj hw
    apply BitVec.eq_of_getLsbD_eq
    intro i hi
    rw [getLsbD_toPa _ _ _ h3, lsbOf_eq, hwOaBit_ns lpa2 level hdv h1 h3 i]
    exact (hp i).symm
  | table p =>
    obtain rfl : pa = p := hp
    obtain ⟨h1, h3, hpa⟩ := h
    have ht : isTable w level = true := by rw [hr.2.2.2.2.2.2.2.2]; rfl
    have hlive : hasPa w level = true := by
      unfold hasPa; rw [hd]
      simp only [descTypeOf_table, decide_true, ne_eq, not_false_eq_true, Bool.true_or]
    rw [if_pos ⟨by simpa [minLevel] using h1, by omega, hlive⟩, ht]
    simp only [if_true, Option.some.injEq]
    simp only [encode] at hw
    rw [createTable_ok lpa2 pa level h1 h3 hpa] at hw
    obtain rfl := Option.some.inj hw
    exact toPa_tte lpa2 3 pa _ (by omega) hpa (inv_off lpa2 3 _ (by simp))

/-- C18: the RIPAS of a protected entry is read back. -/
theorem C18_ripas_roundtrip (lpa2 : Bool) (level : Int) (e : Entry) (w : W) (r : Ripas)
    (h : e.Ok lpa2 level) (hw : encode lpa2 level e = some w)
    (he : e = .unassigned r ∨ ∃ pa, e = .assigned r pa) :
    getRipas w = some (BitVec.ofNat 64 r.code) ∧ hasRipas w level = true := by
  have hr := recog_of lpa2 level e w h hw
  have hd := desc_type lpa2 level e w h hw
  have ht : isTable w level = false := by
    rw [hr.2.2.2.2.2.2.2.2]
    rcases he with rfl | ⟨pa, rfl⟩ <;> cases r <;> rfl
  rcases he with rfl | ⟨pa, rfl⟩
  · simp only [hasRipas, ht]
    cases r <;> (simp only [encode, Option.some.injEq] at hw; subst hw; decide)
  · obtain ⟨h1, h3, hp⟩ := h
    have hm := tte_masked lpa2 level pa h3 hp
    simp only [hasRipas, ht]
    cases r
    · simp only [encode] at hw
      rw [createAssignedEmpty, createAssigned_inv lpa2 pa level _ h1 h3 (by simp) hp] at hw
      obtain rfl := Option.some.inj hw
      obtain ⟨f1, f2, f3, f4⟩ := fields_tte (paToS2tte pa lpa2) (HIPAS_ASSIGNED ||| RIPAS_EMPTY) hm
      simp only [getRipas, f1, f2, f3, f4]
      decide
    · simp only [encode] at hw
      rw [createAssigned_ram lpa2 pa level h1 h3 hp] at hw
      obtain rfl := Option.some.inj hw
      obtain ⟨f1, f2, f3, f4⟩ := fields_tte (paToS2tte pa lpa2) (ramAttrs lpa2 level) hm
      simp only [getRipas, f1, f2, f3, f4]
      rcases levels_cases h1 h3 with rfl | rfl | rfl <;> cases lpa2 <;> decide
    · simp only [encode] at hw
      rw [createAssignedDestroyed, createAssigned_inv lpa2 pa level _ h1 h3 (by simp) hp] at hw
      obtain rfl := Option.some.inj hw
      obtain ⟨f1, f2, f3, f4⟩ :=
        fields_tte (paToS2tte pa lpa2) (HIPAS_ASSIGNED ||| RIPAS_DESTROYED) hm
      simp only [getRipas, f1, f2, f3, f4]
      decide

/-- C18: exactly the entries with an address are live. -/
theorem C18_live_iff (lpa2 : Bool) (level : Int) (e : Entry) (w : W)
    (h : e.Ok lpa2 level) (hw : encode lpa2 level e = some w) :
    isLive w level = true ↔ ∃ pa, entryPa lpa2 level e pa := by
  have hr := recog_of lpa2 level e w h hw
  have hd := desc_type lpa2 level e w h hw
  unfold isLive hasPa
  rw [hr.2.2.2.1, hr.2.2.2.2.2.1, hd]
  cases e with
  | unassigned r => cases r <;> simp [kindIdx, entryPa, descTypeOf]
  | unassignedNs => simp [kindIdx, entryPa, descTypeOf]
  | assigned r p =>
    obtain ⟨h1, h3, _⟩ := h
    have : ∃ pa, entryPa lpa2 level (.assigned r p) pa := ⟨p, rfl⟩
    simp only [this, iff_true]
    cases r
    · simp [kindIdx]
    · simp only [descTypeOf_ram, decide_true, ne_eq, not_false_eq_true, Bool.true_or]
    · simp [kindIdx]
  | assignedNs hv =>
    obtain ⟨h1, h3, hh⟩ := h
    have : ∃ pa, entryPa lpa2 level (.assignedNs hv) pa := by
      refine ⟨toPa hv level lpa2, fun i => ?_⟩
      rw [getLsbD_toPa _ _ _ h3, lsbOf_eq]; rfl
    simp only [this, iff_true]
    simp only [descTypeOf_ns, decide_true, ne_eq, not_false_eq_true, Bool.true_or]
  | table p =>
    have : ∃ pa, entryPa lpa2 level (.table p) pa := ⟨p, rfl⟩
    simp only [this, iff_true]
    simp only [descTypeOf_table, decide_true, ne_eq, not_false_eq_true, Bool.true_or]

theorem bit_and (w M : W) (i : Nat) (hM : M.getLsbD i = true) :
    w.getLsbD i = (w &&& M).getLsbD i := by
  rw [BitVec.getLsbD_and, hM, Bool.and_true]

/-- What the MMU should make of each kind of entry. -/
def HwView (lpa2 : Bool) (level : Int) (w : W) : Entry → Prop
  | .unassigned _ => HwInvalid w
  | .unassignedNs => HwInvalid w
  | .assigned .ram pa => HwLeaf lpa2 level w pa false
  | .assigned _ _ => HwInvalid w
  | .assignedNs hd => ∀ pa, entryPa lpa2 level (.assignedNs hd) pa → HwLeaf lpa2 level w pa true
  | .table pa => HwTable lpa2 level w pa

/-- C18: what the MMU makes of each entry.  Entries without a mapping for the
Realm (every RIPAS but RAM, and unassigned ones) fault; RAM maps the granule in
the Realm address space; unprotected mappings map the host's address in the
Non-secure address space. -/
theorem C18_hardware_view (lpa2 : Bool) (level : Int) (e : Entry) (w : W)
    (h : e.Ok lpa2 level) (hw : encode lpa2 level e = some w) :
    HwView lpa2 level w e := by
  have hd := desc_type lpa2 level e w h hw
  have b0 : w.getLsbD 0 = (w &&& DESC_TYPE_MASK).getLsbD 0 := bit_and w _ 0 (by decide)
  have b1 : w.getLsbD 1 = (w &&& DESC_TYPE_MASK).getLsbD 1 := bit_and w _ 1 (by decide)
  have hpar := C18_pa_roundtrip lpa2 level e w
  rw [hd] at b0 b1
  cases e with
  | unassigned r => cases r <;> (simp only [HwView, HwInvalid, b0, descTypeOf]; decide)
  | unassignedNs => simp only [HwView, HwInvalid, b0, descTypeOf]; decide
  | assigned r pa =>
    obtain ⟨h1, h3, hp⟩ := h
    cases r
    · simp only [HwView, HwInvalid, b0, descTypeOf]; decide
    · have hpa := hpar pa ⟨h1, h3, hp⟩ hw rfl
      have ht : isTable w level = false := by
        rw [(recog_of lpa2 level (.assigned .ram pa) w ⟨h1, h3, hp⟩ hw).2.2.2.2.2.2.2.2]; rfl
      simp only [s2ttePa, ht] at hpa
      split at hpa
      · simp only [Bool.false_eq_true, if_false, Option.some.injEq] at hpa
        have hm := tte_masked lpa2 level pa h3 hp
        simp only [encode] at hw
        rw [createAssigned_ram lpa2 pa level h1 h3 hp] at hw
        have hwe := Option.some.inj hw
        have b55 : w.getLsbD 55 = false := by
          rw [bit_and w NS 55 (by decide), ← hwe, (fields_tte _ _ hm).2.1]
          rcases levels_cases h1 h3 with rfl | rfl | rfl <;> cases lpa2 <;> decide
        have b10 : w.getLsbD 10 = true := by
          rw [← hwe, BitVec.getLsbD_or, Bool.or_eq_true]; right
          rcases levels_cases h1 h3 with rfl | rfl | rfl <;> cases lpa2 <;> decide
        refine ⟨?_, ?_, b55, b10, ?_⟩
        · rw [b0]; rcases levels_cases h1 h3 with rfl | rfl | rfl <;> simp [descTypeOf, L3_PAGE, L012_BLOCK]
        · rw [b1]; rcases levels_cases h1 h3 with rfl | rfl | rfl <;> simp [descTypeOf, L3_PAGE, L012_BLOCK]
        · intro i; rw [← hpa, getLsbD_toPa _ _ _ h3, lsbOf_eq]
      · simp at hpa
    · simp only [HwView, HwInvalid, b0, descTypeOf]; decide
  | assignedNs hv =>
    obtain ⟨h1, h3, hh⟩ := h
    intro pa hp
    have hm := host_masked lpa2 level hv h3 hh
    simp only [encode] at hw
    rw [createAssignedNs_eq lpa2 level hv h1 h3 hh] at hw
    have hwe := Option.some.inj hw
    have b55 : w.getLsbD 55 = true := by
      rw [bit_and w NS 55 (by decide), ← hwe, (fields_host _ _ hm).2]
      rcases levels_cases h1 h3 with rfl | rfl | rfl <;> cases lpa2 <;> decide
    have b10 : w.getLsbD 10 = true := by
      rw [← hwe, BitVec.getLsbD_or, Bool.or_eq_true]; right
      rcases levels_cases h1 h3 with rfl | rfl | rfl <;> cases lpa2 <;> decide
    refine ⟨?_, ?_, b55, b10, ?_⟩
    · rw [b0]; rcases levels_cases h1 h3 with rfl | rfl | rfl <;> simp [descTypeOf, L3_PAGE, L012_BLOCK]
    · rw [b1]; rcases levels_cases h1 h3 with rfl | rfl | rfl <;> simp [descTypeOf, L3_PAGE, L012_BLOCK]
    · intro i; rw [← hwe, hwOaBit_ns lpa2 level hv h1 h3 i]; exact hp i
  | table pa =>
    have ht : isTable w level = true := by
      rw [(recog_of lpa2 level _ w h hw).2.2.2.2.2.2.2.2]; rfl
    have hpa := hpar pa h hw rfl
    simp only [s2ttePa, ht] at hpa
    split at hpa
    · simp only [if_true, Option.some.injEq] at hpa
      refine ⟨h.2.1, by rw [b0]; simp [descTypeOf, L012_TABLE], by rw [b1]; simp [descTypeOf, L012_TABLE], ?_⟩
      intro i
      rw [← hpa, getLsbD_toPa _ _ _ (by omega)]
      rfl
    · simp at hpa

/-- C18: two legal entries with the same descriptor are the same entry. -/
theorem C18_encode_injective (lpa2 : Bool) (level : Int) (e f : Entry) (w : W)
    (he : e.Ok lpa2 level) (hf : f.Ok lpa2 level)
    (hwe : encode lpa2 level e = some w) (hwf : encode lpa2 level f = some w) : e = f := by
  have hk : kindIdx e = kindIdx f := by
    have hlt : kindIdx e < 9 := by
      cases e with
      | unassigned r => cases r <;> decide
      | assigned r _ => cases r <;> simp [kindIdx]
      | _ => simp [kindIdx]
    have a := C18_recognised_exactly lpa2 level e w he hwe (kindIdx e) hlt
    have b := C18_recognised_exactly lpa2 level f w hf hwf (kindIdx e) hlt
    rw [a] at b; simpa using b
  have hpa : ∀ p q, entryPa lpa2 level e p → entryPa lpa2 level f q → p = q := by
    intro p q hp hq
    have a := C18_pa_roundtrip lpa2 level e w p he hwe hp
    have b := C18_pa_roundtrip lpa2 level f w q hf hwf hq
    rw [a] at b; exact Option.some.inj b
  cases e with
  | unassigned r =>
    cases f with
    | unassigned r' => cases r <;> cases r' <;> simp_all [kindIdx]
    | assigned r' _ => cases r <;> cases r' <;> simp [kindIdx] at hk
    | _ => cases r <;> simp [kindIdx] at hk
  | unassignedNs =>
    cases f with
    | unassigned r' => cases r' <;> simp [kindIdx] at hk
    | assigned r' _ => cases r' <;> simp [kindIdx] at hk
    | unassignedNs => rfl
    | _ => simp [kindIdx] at hk
  | assigned r p =>
    cases f with
    | unassigned r' => cases r <;> cases r' <;> simp [kindIdx] at hk
    | assigned r' q =>
      have := hpa p q rfl rfl
      cases r <;> cases r' <;> simp_all [kindIdx]
    | _ => cases r <;> simp [kindIdx] at hk
  | assignedNs h =>
    cases f with
    | unassigned r' => cases r' <;> simp [kindIdx] at hk
    | assigned r' _ => cases r' <;> simp [kindIdx] at hk
    | assignedNs h' =>
      obtain ⟨h1, h3, hh⟩ := he
      obtain ⟨_, _, hh'⟩ := hf
      simp only [encode] at hwe hwf
      rw [createAssignedNs_eq lpa2 level h h1 h3 hh] at hwe
      rw [createAssignedNs_eq lpa2 level h' h1 h3 hh'] at hwf
      have a := hostNs_roundtrip lpa2 level h h1 h3 hh
      have b := hostNs_roundtrip lpa2 level h' h1 h3 hh'
      rw [Option.some.inj hwe] at a
      rw [Option.some.inj hwf] at b
      rw [a] at b
      rw [Option.some.inj b]
    | _ => simp [kindIdx] at hk
  | table p =>
    cases f with
    | unassigned r' => cases r' <;> simp [kindIdx] at hk
    | assigned r' _ => cases r' <;> simp [kindIdx] at hk
    | table q => rw [hpa p q rfl rfl]
    | _ => simp [kindIdx] at hk

/-- C12: the check applied to a host descriptor accepts exactly the well-formed ones. -/
theorem C12_host_descriptor_valid_iff (lpa2 : Bool) (level : Int) (h : W)
    (h1 : 1 ≤ level) (h3 : level ≤ 3) :
    hostNsIsValid lpa2 h level = some true ↔ HostOk lpa2 level h :=
  hostOk_iff lpa2 level h h1 h3

/-- C18: the attributes of mapped memory, bit for bit. -/
theorem C18_ram_attributes (lpa2 : Bool) (level : Int) (pa w : W) (h : (Entry.assigned .ram pa).Ok lpa2 level)
    (hw : encode lpa2 level (.assigned .ram pa) = some w) (i : Nat) (hi : attrPos lpa2 i) :
    w.getLsbD i = ramAttr lpa2 level i := by
  obtain ⟨h1, h3, hp⟩ := h
  simp only [encode] at hw
  rw [createAssigned_ram lpa2 pa level h1 h3 hp] at hw
  rw [← Option.some.inj hw, BitVec.getLsbD_or]
  by_cases h64 : 64 ≤ i
  · rw [BitVec.getLsbD_of_ge _ _ h64, BitVec.getLsbD_of_ge _ _ h64]
    unfold ramAttr
    simp
    omega
  have hz : (paToS2tte pa lpa2).getLsbD i = false := by
    refine Bool.eq_false_iff.mpr (fun hc => ?_)
    have hb := (paOk_iff_bits _ _ _).1 hp
    have hoff : 12 ≤ offBits level := by unfold offBits; omega
    unfold attrPos at hi
    cases lpa2 with
    | false =>
      have := hb i hc
      simp [paBits] at this hi
      omega
    | true =>
      rw [getLsbD_paToS2tte] at hc
      simp at hi hc
      rcases hc with hc | hc
      · have := hb i hc.1
        simp [paBits] at this
        omega
      · omega
  rw [hz, Bool.false_or]
  have key : ∀ k : Fin 64, (ramAttrs lpa2 level).getLsbD k.val = ramAttr lpa2 level k.val := by
    rcases levels_cases h1 h3 with rfl | rfl | rfl <;> cases lpa2 <;> decide
  exact key ⟨i, by omega⟩

theorem C18_ns_attributes (lpa2 : Bool) (level : Int) (hd w : W) (h : (Entry.assignedNs hd).Ok lpa2 level)
    (hw : encode lpa2 level (.assignedNs hd) = some w) (i : Nat) (hi : attrPos lpa2 i) :
    w.getLsbD i = nsAttr lpa2 level hd i := by
  obtain ⟨h1, h3, hh⟩ := h
  simp only [encode] at hw
  rw [createAssignedNs_eq lpa2 level hd h1 h3 hh] at hw
  rw [← Option.some.inj hw, BitVec.getLsbD_or]
  by_cases h64 : 64 ≤ i
  · rw [BitVec.getLsbD_of_ge _ _ h64, BitVec.getLsbD_of_ge _ _ h64]
    unfold nsAttr
    simp
    omega
  have key : ∀ k : Fin 64, (nsAttrs lpa2 level).getLsbD k.val = (k.val == 0 || (k.val == 1 && level == 3) ||
      (!lpa2 && (k.val == 8 || k.val == 9)) || k.val == 10 || k.val == 54 || k.val == 55) := by
    rcases levels_cases h1 h3 with rfl | rfl | rfl <;> cases lpa2 <;> decide
  have k := key ⟨i, by omega⟩
  dsimp only at k
  rw [k]
  have hb := hh.1 i
  have hoff : 12 ≤ offBits level := by unfold offBits; omega
  by_cases hx : (2 ≤ i ∧ i ≤ 4) ∨ i = 6 ∨ i = 7
  · have e : ((2 ≤ i && i ≤ 4) || i == 6 || i == 7) = true := by simp; omega
    unfold nsAttr
    rw [e, Bool.true_and]
    cases hd.getLsbD i <;> simp
  · have e : ((2 ≤ i && i ≤ 4) || i == 6 || i == 7) = false := by simp; omega
    have hz : hd.getLsbD i = false := by
      refine Bool.eq_false_iff.mpr (fun hc => ?_)
      have hb := hb hc
      unfold hostBit at hb
      unfold attrPos at hi
      cases lpa2 <;> simp at hi hb <;> omega
    unfold nsAttr
    rw [e, hz]
    simp

example : (Entry.assigned .ram 0x80200000).Ok true 2 ∧ encode true 2 (.assigned .ram 0x80200000) = some 0x802004d9 ∧
    (Entry.assignedNs 0x90000098).Ok false 3 ∧ encode false 3 (.assignedNs 0x90000098) = some 0xc000009000079b := by
  refine ⟨⟨by decide, by decide, by unfold PaOk; decide⟩, by decide, ⟨by decide, by decide, ?_, by decide⟩, by decide⟩
  intro i hi
  have h64 : i < 64 := by
    refine Nat.lt_of_not_le (fun hc => ?_)
    rw [BitVec.getLsbD_of_ge _ _ (by omega)] at hi; cases hi
  have : ∀ k : Fin 64, (0x90000098#64).getLsbD k.val = true → (k.val = 3 ∨ k.val = 4 ∨ k.val = 7 ∨ k.val = 28 ∨ k.val = 31) := by decide
  have := this ⟨i, h64⟩ hi
  dsimp only at this
  unfold hostBit offBits
  simp
  omega

/-- C12/C16: the host reads back exactly the descriptor it supplied, and none of
the bits RMM added. -/
theorem C12_host_descriptor_roundtrip (lpa2 : Bool) (level : Int) (h : W)
    (h1 : 1 ≤ level) (h3 : level ≤ 3) (hh : HostOk lpa2 level h) :
    ∃ w, createAssignedNs lpa2 h level = some w ∧ hostNs lpa2 w level = some h :=
  ⟨_, createAssignedNs_eq lpa2 level h h1 h3 hh, hostNs_roundtrip lpa2 level h h1 h3 hh⟩

/-- C16: whatever 64-bit word is stored, the part disclosed to the host for an
unprotected mapping has only host-controlled bits. -/
theorem C16_host_view_only_host_bits (lpa2 : Bool) (level : Int) (w v : W)
    (h : hostNs lpa2 w level = some v) (i : Nat) (hi : v.getLsbD i = true) :
    hostBit lpa2 level i := by
  unfold hostNs at h
  split at h
  · simp only [Option.some.injEq] at h
    subst h
    rw [BitVec.getLsbD_and, BitVec.getLsbD_or, getLsbD_lvlMask, bits_NS_ATTR_MASK, lsbOf_eq] at hi
    unfold hostBit
    simp at hi
    grind
  · simp at h

/-! ### The hypotheses are met -/

/-- A 52-bit address in a 2MB block. -/
example : (Entry.assigned .ram 0xf000000200000).Ok true 2 := by
  refine ⟨by decide, by decide, ?_⟩
  constructor <;> decide

/-- A Non-secure page with a normal memory attribute and read/write access. -/
example : (Entry.assignedNs 0x800000dc).Ok false 3 :=
  ⟨by decide, by decide, (hostOk_iff false 3 _ (by decide) (by decide)).1 (by decide)⟩
example : (Entry.table 0x40001000).Ok false 1 := by
  refine ⟨by decide, by decide, ?_⟩
  constructor <;> decide
/-- A reserved memory attribute is refused. -/
example : hostNsIsValid false 0x80000010 3 = some false := by decide

end Verif.S2tte
