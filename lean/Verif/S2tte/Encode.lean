import Verif.S2tte.Lemmas

/-!
# Encoding of specification entries by the C constructors, and what the C
predicates say about the result
-/

namespace Verif.S2tte
open Spec

/-- The descriptor the code writes for an entry: which constructor is used for
which kind.  s2tt.c:385-536, 597-615. -/
def encode (lpa2 : Bool) (level : Int) : Entry → Option W
  | .unassigned .empty => some createUnassignedEmpty
  | .unassigned .ram => some createUnassignedRam
  | .unassigned .destroyed => some createUnassignedDestroyed
  | .unassignedNs => some createUnassignedNs
  | .assigned .empty pa => createAssignedEmpty lpa2 pa level
  | .assigned .ram pa => createAssignedRam lpa2 pa level
  | .assigned .destroyed pa => createAssignedDestroyed lpa2 pa level
  | .assignedNs h => createAssignedNs lpa2 h level
  | .table pa => createTable lpa2 pa level

/-- All nine recognisers of s2tt.c:677-797, in the order of the table in
s2tt_pvt_defs.h:20-38. -/
def recognisers (w : W) (level : Int) : List Bool :=
  [isUnassignedEmpty w, isUnassignedRam w, isUnassignedDestroyed w,
   isAssignedEmpty w level, isAssignedRam w level, isAssignedDestroyed w level,
   isUnassignedNs w, isAssignedNs w level, isTable w level]

theorem levels_cases {level : Int} (h1 : 1 ≤ level) (h3 : level ≤ 3) :
    level = 1 ∨ level = 2 ∨ level = 3 := by omega

theorem minLevel_le_one (lpa2 : Bool) : minLevel lpa2 ≤ 1 := by cases lpa2 <;> decide

theorem ripasRange (r : W) (h : r = RIPAS_EMPTY ∨ r = RIPAS_RAM ∨ r = RIPAS_DESTROYED) :
    (r &&& RIPAS_MASK) >>> 5 ≤ (RIPAS_DESTROYED &&& RIPAS_MASK) >>> 5 := by
  rcases h with rfl | rfl | rfl <;> decide

/-- Attribute bits of a valid Realm mapping. -/
def ramAttrs (lpa2 : Bool) (level : Int) : W :=
  (if lpa2 then ATTRS_LPA2 else ATTRS) ||| (if level = 3 then L3_PAGE else L012_BLOCK)

theorem createAssigned_ram (lpa2 : Bool) (pa : W) (level : Int) (h1 : 1 ≤ level) (h3 : level ≤ 3)
    (h : PaOk lpa2 level pa) :
    createAssignedRam lpa2 pa level = some (paToS2tte pa lpa2 ||| ramAttrs lpa2 level) := by
  unfold createAssignedRam createAssigned ramAttrs
  have ha := (isAddrLvlAligned_iff lpa2 pa level (by have := minLevel_le_one lpa2; omega) h3).2 h
  rw [if_pos ⟨h1, h3, ripasRange _ (by simp), ha⟩]
  simp only [if_true]
  split <;> simp

theorem createAssigned_inv (lpa2 : Bool) (pa : W) (level : Int) (r : W)
    (h1 : 1 ≤ level) (h3 : level ≤ 3) (hr : r = RIPAS_EMPTY ∨ r = RIPAS_DESTROYED)
    (h : PaOk lpa2 level pa) :
    createAssigned lpa2 pa level r =
      some (paToS2tte pa lpa2 ||| (HIPAS_ASSIGNED ||| r)) := by
  unfold createAssigned
  have ha := (isAddrLvlAligned_iff lpa2 pa level (by have := minLevel_le_one lpa2; omega) h3).2 h
  rw [if_pos ⟨h1, h3, ripasRange _ (by grind), ha⟩]
  have : r ≠ RIPAS_RAM := by rcases hr with rfl | rfl <;> decide
  simp only [this, if_false, BitVec.or_assoc]

theorem offBits3 : offBits 3 = 12 := by decide

theorem paOk3_iff (lpa2 : Bool) (pa : W) :
    PaOk lpa2 3 pa → pa &&& 0xfff = 0 := by
  intro h
  apply BitVec.eq_of_getLsbD_eq
  intro i hi
  have hb := (paOk_iff_bits _ _ _).1 h i
  have hl : (0xfff : W).getLsbD i = decide (i < 12) :=
    getLsbD_lit (P := fun i => decide (i < 12)) (by decide) i hi
  rw [BitVec.getLsbD_and, hl]
  rw [offBits3] at hb
  cases hp : pa.getLsbD i with
  | false => simp
  | true => have := hb hp; simp; omega

theorem createTable_ok (lpa2 : Bool) (pa : W) (level : Int)
    (hm : (if lpa2 then -1 else 0) ≤ level) (h3 : level < 3) (h : PaOk lpa2 3 pa) :
    createTable lpa2 pa level = some (paToS2tte pa lpa2 ||| L012_TABLE) := by
  unfold createTable
  rw [if_pos ⟨h3, by simpa [minLevel] using hm, paOk3_iff lpa2 pa h⟩]

/-- Every legal entry can be written. -/
theorem encode_total (lpa2 : Bool) (level : Int) (e : Entry) (h : e.Ok lpa2 level) :
    ∃ w, encode lpa2 level e = some w := by
  cases e with
  | unassigned r => cases r <;> exact ⟨_, rfl⟩
  | unassignedNs => exact ⟨_, rfl⟩
  | assigned r pa =>
    obtain ⟨h1, h3, hp⟩ := h
    cases r
    · exact ⟨_, createAssigned_inv lpa2 pa level _ h1 h3 (by simp) hp⟩
    · exact ⟨_, createAssigned_ram lpa2 pa level h1 h3 hp⟩
    · exact ⟨_, createAssigned_inv lpa2 pa level _ h1 h3 (by simp) hp⟩
  | assignedNs hd =>
    obtain ⟨h1, h3, _⟩ := h
    simp only [encode, createAssignedNs, if_pos (⟨h1, h3⟩ : 1 ≤ level ∧ level ≤ 3)]
    split <;> exact ⟨_, rfl⟩
  | table pa =>
    obtain ⟨h1, h3, hp⟩ := h
    exact ⟨_, createTable_ok lpa2 pa level h1 h3 hp⟩

/-! ### Unprotected mappings -/

theorem hostOk_iff (lpa2 : Bool) (level : Int) (h : W) (h1 : 1 ≤ level) (h3 : level ≤ 3) :
    hostNsIsValid lpa2 h level = some true ↔ HostOk lpa2 level h := by
  unfold hostNsIsValid HostOk
  rw [if_pos ⟨h1, h3⟩]
  simp only [Option.some.injEq, Bool.and_eq_true, decide_eq_true_eq]
  apply and_congr
  · rw [and_not_eq_zero_iff]
    apply forall_congr'; intro i
    apply imp_congr_right; intro _
    rw [BitVec.getLsbD_or, getLsbD_lvlMask, bits_NS_ATTR_MASK, lsbOf_eq]
    unfold hostBit
    simp
    grind
  · apply not_congr
    constructor
    · intro e
      have e2 := congrArg (fun v => BitVec.getLsbD v 2) e
      have e3 := congrArg (fun v => BitVec.getLsbD v 3) e
      have e4 := congrArg (fun v => BitVec.getLsbD v 4) e
      simp [MEMATTR_MASK, MEMATTR_FWB_RESERVED] at e2 e3 e4
      exact ⟨e2, e3, e4⟩
    · rintro ⟨e2, e3, e4⟩
      apply BitVec.eq_of_getLsbD_eq
      intro i hi
      have hM : MEMATTR_MASK.getLsbD i = (decide (2 ≤ i) && decide (i ≤ 4)) :=
        getLsbD_lit (P := fun i => (decide (2 ≤ i) && decide (i ≤ 4))) (by decide) i hi
      have hR : MEMATTR_FWB_RESERVED.getLsbD i = decide (i = 4) :=
        getLsbD_lit (P := fun i => decide (i = 4)) (by decide) i hi
      rw [BitVec.getLsbD_and, hM, hR]
      by_cases hr : 2 ≤ i ∧ i ≤ 4
      · have : i = 2 ∨ i = 3 ∨ i = 4 := by omega
        rcases this with rfl | rfl | rfl
        · rw [e2]; simp
        · rw [e3]; simp
        · rw [e4]; simp
      · have : ¬ i = 4 := by omega
        simp [this]; omega

/-- Bits added by RMM to a host descriptor. -/
def nsAttrs (lpa2 : Bool) (level : Int) : W :=
  (if lpa2 then 0 else SH_IS) ||| (NS_ATTR_RMM ||| (if level = 3 then L3_PAGE else L012_BLOCK))

theorem hostOk_low (lpa2 : Bool) (level : Int) (h : W) (hh : HostOk lpa2 level h) (_h3 : level ≤ 3) :
    h &&& ~~~DESC_TYPE_MASK = h := by
  rw [and_eq_self_iff]
  intro i hi
  have := hh.1 i hi
  have hoff : 12 ≤ offBits level := by unfold offBits; omega
  have h64 : i < 64 := by
    apply Classical.byContradiction; intro hge
    rw [BitVec.getLsbD_of_ge _ _ (by omega)] at hi; simp at hi
  have hD : DESC_TYPE_MASK.getLsbD i = decide (i < 2) :=
    getLsbD_lit (P := fun i => decide (i < 2)) (by decide) i h64
  rw [BitVec.getLsbD_not, hD]
  simp [h64]
  unfold hostBit at this
  omega

theorem createAssignedNs_eq (lpa2 : Bool) (level : Int) (h : W) (h1 : 1 ≤ level) (h3 : level ≤ 3)
    (hh : HostOk lpa2 level h) :
    createAssignedNs lpa2 h level = some (h ||| nsAttrs lpa2 level) := by
  unfold createAssignedNs nsAttrs
  rw [if_pos ⟨h1, h3⟩, hostOk_low lpa2 level h hh h3]
  cases lpa2 <;> simp [BitVec.or_assoc] <;> split <;> rfl

/-- Host-controlled bits as a mask. -/
theorem hostMasked (lpa2 : Bool) (level : Int) (h : W) (hh : HostOk lpa2 level h)  :
    h &&& (lvlMask level lpa2 ||| NS_ATTR_MASK) = h := by
  rw [and_eq_self_iff]
  intro i hi
  have := hh.1 i hi
  rw [BitVec.getLsbD_or, getLsbD_lvlMask, bits_NS_ATTR_MASK, lsbOf_eq]
  unfold hostBit at this
  simp
  grind

theorem nsAttrs_masked (lpa2 : Bool) (level : Int) (h1 : 1 ≤ level) (h3 : level ≤ 3) :
    nsAttrs lpa2 level &&& (lvlMask level lpa2 ||| NS_ATTR_MASK) = 0 := by
  rcases levels_cases h1 h3 with rfl | rfl | rfl <;> cases lpa2 <;> decide

theorem hostNs_roundtrip (lpa2 : Bool) (level : Int) (h : W) (h1 : 1 ≤ level) (h3 : level ≤ 3)
    (hh : HostOk lpa2 level h) :
    hostNs lpa2 (h ||| nsAttrs lpa2 level) level = some h := by
  unfold hostNs
  rw [if_pos ⟨h1, h3⟩, BitVec.and_or_distrib_right, hostMasked lpa2 level h hh,
    nsAttrs_masked lpa2 level h1 h3]
  simp

/-- Bits of a host descriptor never touch the fields used for classification of
valid descriptors. -/
def hostBits : W := 0x0003ffffffffffdc

theorem host_masked (lpa2 : Bool) (level : Int) (h : W) (_h3 : level ≤ 3) (hh : HostOk lpa2 level h) :
    h &&& hostBits = h := by
  rw [and_eq_self_iff]
  intro i hi
  have := hh.1 i hi
  have hoff : 12 ≤ offBits level := by unfold offBits; omega
  have hT : hostBits.getLsbD i = ((decide (2 ≤ i) && decide (i ≤ 4)) ||
      (decide (6 ≤ i) && decide (i ≤ 49))) :=
    getLsbD_lit' (P := fun i => ((decide (2 ≤ i) && decide (i ≤ 4)) ||
      (decide (6 ≤ i) && decide (i ≤ 49)))) (by decide) i (by simp; omega)
  rw [hT]
  unfold hostBit at this
  simp
  omega

theorem host_or_and (t C M : W) (ht : t &&& hostBits = t) (hM : M &&& hostBits = 0) :
    (t ||| C) &&& M = C &&& M := by
  rw [BitVec.and_or_distrib_right]
  have : t &&& M = 0 := by
    rw [← ht, BitVec.and_assoc, BitVec.and_comm hostBits M, hM]; simp
  rw [this]; simp

/-! ### Field values of encoded descriptors -/

theorem fields_tte (t C : W) (ht : t &&& tteBits = t) :
    (t ||| C) &&& DESC_TYPE_MASK = C &&& DESC_TYPE_MASK ∧
    (t ||| C) &&& NS = C &&& NS ∧
    (t ||| C) &&& HIPAS_MASK = C &&& HIPAS_MASK ∧
    (t ||| C) &&& RIPAS_MASK = C &&& RIPAS_MASK :=
  ⟨tte_or_and t C _ ht (by decide), tte_or_and t C _ ht (by decide),
   tte_or_and t C _ ht (by decide), tte_or_and t C _ ht (by decide)⟩

theorem fields_host (t C : W) (ht : t &&& hostBits = t) :
    (t ||| C) &&& DESC_TYPE_MASK = C &&& DESC_TYPE_MASK ∧
    (t ||| C) &&& NS = C &&& NS :=
  ⟨host_or_and t C _ ht (by decide), host_or_and t C _ ht (by decide)⟩

/-- The recognisers depend on four fields only. -/
theorem recognisers_congr (w v : W) (level : Int)
    (h1 : w &&& DESC_TYPE_MASK = v &&& DESC_TYPE_MASK) (h2 : w &&& NS = v &&& NS)
    (h3 : w &&& HIPAS_MASK = v &&& HIPAS_MASK) (h4 : w &&& RIPAS_MASK = v &&& RIPAS_MASK) :
    recognisers w level = recognisers v level := by
  simp only [recognisers, isUnassignedEmpty, isUnassignedRam, isUnassignedDestroyed,
    isAssignedEmpty, isAssignedRam, isAssignedDestroyed, isUnassignedNs, isAssignedNs, isTable,
    hasUnassignedRipas, hasAssignedRipas, hasHipas, check, h1, h2, h3, h4]

/-- For a valid descriptor, two fields suffice. -/
theorem recognisers_congr_valid (w v : W) (level : Int)
    (h1 : w &&& DESC_TYPE_MASK = v &&& DESC_TYPE_MASK) (h2 : w &&& NS = v &&& NS)
    (h3 : v &&& DESC_TYPE_MASK ≠ 0) :
    recognisers w level = recognisers v level := by
  have h3' : ¬ (v &&& DESC_TYPE_MASK = 0#64) := h3
  simp [recognisers, isUnassignedEmpty, isUnassignedRam, isUnassignedDestroyed,
    isAssignedEmpty, isAssignedRam, isAssignedDestroyed, isUnassignedNs, isAssignedNs, isTable,
    hasUnassignedRipas, hasAssignedRipas, hasHipas, check, h1, h2, h3']

end Verif.S2tte
