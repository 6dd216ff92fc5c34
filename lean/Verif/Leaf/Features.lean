import Verif.Basic
import Verif.Tac
import Verif.Geometry.Model
import Verif.Geometry.Props

/-!
# Feature register 0 and validation of realm parameters

Model of `get_feature_register_0`, `smc_read_feature_register`
(/repo/runtime/rmi/feature.c:16-116) and `validate_realm_params`
(/repo/runtime/rmi/realm.c:234-324, without the final VMID reservation, which is
part of the machine in `Verif.Rmm`).
-/

namespace Verif.Features

abbrev W := BitVec 64

/-- `INPLACE(field, val)`: /repo/lib/common/include/utils_def.h:201-202.  Not masked. -/
def inplace (shift : Nat) (v : Nat) : W := BitVec.ofNat 64 v <<< shift

/-- `MASK(field)`: utils_def.h:204-205. -/
def mask (shift width : Nat) : W := (BitVec.allOnes 64 >>> (64 - width)) <<< shift

/-- `EXTRACT(field, reg)`: utils_def.h:207-208. -/
def extract (shift width : Nat) (r : W) : W := (r &&& mask shift width) >>> shift

/-- What the hardware reports through the identification registers read by
feature.c:16-98.  `bps0`/`wps0` are the 4-bit fields of ID_AA64DFR0_EL1, `bps1`/`wps1`
the 8-bit fields of ID_AA64DFR1_EL1. -/
structure Hw where
  paWidth : Nat
  lpa2 : Bool
  pmuVersionOk : Bool
  pmuCtrs : Nat
  bps0 : Nat
  wps0 : Nat
  bps1 : Nat
  wps1 : Nat
  sve : Bool
  sveVq : Nat
  numLrs : Nat
  hpmn0 : Bool

/-- Breakpoint/watchpoint count selection: feature.c:53-65. -/
def debugCount (v0 v1 : Nat) : Nat := if v0 = 15 then (if v1 = 0 then 15 else v1) else v0

/-- `get_feature_register_0`: feature.c:16-104 (built without `RMM_V1_1`).
`none` is the failing `assert` on the PMU version (feature.c:38). -/
def featureRegister0 (h : Hw) : Option W :=
  if h.pmuVersionOk then
    some (inplace 0 h.paWidth
      ||| (if h.lpa2 then inplace 8 1 else 0#64)
      ||| inplace 32 1 ||| inplace 33 1
      ||| inplace 26 1
      ||| inplace 27 h.pmuCtrs
      ||| inplace 14 (debugCount h.bps0 h.bps1)
      ||| inplace 20 (debugCount h.wps0 h.wps1)
      ||| (if h.sve then inplace 9 1 ||| inplace 10 h.sveVq else 0#64)
      ||| inplace 34 h.numLrs
      ||| inplace 38 10)
  else none

/-- `smc_read_feature_register`: feature.c:106-116.  Result is x0, x1. -/
def readFeatureRegister (h : Hw) (index : W) : Option (W × W) :=
  if index = 0 then (featureRegister0 h).map (fun r => (0, r)) else some (0, 0)

/-- The fields of `struct rmi_realm_params` read by the validation:
/repo/lib/smc/include/smc-rmi.h:644-671. -/
structure Params where
  flags : W
  s2sz : Nat
  sveVl : Nat
  numBps : Nat
  numWps : Nat
  pmuNumCtrs : Nat
  algorithm : Nat
  rttLevelStart : Int
  rttNumStart : Nat

/-- `is_lpa2_requested`: realm.c:70-73. -/
def lpa2Requested (p : Params) : Bool := extract 0 1 p.flags == 1

/-- `validate_realm_params` up to the VMID reservation: realm.c:234-320. -/
def validateRealmParams (h : Hw) (p : Params) : Option Bool :=
  match featureRegister0 h with
  | none => none
  | some f => some <|
    if lpa2Requested p ∧ extract 8 1 f = 0 then false
    else if p.s2sz < 32 ∨ (extract 0 8 f).toNat < p.s2sz then false
    else if p.numBps = 0 ∨ (extract 14 6 f).toNat < p.numBps ∨
            p.numWps = 0 ∨ (extract 20 6 f).toNat < p.numWps then false
    else if extract 1 1 p.flags = 1 ∧ (extract 9 1 f = 0 ∨ (extract 10 4 f).toNat < p.sveVl) then false
    else if extract 2 1 p.flags = 1 ∧
            ((extract 27 5 f).toNat < p.pmuNumCtrs ∨ (p.pmuNumCtrs = 0 ∧ h.hpmn0 = false)) then false
    else if !Geometry.validateIpaBitsAndSl h.paWidth p.s2sz p.rttLevelStart (lpa2Requested p) then false
    else if Geometry.numRootRtts p.s2sz p.rttLevelStart ≠ p.rttNumStart then false
    else decide (p.algorithm = 0 ∨ p.algorithm = 1)

/-! ## Specification -/

/-- Values real hardware reports: each fits in the register field that advertises it. -/
structure HwOk (h : Hw) : Prop where
  pmu : h.pmuVersionOk = true
  pa : h.paWidth < 256
  ctrs : h.pmuCtrs < 32
  b0 : h.bps0 < 16
  w0 : h.wps0 < 16
  b1 : h.bps1 < 64
  w1 : h.wps1 < 64
  vq : h.sveVq < 16
  lrs : h.numLrs < 16

/-- Value of bits `[shift + width - 1 : shift]` of `r`. -/
def field (shift width : Nat) (r : W) : Nat := r.toNat / 2 ^ shift % 2 ^ width

/-! ## Proofs -/

theorem bit_mask (s w i : Nat) (hw : w ≤ 64) : (mask s w).getLsbD i = (decide (s ≤ i) && decide (i < s + w) && decide (i < 64)) := by
  unfold mask
  simp only [BitVec.getLsbD_shiftLeft, BitVec.getLsbD_ushiftRight, BitVec.getLsbD_allOnes]
  by_cases h1 : i < s
  · simp [h1]
  · by_cases h2 : i < 64 <;> by_cases h3 : i < s + w <;> simp [h1, h2, h3] <;> omega

theorem extract_toNat (s w : Nat) (r : W) (h : s + w ≤ 64) :
    (extract s w r).toNat = field s w r := by
  unfold field
  have : extract s w r = BitVec.ofNat 64 (r.toNat / 2 ^ s % 2 ^ w) := by
    apply BitVec.eq_of_getLsbD_eq
    intro i hi
    unfold extract
    rw [BitVec.getLsbD_ushiftRight, BitVec.getLsbD_and, bit_mask _ _ _ (by omega)]
    rw [BitVec.getLsbD_ofNat, Nat.testBit_mod_two_pow, Nat.testBit_div_two_pow, ← BitVec.getLsbD]
    by_cases h2 : i < w
    · have : s + i < 64 := by omega
      simp [h2, this, hi, Nat.add_comm]
    · simp [h2]
  rw [this, BitVec.toNat_ofNat, Nat.mod_eq_of_lt]
  calc _ < 2 ^ w := Nat.mod_lt _ (Nat.two_pow_pos w)
    _ ≤ 2 ^ 64 := Nat.pow_le_pow_right (by omega) (by omega)

theorem extract_or (s w : Nat) (a b : W) : extract s w (a ||| b) = extract s w a ||| extract s w b := by
  unfold extract
  apply BitVec.eq_of_getLsbD_eq
  intro i hi
  simp only [BitVec.getLsbD_ushiftRight, BitVec.getLsbD_and, BitVec.getLsbD_or, Bool.and_or_distrib_right]

/-- A value placed in a field it fits in shows in that field. -/
theorem extract_inplace_same (s w v : Nat) (hv : v < 2 ^ w) (h : s + w ≤ 64) :
    extract s w (inplace s v) = BitVec.ofNat 64 v := by
  apply BitVec.eq_of_getLsbD_eq
  intro i hi
  unfold extract inplace
  rw [BitVec.getLsbD_ushiftRight, BitVec.getLsbD_and, bit_mask _ _ _ (by omega),
    BitVec.getLsbD_shiftLeft, BitVec.getLsbD_ofNat, BitVec.getLsbD_ofNat]
  by_cases h2 : i < w
  · have : s + i < 64 := by omega
    simp [this, hi, h2]
  · have : v.testBit i = false := Nat.testBit_lt_two_pow (lt_of_lt_of_le hv (Nat.pow_le_pow_right (by omega) (by omega)))
    simp [h2, this]

/-- A value placed in another field does not show. -/
theorem extract_inplace_other (s w s' w' v : Nat) (hv : v < 2 ^ w') (hs : s + w ≤ 64)
    (h : s + w ≤ s' ∨ s' + w' ≤ s) : extract s w (inplace s' v) = 0 := by
  apply BitVec.eq_of_getLsbD_eq
  intro i hi
  unfold extract inplace
  rw [BitVec.getLsbD_ushiftRight, BitVec.getLsbD_and, bit_mask _ _ _ (by omega),
    BitVec.getLsbD_shiftLeft, BitVec.getLsbD_ofNat]
  by_cases h2 : i < w
  · rcases h with h | h
    · have : s + i < s' := by omega
      simp [this]
    · have h3 : v.testBit (s + i - s') = false :=
        Nat.testBit_lt_two_pow (lt_of_lt_of_le hv (Nat.pow_le_pow_right (by omega) (by omega)))
      simp [h3]
  · simp [h2]

theorem extract_zero (s w : Nat) : extract s w 0#64 = 0 := by
  unfold extract; simp

theorem debugCount_lt (a b : Nat) (ha : a < 16) (hb : b < 64) : debugCount a b < 64 := by
  unfold debugCount; split <;> [split; skip] <;> omega

/-- What each field of the advertised register must say. -/
structure Advertises (h : Hw) (r : W) : Prop where
  s2sz : field 0 8 r = h.paWidth
  lpa2 : field 8 1 r = if h.lpa2 then 1 else 0
  sveEn : field 9 1 r = if h.sve then 1 else 0
  sveVl : field 10 4 r = if h.sve then h.sveVq else 0
  bps : field 14 6 r = if h.bps0 = 15 ∧ h.bps1 ≠ 0 then h.bps1 else h.bps0
  wps : field 20 6 r = if h.wps0 = 15 ∧ h.wps1 ≠ 0 then h.wps1 else h.wps0
  pmuEn : field 26 1 r = 1
  pmuCtrs : field 27 5 r = h.pmuCtrs
  sha256 : field 32 1 r = 1
  sha512 : field 33 1 r = 1
  lrs : field 34 4 r = h.numLrs
  maxRecs : field 38 4 r = 10
  da : field 42 1 r = 0
  rest : field 43 21 r = 0

theorem fields (h : Hw) (hk : HwOk h) (r : W) (hr : featureRegister0 h = some r) :
    Advertises h r := by
  obtain ⟨hpmu, hpa, hctrs, hb0, hw0, hb1, hw1, hvq, hlrs⟩ := hk
  have hbd := debugCount_lt _ _ hb0 hb1
  have hwd := debugCount_lt _ _ hw0 hw1
  unfold featureRegister0 at hr
  rw [if_pos hpmu, Option.some.injEq] at hr
  subst hr
  have key : ∀ s w, s + w ≤ 64 → ∀ r : W, field s w r = (extract s w r).toNat :=
    fun s w hh r => (extract_toNat s w r hh).symm
  have o : ∀ s w s' w' v, v < 2 ^ w' → s + w ≤ 64 → (s + w ≤ s' ∨ s' + w' ≤ s) →
      extract s w (inplace s' v) = 0#64 := extract_inplace_other
  constructor
  all_goals
    rw [key _ _ (by decide)]
    simp only [extract_or, apply_ite (extract _ _), extract_zero]
  case s2sz =>
    rw [extract_inplace_same 0 8 _ hpa (by decide),
      o 0 8 8 1 _ (by decide) (by decide) (by decide),
      o 0 8 32 1 _ (by decide) (by decide) (by decide),
      o 0 8 33 1 _ (by decide) (by decide) (by decide),
      o 0 8 26 1 _ (by decide) (by decide) (by decide),
      o 0 8 27 5 _ hctrs (by decide) (by decide),
      o 0 8 14 6 _ hbd (by decide) (by decide),
      o 0 8 20 6 _ hwd (by decide) (by decide),
      o 0 8 9 1 _ (by decide) (by decide) (by decide),
      o 0 8 10 4 _ hvq (by decide) (by decide),
      o 0 8 34 4 _ hlrs (by decide) (by decide),
      o 0 8 38 4 _ (by decide) (by decide) (by decide)]
    simp; omega
  case lpa2 =>
    rw [o 8 1 0 8 _ hpa (by decide) (by decide),
      extract_inplace_same 8 1 _ (by decide) (by decide),
      o 8 1 32 1 _ (by decide) (by decide) (by decide),
      o 8 1 33 1 _ (by decide) (by decide) (by decide),
      o 8 1 26 1 _ (by decide) (by decide) (by decide),
      o 8 1 27 5 _ hctrs (by decide) (by decide),
      o 8 1 14 6 _ hbd (by decide) (by decide),
      o 8 1 20 6 _ hwd (by decide) (by decide),
      o 8 1 9 1 _ (by decide) (by decide) (by decide),
      o 8 1 10 4 _ hvq (by decide) (by decide),
      o 8 1 34 4 _ hlrs (by decide) (by decide),
      o 8 1 38 4 _ (by decide) (by decide) (by decide)]
    cases h.lpa2 <;> simp
  case sha256 =>
    rw [o 32 1 0 8 _ hpa (by decide) (by decide),
      o 32 1 8 1 _ (by decide) (by decide) (by decide),
      extract_inplace_same 32 1 _ (by decide) (by decide),
      o 32 1 33 1 _ (by decide) (by decide) (by decide),
      o 32 1 26 1 _ (by decide) (by decide) (by decide),
      o 32 1 27 5 _ hctrs (by decide) (by decide),
      o 32 1 14 6 _ hbd (by decide) (by decide),
      o 32 1 20 6 _ hwd (by decide) (by decide),
      o 32 1 9 1 _ (by decide) (by decide) (by decide),
      o 32 1 10 4 _ hvq (by decide) (by decide),
      o 32 1 34 4 _ hlrs (by decide) (by decide),
      o 32 1 38 4 _ (by decide) (by decide) (by decide)]
    simp
  case sha512 =>
    rw [o 33 1 0 8 _ hpa (by decide) (by decide),
      o 33 1 8 1 _ (by decide) (by decide) (by decide),
      o 33 1 32 1 _ (by decide) (by decide) (by decide),
      extract_inplace_same 33 1 _ (by decide) (by decide),
      o 33 1 26 1 _ (by decide) (by decide) (by decide),
      o 33 1 27 5 _ hctrs (by decide) (by decide),
      o 33 1 14 6 _ hbd (by decide) (by decide),
      o 33 1 20 6 _ hwd (by decide) (by decide),
      o 33 1 9 1 _ (by decide) (by decide) (by decide),
      o 33 1 10 4 _ hvq (by decide) (by decide),
      o 33 1 34 4 _ hlrs (by decide) (by decide),
      o 33 1 38 4 _ (by decide) (by decide) (by decide)]
    simp
  case pmuEn =>
    rw [o 26 1 0 8 _ hpa (by decide) (by decide),
      o 26 1 8 1 _ (by decide) (by decide) (by decide),
      o 26 1 32 1 _ (by decide) (by decide) (by decide),
      o 26 1 33 1 _ (by decide) (by decide) (by decide),
      extract_inplace_same 26 1 _ (by decide) (by decide),
      o 26 1 27 5 _ hctrs (by decide) (by decide),
      o 26 1 14 6 _ hbd (by decide) (by decide),
      o 26 1 20 6 _ hwd (by decide) (by decide),
      o 26 1 9 1 _ (by decide) (by decide) (by decide),
      o 26 1 10 4 _ hvq (by decide) (by decide),
      o 26 1 34 4 _ hlrs (by decide) (by decide),
      o 26 1 38 4 _ (by decide) (by decide) (by decide)]
    simp
  case pmuCtrs =>
    rw [o 27 5 0 8 _ hpa (by decide) (by decide),
      o 27 5 8 1 _ (by decide) (by decide) (by decide),
      o 27 5 32 1 _ (by decide) (by decide) (by decide),
      o 27 5 33 1 _ (by decide) (by decide) (by decide),
      o 27 5 26 1 _ (by decide) (by decide) (by decide),
      extract_inplace_same 27 5 _ hctrs (by decide),
      o 27 5 14 6 _ hbd (by decide) (by decide),
      o 27 5 20 6 _ hwd (by decide) (by decide),
      o 27 5 9 1 _ (by decide) (by decide) (by decide),
      o 27 5 10 4 _ hvq (by decide) (by decide),
      o 27 5 34 4 _ hlrs (by decide) (by decide),
      o 27 5 38 4 _ (by decide) (by decide) (by decide)]
    simp; omega
  case bps =>
    rw [o 14 6 0 8 _ hpa (by decide) (by decide),
      o 14 6 8 1 _ (by decide) (by decide) (by decide),
      o 14 6 32 1 _ (by decide) (by decide) (by decide),
      o 14 6 33 1 _ (by decide) (by decide) (by decide),
      o 14 6 26 1 _ (by decide) (by decide) (by decide),
      o 14 6 27 5 _ hctrs (by decide) (by decide),
      extract_inplace_same 14 6 _ hbd (by decide),
      o 14 6 20 6 _ hwd (by decide) (by decide),
      o 14 6 9 1 _ (by decide) (by decide) (by decide),
      o 14 6 10 4 _ hvq (by decide) (by decide),
      o 14 6 34 4 _ hlrs (by decide) (by decide),
      o 14 6 38 4 _ (by decide) (by decide) (by decide)]
    simp [debugCount] at hbd ⊢; grind
  case wps =>
    rw [o 20 6 0 8 _ hpa (by decide) (by decide),
      o 20 6 8 1 _ (by decide) (by decide) (by decide),
      o 20 6 32 1 _ (by decide) (by decide) (by decide),
      o 20 6 33 1 _ (by decide) (by decide) (by decide),
      o 20 6 26 1 _ (by decide) (by decide) (by decide),
      o 20 6 27 5 _ hctrs (by decide) (by decide),
      o 20 6 14 6 _ hbd (by decide) (by decide),
      extract_inplace_same 20 6 _ hwd (by decide),
      o 20 6 9 1 _ (by decide) (by decide) (by decide),
      o 20 6 10 4 _ hvq (by decide) (by decide),
      o 20 6 34 4 _ hlrs (by decide) (by decide),
      o 20 6 38 4 _ (by decide) (by decide) (by decide)]
    simp [debugCount] at hwd ⊢; grind
  case sveEn =>
    rw [o 9 1 0 8 _ hpa (by decide) (by decide),
      o 9 1 8 1 _ (by decide) (by decide) (by decide),
      o 9 1 32 1 _ (by decide) (by decide) (by decide),
      o 9 1 33 1 _ (by decide) (by decide) (by decide),
      o 9 1 26 1 _ (by decide) (by decide) (by decide),
      o 9 1 27 5 _ hctrs (by decide) (by decide),
      o 9 1 14 6 _ hbd (by decide) (by decide),
      o 9 1 20 6 _ hwd (by decide) (by decide),
      extract_inplace_same 9 1 _ (by decide) (by decide),
      o 9 1 10 4 _ hvq (by decide) (by decide),
      o 9 1 34 4 _ hlrs (by decide) (by decide),
      o 9 1 38 4 _ (by decide) (by decide) (by decide)]
    cases h.sve <;> simp
  case sveVl =>
    rw [o 10 4 0 8 _ hpa (by decide) (by decide),
      o 10 4 8 1 _ (by decide) (by decide) (by decide),
      o 10 4 32 1 _ (by decide) (by decide) (by decide),
      o 10 4 33 1 _ (by decide) (by decide) (by decide),
      o 10 4 26 1 _ (by decide) (by decide) (by decide),
      o 10 4 27 5 _ hctrs (by decide) (by decide),
      o 10 4 14 6 _ hbd (by decide) (by decide),
      o 10 4 20 6 _ hwd (by decide) (by decide),
      o 10 4 9 1 _ (by decide) (by decide) (by decide),
      extract_inplace_same 10 4 _ hvq (by decide),
      o 10 4 34 4 _ hlrs (by decide) (by decide),
      o 10 4 38 4 _ (by decide) (by decide) (by decide)]
    cases h.sve <;> simp; omega
  case lrs =>
    rw [o 34 4 0 8 _ hpa (by decide) (by decide),
      o 34 4 8 1 _ (by decide) (by decide) (by decide),
      o 34 4 32 1 _ (by decide) (by decide) (by decide),
      o 34 4 33 1 _ (by decide) (by decide) (by decide),
      o 34 4 26 1 _ (by decide) (by decide) (by decide),
      o 34 4 27 5 _ hctrs (by decide) (by decide),
      o 34 4 14 6 _ hbd (by decide) (by decide),
      o 34 4 20 6 _ hwd (by decide) (by decide),
      o 34 4 9 1 _ (by decide) (by decide) (by decide),
      o 34 4 10 4 _ hvq (by decide) (by decide),
      extract_inplace_same 34 4 _ hlrs (by decide),
      o 34 4 38 4 _ (by decide) (by decide) (by decide)]
    simp; omega
  case maxRecs =>
    rw [o 38 4 0 8 _ hpa (by decide) (by decide),
      o 38 4 8 1 _ (by decide) (by decide) (by decide),
      o 38 4 32 1 _ (by decide) (by decide) (by decide),
      o 38 4 33 1 _ (by decide) (by decide) (by decide),
      o 38 4 26 1 _ (by decide) (by decide) (by decide),
      o 38 4 27 5 _ hctrs (by decide) (by decide),
      o 38 4 14 6 _ hbd (by decide) (by decide),
      o 38 4 20 6 _ hwd (by decide) (by decide),
      o 38 4 9 1 _ (by decide) (by decide) (by decide),
      o 38 4 10 4 _ hvq (by decide) (by decide),
      o 38 4 34 4 _ hlrs (by decide) (by decide),
      extract_inplace_same 38 4 _ (by decide) (by decide)]
    simp
  case da =>
    rw [o 42 1 0 8 _ hpa (by decide) (by decide),
      o 42 1 8 1 _ (by decide) (by decide) (by decide),
      o 42 1 32 1 _ (by decide) (by decide) (by decide),
      o 42 1 33 1 _ (by decide) (by decide) (by decide),
      o 42 1 26 1 _ (by decide) (by decide) (by decide),
      o 42 1 27 5 _ hctrs (by decide) (by decide),
      o 42 1 14 6 _ hbd (by decide) (by decide),
      o 42 1 20 6 _ hwd (by decide) (by decide),
      o 42 1 9 1 _ (by decide) (by decide) (by decide),
      o 42 1 10 4 _ hvq (by decide) (by decide),
      o 42 1 34 4 _ hlrs (by decide) (by decide),
      o 42 1 38 4 _ (by decide) (by decide) (by decide)]
    simp
  case rest =>
    rw [o 43 21 0 8 _ hpa (by decide) (by decide),
      o 43 21 8 1 _ (by decide) (by decide) (by decide),
      o 43 21 32 1 _ (by decide) (by decide) (by decide),
      o 43 21 33 1 _ (by decide) (by decide) (by decide),
      o 43 21 26 1 _ (by decide) (by decide) (by decide),
      o 43 21 27 5 _ hctrs (by decide) (by decide),
      o 43 21 14 6 _ hbd (by decide) (by decide),
      o 43 21 20 6 _ hwd (by decide) (by decide),
      o 43 21 9 1 _ (by decide) (by decide) (by decide),
      o 43 21 10 4 _ hvq (by decide) (by decide),
      o 43 21 34 4 _ hlrs (by decide) (by decide),
      o 43 21 38 4 _ (by decide) (by decide) (by decide)]
    simp

/-- C50: on any hardware whose reported values fit, feature register 0 exists, each
of its fields says exactly what the hardware reports, unassigned bits are zero, and
every other register index reads as zero. -/
theorem C50_feature_register (h : Hw) (hk : HwOk h) (index : W) :
    ∃ v, readFeatureRegister h index = some (0, v) ∧
      (index = 0 → Advertises h v) ∧ (index ≠ 0 → v = 0) := by
  unfold readFeatureRegister
  by_cases hi : index = 0
  · have hs : ∃ r, featureRegister0 h = some r := by
      unfold featureRegister0; rw [if_pos hk.pmu]; exact ⟨_, rfl⟩
    obtain ⟨r, hr⟩ := hs
    refine ⟨r, ?_, fun _ => fields h hk r hr, fun h => absurd hi h⟩
    rw [if_pos hi, hr]; rfl
  · exact ⟨0, by rw [if_neg hi], fun h => absurd h hi, fun _ => rfl⟩

/-- A typical machine. -/
def exampleHw : Hw :=
  { paWidth := 48, lpa2 := false, pmuVersionOk := true, pmuCtrs := 6, bps0 := 5, wps0 := 3,
    bps1 := 0, wps1 := 0, sve := true, sveVq := 1, numLrs := 3, hpmn0 := false }

theorem exampleHw_ok : HwOk exampleHw := by constructor <;> decide

example : HwOk exampleHw := exampleHw_ok

/-- The conditions under which a realm may be created with parameters `p` on
hardware `h`, in terms of what the hardware reports.  `lpa2`, `sve`, `pmu` are bits 0, 1, 2 of
the flags. -/
structure ParamsOk (h : Hw) (p : Params) : Prop where
  lpa2 : p.flags.getLsbD 0 = true → h.lpa2 = true
  s2szMin : 32 ≤ p.s2sz
  s2szMax : p.s2sz ≤ h.paWidth
  bps : 1 ≤ p.numBps ∧ p.numBps ≤ (if h.bps0 = 15 ∧ h.bps1 ≠ 0 then h.bps1 else h.bps0)
  wps : 1 ≤ p.numWps ∧ p.numWps ≤ (if h.wps0 = 15 ∧ h.wps1 ≠ 0 then h.wps1 else h.wps0)
  sve : p.flags.getLsbD 1 = true → h.sve = true ∧ p.sveVl ≤ h.sveVq
  pmu : p.flags.getLsbD 2 = true → p.pmuNumCtrs ≤ h.pmuCtrs ∧ (p.pmuNumCtrs = 0 → h.hpmn0 = true)
  geometry : Geometry.Legal h.paWidth p.s2sz p.rttLevelStart (p.flags.getLsbD 0) p.rttNumStart
  algorithm : p.algorithm = 0 ∨ p.algorithm = 1

theorem extract_bit (i : Nat) (w : W) (hi : i < 64) : (extract i 1 w = 1#64) ↔ w.getLsbD i = true := by
  have h := extract_toNat i 1 w (by omega)
  have h2 : w.getLsbD i = decide (w.toNat / 2 ^ i % 2 = 1) := by
    rw [BitVec.getLsbD, Nat.testBit_eq_decide_div_mod_eq]
  rw [h2, decide_eq_true_iff, ← BitVec.toNat_inj, h]
  unfold field
  simp

theorem lpa2Requested_eq (p : Params) : lpa2Requested p = p.flags.getLsbD 0 := by
  unfold lpa2Requested
  rw [Bool.eq_iff_iff, beq_iff_eq]
  exact extract_bit 0 p.flags (by decide)

theorem extract_eq_zero (i : Nat) (f : W) (h : i + 1 ≤ 64) : extract i 1 f = 0#64 ↔ field i 1 f = 0 := by
  rw [← BitVec.toNat_inj, extract_toNat i 1 f h]; rfl

theorem ite_false_iff {c : Prop} [Decidable c] {b : Bool} :
    (if c then false else b) = true ↔ ¬ c ∧ b = true := by split <;> simp_all

/-- C21: a realm's parameters are accepted if and only if the hardware supports them
(the VMID being the remaining condition, see C22), whatever the parameters. -/
theorem C21_params_accepted_iff (h : Hw) (hk : HwOk h) (p : Params) :
    ∃ b, validateRealmParams h p = some b ∧ (b = true ↔ ParamsOk h p) := by
  have hs : ∃ r, featureRegister0 h = some r := by
    unfold featureRegister0; rw [if_pos hk.pmu]; exact ⟨_, rfl⟩
  obtain ⟨f, hf⟩ := hs
  have ad := fields h hk f hf
  have e1 := extract_bit 1 p.flags (by decide)
  have e2 := extract_bit 2 p.flags (by decide)
  have z8 := extract_eq_zero 8 f (by decide)
  have z9 := extract_eq_zero 9 f (by decide)
  have x0 := extract_toNat 0 8 f (by decide)
  have x14 := extract_toNat 14 6 f (by decide)
  have x20 := extract_toNat 20 6 f (by decide)
  have x10 := extract_toNat 10 4 f (by decide)
  have x27 := extract_toNat 27 5 f (by decide)
  unfold validateRealmParams
  rw [hf]
  refine ⟨_, rfl, ?_⟩
  rw [lpa2Requested_eq]
  simp only [ite_false_iff]
  change _ ∧ _ ∧ _ ∧ ¬ (extract 1 1 p.flags = 1#64 ∧ (extract 9 1 f = 0#64 ∨ _)) ∧
    ¬ (extract 2 1 p.flags = 1#64 ∧ _) ∧ _ ∧ _ ∧ _ ↔ _
  rw [e1, e2, z9, x0, x14, x20, x10, x27, ad.s2sz, ad.bps, ad.wps, ad.sveEn, ad.sveVl, ad.pmuCtrs]
  have hz : (¬ (p.flags.getLsbD 0 = true ∧ extract 8 1 f = 0)) ↔
      (p.flags.getLsbD 0 = true → h.lpa2 = true) := by
    change (¬ (p.flags.getLsbD 0 = true ∧ extract 8 1 f = 0#64)) ↔ _
    rw [z8, ad.lpa2]
    cases h.lpa2 <;> simp
  rw [hz]
  have hg : Geometry.Legal h.paWidth p.s2sz p.rttLevelStart (p.flags.getLsbD 0) p.rttNumStart ↔
      Geometry.validateIpaBitsAndSl h.paWidth p.s2sz p.rttLevelStart (p.flags.getLsbD 0) = true ∧
      Geometry.numRootRtts p.s2sz p.rttLevelStart = p.rttNumStart := by
    rw [← Geometry.C20_geometry_accepted_iff]; unfold Geometry.geometryAccepted; simp
  constructor
  · rintro ⟨a1, a2, a3, a4, a5, a6, a7, a8⟩
    refine ⟨a1, by omega, by omega, by omega, by omega, ?_, ?_, ?_, by simpa using a8⟩
    · intro hb
      cases hsv : h.sve <;> simp_all
    · intro hb
      have := not_and.1 a5 hb
      push Not at this
      refine ⟨by omega, fun h0 => ?_⟩
      have := this.2 h0
      simpa using this
    · rw [hg]
      refine ⟨by simpa using a6, by simpa using a7⟩
  · rintro ⟨b1, b2, b3, b4, b5, b6, b7, b8, b9⟩
    rw [hg] at b8
    refine ⟨b1, by omega, by omega, ?_, ?_, by rw [b8.1]; decide, by simp [b8.2], by simpa using b9⟩
    · rintro ⟨c1, c2⟩
      obtain ⟨d1, d2⟩ := b6 c1
      simp only [d1, if_true] at c2
      omega
    · rintro ⟨c1, c2⟩
      obtain ⟨d1, d2⟩ := b7 c1
      rcases c2 with c2 | ⟨c2, c3⟩
      · omega
      · rw [d2 c2] at c3; exact absurd c3 (by decide)

/-- Parameters of an ordinary realm. -/
def exampleParams : Params :=
  { flags := 6, s2sz := 40, sveVl := 1, numBps := 2, numWps := 1, pmuNumCtrs := 4,
    algorithm := 1, rttLevelStart := 1, rttNumStart := 2 }

example : validateRealmParams exampleHw exampleParams = some true := by decide
example : validateRealmParams exampleHw { exampleParams with rttNumStart := 1 } = some false := by decide

end Verif.Features
