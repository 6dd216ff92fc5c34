import Verif.Run.PropRegs
import Mathlib.Tactic.IntervalCases

/-!
# C49: trapped system register accesses

The instruction is given by its syndrome; `Spec.Reg` names the register by its encoding.
-/

namespace Verif.Run

namespace Spec

/-- The trapped instruction accesses the register `S<op0>_<op1>_C<crn>_C<crm>_<op2>` (ESR_EL2 for a trapped MSR or MRS:
op0 21:20, op2 19:17, op1 16:14, CRn 13:10, CRm 4:1). -/
def Reg (esr : W) (op0 op1 crn crm op2 : Nat) : Prop :=
  esr.toNat / 2 ^ 20 % 4 = op0 ∧ esr.toNat / 2 ^ 14 % 8 = op1 ∧ esr.toNat / 2 ^ 10 % 16 = crn ∧
  esr.toNat / 2 % 16 = crm ∧ esr.toNat / 2 ^ 17 % 8 = op2

instance (esr : W) (a b c d e : Nat) : Decidable (Reg esr a b c d e) := by unfold Reg; infer_instance

/-- Bit `k` is in none of the four-bit fields that start at the given bits. -/
def outside (fields : List Nat) (k : Nat) : Bool := fields.all fun s => !(decide (s ≤ k) && decide (k < s + 4))

/-- Which bits of the identification register `S3_0_C0_C<crm>_<op2>` a realm may see. -/
def visible (sveEn svePresent : Bool) (crm op2 k : Nat) : Bool :=
  if crm = 4 ∧ op2 = 0 then outside [44] k && (sveEn || outside [32] k)     -- ID_AA64PFR0: not AMU; SVE if enabled
  else if crm = 4 ∧ op2 = 1 then outside [8, 24] k                          -- ID_AA64PFR1: not MTE, SME
  else if crm = 4 ∧ op2 = 4 then svePresent && sveEn                        -- ID_AA64ZFR0
  else if crm = 5 ∧ op2 = 0 then outside [4, 16, 24, 28, 32, 40, 44, 52, 56] k -- ID_AA64DFR0: not TraceVer, PMSS, SEBEP,
                                                     -- CTX_CMPs, PMSVer, TraceFilt, TraceBuffer, BRBE, ExtTrcBuff
  else if crm = 5 ∧ op2 = 1 then outside [48, 36] k                         -- ID_AA64DFR1: not ICNTR, EBEP
  else decide ((crm = 5 ∧ (op2 = 4 ∨ op2 = 5)) ∨ (crm = 6 ∧ op2 ≤ 1) ∨ (crm = 7 ∧ op2 ≤ 2)) -- AFR, ISAR, MMFR; else reserved

/-- The registers RMM has a handler for: identification registers, the CPU interface of the interrupt controller, and
its priority mask. -/
def Handled (esr : W) : Prop :=
  (∃ crm op2, Reg esr 3 0 0 crm op2) ∨ (∃ crm op2, 8 ≤ crm ∧ (Reg esr 3 0 12 crm op2 ∨ Reg esr 3 4 12 crm op2)) ∨
  Reg esr 3 0 4 6 0

/-- The registers whose writes the host emulates: ICC_DIR_EL1, ICC_SGI1R_EL1, ICC_SGI0R_EL1. -/
def HostReg (esr : W) : Prop := Reg esr 3 0 12 11 1 ∨ Reg esr 3 0 12 11 5 ∨ Reg esr 3 0 12 11 7

/-- The transfer register; 31 is XZR. -/
def rt (esr : W) : Nat := esr.toNat / 2 ^ 5 % 32

end Spec

open Spec

/-! ## Encodings -/

theorem field_toNat (e : W) (s n : Nat) : (e.extractLsb' s n).toNat = e.toNat / 2 ^ s % 2 ^ n := by
  rw [BitVec.extractLsb'_toNat, Nat.shiftRight_eq_div_pow]

theorem srRt_eq (e : W) : srRt e = rt e := field_toNat e 5 5

/-- The mask keeps the five fields. -/
theorem and_mask_eq (e : W) : e &&& SYSREG_MASK =
    sysregEsr (e.toNat / 2 ^ 20 % 4) (e.toNat / 2 ^ 14 % 8) (e.toNat / 2 ^ 10 % 16) (e.toNat / 2 % 16) (e.toNat / 2 ^ 17 % 8) := by
  have f : ∀ (s n k : Nat), (BitVec.ofNat 64 (e.toNat / 2 ^ s % 2 ^ n)).getLsbD k =
      (decide (k < 64) && (decide (k < n) && e.getLsbD (s + k))) := by
    intro s n k
    rw [← field_toNat, BitVec.getLsbD_ofNat]
    by_cases hk : k < 64
    · simp only [hk, decide_true, Bool.true_and]
      have := BitVec.getLsbD_extractLsb' (start := s) (len := n) (x := e) (i := k)
      rw [← this]
      rfl
    · simp [hk]
  have e1 := f 20 2
  have e2 := f 14 3
  have e3 := f 10 4
  have e4 := f 1 4
  have e5 := f 17 3
  simp only [Nat.reducePow, Nat.pow_one] at e1 e2 e3 e4 e5 ⊢
  apply BitVec.eq_of_getLsbD_eq
  intro k hk
  have hm : ∀ k : Fin 64, SYSREG_MASK.getLsbD k =
      (decide (1 ≤ k.val ∧ k.val < 5) || decide (10 ≤ k.val ∧ k.val < 22)) := by decide
  unfold sysregEsr
  rw [BitVec.getLsbD_and, hm ⟨k, hk⟩]
  simp only [BitVec.getLsbD_or, BitVec.getLsbD_shiftLeft, e1, e2, e3, e4, e5]
  simp only [Bool.decide_and]
  interval_cases k <;> simp

theorem bit_nat (e : W) (k : Nat) : e.getLsbD k = decide (e.toNat / 2 ^ k % 2 = 1) := by
  rw [BitVec.getLsbD, Nat.testBit_eq_decide_div_mod_eq]

theorem masked {e m c : W} : e &&& m = c ↔ ∀ k : Fin 64, (e.getLsbD k && m.getLsbD k) = c.getLsbD k := by
  constructor
  · rintro rfl k
    rw [BitVec.getLsbD_and]
  · intro h
    apply BitVec.eq_of_getLsbD_eq
    intro k hk
    rw [BitVec.getLsbD_and]
    exact h ⟨k, hk⟩

/-- The first entry of the table. -/
theorem id_group (e : W) : e &&& sysregEsr 3 7 15 0 0 = sysregEsr 3 0 0 0 0 ↔
    (e.toNat / 2 ^ 20 % 4 = 3 ∧ e.toNat / 2 ^ 14 % 8 = 0 ∧ e.toNat / 2 ^ 10 % 16 = 0) := by
  have hm : ∀ k : Fin 64, (sysregEsr 3 7 15 0 0).getLsbD k = decide ((10 ≤ k.val ∧ k.val < 17) ∨ (20 ≤ k.val ∧ k.val < 22)) := by
    decide
  have hc : ∀ k : Fin 64, (sysregEsr 3 0 0 0 0).getLsbD k = decide (20 ≤ k.val ∧ k.val < 22) := by decide
  rw [masked]
  simp only [Nat.reducePow]
  constructor
  · intro h
    have g : ∀ k : Fin 64, (e.getLsbD k && decide ((10 ≤ k.val ∧ k.val < 17) ∨ (20 ≤ k.val ∧ k.val < 22))) = decide (20 ≤ k.val ∧ k.val < 22) := by
      intro k; rw [← hm, h k, hc]
    have g10 := Bool.eq_iff_iff.mp (g ⟨10, by omega⟩)
    have g11 := Bool.eq_iff_iff.mp (g ⟨11, by omega⟩)
    have g12 := Bool.eq_iff_iff.mp (g ⟨12, by omega⟩)
    have g13 := Bool.eq_iff_iff.mp (g ⟨13, by omega⟩)
    have g14 := Bool.eq_iff_iff.mp (g ⟨14, by omega⟩)
    have g15 := Bool.eq_iff_iff.mp (g ⟨15, by omega⟩)
    have g16 := Bool.eq_iff_iff.mp (g ⟨16, by omega⟩)
    have g20 := Bool.eq_iff_iff.mp (g ⟨20, by omega⟩)
    have g21 := Bool.eq_iff_iff.mp (g ⟨21, by omega⟩)
    simp only [bit_nat, Bool.and_eq_true, decide_eq_true_eq, Nat.reducePow] at g10 g11 g12 g13 g14 g15 g16 g20 g21
    generalize e.toNat = n at *
    omega
  · rintro ⟨h0, h1, h2⟩ k
    rw [hm, hc, bit_nat]
    generalize e.toNat = n at *
    obtain ⟨k, hk⟩ := k
    simp only
    by_cases hr : (10 ≤ k ∧ k < 17) ∨ (20 ≤ k ∧ k < 22)
    · rcases hr with ⟨ha, hb⟩ | ⟨ha, hb⟩
      · interval_cases k <;> rw [Bool.eq_iff_iff] <;> simp only [Bool.and_eq_true, decide_eq_true_eq] <;> simp only [Nat.reducePow] <;>
          constructor <;> intro hx <;> omega
      · interval_cases k <;> rw [Bool.eq_iff_iff] <;> simp only [Bool.and_eq_true, decide_eq_true_eq] <;> simp only [Nat.reducePow] <;>
          constructor <;> intro hx <;> omega
    · simp [hr]; omega

/-- The second entry of the table. -/
theorem icc_group (e : W) : e &&& sysregEsr 3 3 15 8 0 = sysregEsr 3 0 12 8 0 ↔
    (e.toNat / 2 ^ 20 % 4 = 3 ∧ (e.toNat / 2 ^ 14 % 8 = 0 ∨ e.toNat / 2 ^ 14 % 8 = 4) ∧ e.toNat / 2 ^ 10 % 16 = 12 ∧
      8 ≤ e.toNat / 2 % 16) := by
  have hm : ∀ k : Fin 64, (sysregEsr 3 3 15 8 0).getLsbD k =
      decide ((4 ≤ k.val ∧ k.val < 5) ∨ (10 ≤ k.val ∧ k.val < 16) ∨ (20 ≤ k.val ∧ k.val < 22)) := by decide
  have hc : ∀ k : Fin 64, (sysregEsr 3 0 12 8 0).getLsbD k =
      decide ((4 ≤ k.val ∧ k.val < 5) ∨ (12 ≤ k.val ∧ k.val < 14) ∨ (20 ≤ k.val ∧ k.val < 22)) := by decide
  rw [masked]
  simp only [Nat.reducePow]
  constructor
  · intro h
    have g : ∀ k : Fin 64, (e.getLsbD k && decide ((4 ≤ k.val ∧ k.val < 5) ∨ (10 ≤ k.val ∧ k.val < 16) ∨ (20 ≤ k.val ∧ k.val < 22))) =
        decide ((4 ≤ k.val ∧ k.val < 5) ∨ (12 ≤ k.val ∧ k.val < 14) ∨ (20 ≤ k.val ∧ k.val < 22)) := by
      intro k; rw [← hm, h k, hc]
    have g4 := Bool.eq_iff_iff.mp (g ⟨4, by omega⟩)
    have g10 := Bool.eq_iff_iff.mp (g ⟨10, by omega⟩)
    have g11 := Bool.eq_iff_iff.mp (g ⟨11, by omega⟩)
    have g12 := Bool.eq_iff_iff.mp (g ⟨12, by omega⟩)
    have g13 := Bool.eq_iff_iff.mp (g ⟨13, by omega⟩)
    have g14 := Bool.eq_iff_iff.mp (g ⟨14, by omega⟩)
    have g15 := Bool.eq_iff_iff.mp (g ⟨15, by omega⟩)
    have g20 := Bool.eq_iff_iff.mp (g ⟨20, by omega⟩)
    have g21 := Bool.eq_iff_iff.mp (g ⟨21, by omega⟩)
    simp only [bit_nat, Bool.and_eq_true, decide_eq_true_eq, Nat.reducePow] at g4 g10 g11 g12 g13 g14 g15 g20 g21
    generalize e.toNat = n at *
    omega
  · rintro ⟨h0, h1, h2, h3⟩ k
    rw [hm, hc, bit_nat]
    generalize e.toNat = n at *
    obtain ⟨k, hk⟩ := k
    simp only
    by_cases hr : (4 ≤ k ∧ k < 5) ∨ (10 ≤ k ∧ k < 16) ∨ (20 ≤ k ∧ k < 22)
    · rcases hr with ⟨ha, hb⟩ | ⟨ha, hb⟩ | ⟨ha, hb⟩
      · interval_cases k <;> rw [Bool.eq_iff_iff] <;> simp only [Bool.and_eq_true, decide_eq_true_eq] <;> simp only [Nat.reducePow] <;>
          constructor <;> intro hx <;> omega
      · interval_cases k <;> rw [Bool.eq_iff_iff] <;> simp only [Bool.and_eq_true, decide_eq_true_eq] <;> simp only [Nat.reducePow] <;>
          constructor <;> intro hx <;> omega
      · interval_cases k <;> rw [Bool.eq_iff_iff] <;> simp only [Bool.and_eq_true, decide_eq_true_eq] <;> simp only [Nat.reducePow] <;>
          constructor <;> intro hx <;> omega
    · simp [hr]; omega

theorem reg_iff (e : W) {a b c d f : Nat} (hb : a < 4 ∧ b < 8 ∧ c < 16 ∧ d < 16 ∧ f < 8)
    (t : (sysregEsr a b c d f).toNat = a * 2 ^ 20 + f * 2 ^ 17 + b * 2 ^ 14 + c * 2 ^ 10 + d * 2) :
    e &&& SYSREG_MASK = sysregEsr a b c d f ↔ Reg e a b c d f := by
  constructor
  · intro h
    obtain ⟨h1, h2, h3, h4, h5⟩ := fields_of_sysreg h
    refine ⟨?_, ?_, ?_, ?_, ?_⟩
    · have := congrArg BitVec.toNat h1; rw [field_toNat, field_toNat, t] at this; omega
    · have := congrArg BitVec.toNat h2; rw [field_toNat, field_toNat, t] at this; omega
    · have := congrArg BitVec.toNat h3; rw [field_toNat, field_toNat, t] at this; omega
    · have := congrArg BitVec.toNat h4; rw [field_toNat, field_toNat, t] at this; omega
    · have := congrArg BitVec.toNat h5; rw [field_toNat, field_toNat, t] at this; omega
  · rintro ⟨h1, h2, h3, h4, h5⟩
    rw [and_mask_eq, h1, h2, h3, h4, h5]

theorem host_reg (e : W) : (e &&& SYSREG_MASK = sysregEsr 3 0 12 11 1 ∨ e &&& SYSREG_MASK = sysregEsr 3 0 12 11 5 ∨
    e &&& SYSREG_MASK = sysregEsr 3 0 12 11 7) ↔ HostReg e := by
  unfold HostReg
  rw [reg_iff e (by omega) (by decide), reg_iff e (by omega) (by decide), reg_iff e (by omega) (by decide)]

theorem pmr_reg (e : W) : e &&& SYSREG_MASK = sysregEsr 3 0 4 6 0 ↔ Reg e 3 0 4 6 0 :=
  reg_iff e (by omega) (by decide)

/-! ## Identification registers -/

theorem m4_bit (s k : Nat) : (m4 s).getLsbD k = (decide (k < 64) && (decide (s ≤ k) && decide (k < s + 4))) := by
  unfold m4
  rw [BitVec.getLsbD_shiftLeft]
  by_cases h : k < 64
  · by_cases h1 : k < s
    · have : ¬ s ≤ k := by omega
      simp [h, h1, this]
    · have hf : ∀ j, (0xf : W).getLsbD j = decide (j < 4) := by
        intro j
        by_cases hj : j < 64
        · have : ∀ j : Fin 64, (0xf : W).getLsbD j = decide (j.val < 4) := by decide
          exact this ⟨j, hj⟩
        · rw [BitVec.getLsbD_of_ge _ _ (by omega)]
          have : ¬ j < 4 := by omega
          simp [this]
      rw [hf]
      have h2 : s ≤ k := by omega
      have : (k - s < 4) ↔ (k < s + 4) := by omega
      simp [h, h1, h2, this]
  · simp [h]

theorem and_not_bit (v m : W) {k : Nat} (hk : k < 64) : (v &&& ~~~m).getLsbD k = (v.getLsbD k && !m.getLsbD k) := by
  rw [BitVec.getLsbD_and, BitVec.getLsbD_not, decide_eq_true hk, Bool.true_and]

theorem enc_eq (crm op2 : Nat) (hc : crm < 16) (ho : op2 < 8) : ∀ a b : Nat, a < 16 → b < 8 →
    (sysregEsr 3 0 0 crm op2 = sysregEsr 3 0 0 a b ↔ crm = a ∧ op2 = b) := by
  have h : ∀ (c a : Fin 16) (o b : Fin 8), sysregEsr 3 0 0 c o = sysregEsr 3 0 0 a b → c = a ∧ o = b := by
    decide +kernel
  intro a b ha hb
  constructor
  · intro e
    have := h ⟨crm, hc⟩ ⟨a, ha⟩ ⟨op2, ho⟩ ⟨b, hb⟩ e
    simpa using this
  · rintro ⟨rfl, rfl⟩; rfl

theorem idValue_bits (env : Env) (sveEn : Bool) (crm op2 : Nat) (hc : crm < 16) (ho : op2 < 8) (k : Nat) (hk : k < 64) :
    (idValue env sveEn (sysregEsr 3 0 0 crm op2)).getLsbD k =
      ((env.idreg (sysregEsr 3 0 0 crm op2)).getLsbD k && visible sveEn env.svePresent crm op2 k) := by
  unfold idValue visible
  generalize hv : env.idreg (sysregEsr 3 0 0 crm op2) = v
  have en := enc_eq crm op2 hc ho
  simp only [en 5 4 (by omega) (by omega), en 5 5 (by omega) (by omega), en 5 0 (by omega) (by omega),
    en 5 1 (by omega) (by omega), en 6 0 (by omega) (by omega), en 6 1 (by omega) (by omega), en 7 0 (by omega) (by omega),
    en 7 1 (by omega) (by omega), en 7 2 (by omega) (by omega), en 4 0 (by omega) (by omega), en 4 1 (by omega) (by omega),
    en 4 4 (by omega) (by omega), outside, List.all_cons, List.all_nil, Bool.and_true]
  by_cases h0 : crm = 4 ∧ op2 = 0
  · obtain ⟨rfl, rfl⟩ := h0
    simp (disch := omega) only [and_self, if_true, if_pos, if_neg, PFR0_CLEAR]
    have b1 : ((v &&& ~~~m4 44).extractLsb' 32 4 = 0) → 32 ≤ k → k < 36 → v.getLsbD k = false := by
      intro h h1 h2
      have := congrArg (BitVec.getLsbD · (k - 32)) h
      simp only [BitVec.getLsbD_extractLsb', show k - 32 < 4 by omega, decide_true, Bool.true_and,
        show 32 + (k - 32) = k by omega, and_not_bit _ _ hk, m4_bit, show ¬ 44 ≤ k by omega, decide_false, Bool.false_and,
        Bool.and_false, Bool.not_false, Bool.and_true] at this
      simpa using this
    rcases Bool.eq_false_or_eq_true sveEn with hs | hs
    · simp only [hs, Bool.true_eq_false, and_false, if_false, and_not_bit _ _ hk, m4_bit, hk, decide_true, Bool.true_and,
        Bool.true_or, Bool.and_true]
    · by_cases hz : (v &&& ~~~m4 44).extractLsb' 32 4 = 0
      · simp only [hz, ne_eq, not_true, false_and, if_false, hs, and_not_bit _ _ hk, m4_bit, hk, decide_true,
          Bool.true_and, Bool.false_or]
        by_cases hr : 32 ≤ k ∧ k < 36
        · simp [b1 hz hr.1 hr.2]
        · have : (decide (32 ≤ k) && decide (k < 32 + 4)) = false := by
            rw [← Bool.decide_and]; exact decide_eq_false hr
          simp [this]
      · simp only [hz, ne_eq, not_false_eq_true, true_and, if_true, hs, and_not_bit _ _ hk, m4_bit, hk, decide_true,
          Bool.true_and, Bool.false_or, Bool.and_assoc]
  by_cases h1 : crm = 4 ∧ op2 = 1
  · obtain ⟨rfl, rfl⟩ := h1
    simp (disch := omega) only [and_self, if_true, if_pos, if_neg, PFR1_CLEAR]
    simp only [and_not_bit _ _ hk, BitVec.getLsbD_or, m4_bit, hk, decide_true, Bool.true_and, Bool.not_or, Bool.and_assoc]
  by_cases h2 : crm = 4 ∧ op2 = 4
  · obtain ⟨rfl, rfl⟩ := h2
    simp (disch := omega) only [and_self, if_true, if_pos, if_neg]
    cases env.svePresent <;> cases sveEn <;> simp
  by_cases h3 : crm = 5 ∧ op2 = 0
  · obtain ⟨rfl, rfl⟩ := h3
    simp (disch := omega) only [and_self, if_true, if_pos, if_neg, DFR0_CLEAR]
    simp only [and_not_bit _ _ hk, BitVec.getLsbD_or, m4_bit, hk, decide_true, Bool.true_and, Bool.not_or, Bool.and_assoc]
  by_cases h4 : crm = 5 ∧ op2 = 1
  · obtain ⟨rfl, rfl⟩ := h4
    simp (disch := omega) only [and_self, if_true, if_pos, if_neg, DFR1_CLEAR]
    simp only [and_not_bit _ _ hk, BitVec.getLsbD_or, m4_bit, hk, decide_true, Bool.true_and, Bool.not_or, Bool.and_assoc]
  simp only [h0, h1, h2, h3, h4, if_false]
  by_cases h5 : (crm = 5 ∧ (op2 = 4 ∨ op2 = 5)) ∨ (crm = 6 ∧ op2 ≤ 1) ∨ (crm = 7 ∧ op2 ≤ 2)
  · rw [decide_eq_true h5, Bool.and_true]
    congr 1
    rcases h5 with ⟨rfl, h | h⟩ | ⟨rfl, h⟩ | ⟨rfl, h⟩
    · simp [h]
    · simp [h]
    · interval_cases op2 <;> simp
    · interval_cases op2 <;> simp
  · rw [decide_eq_false h5, Bool.and_false]
    simp (disch := omega) only [if_neg]
    simp

/-! ## C49 -/

theorem syncExit_sysreg (env : Env) (w : World) {hw : Hw} (h : ec hw.esr = EC_SYSREG) :
    syncExit env w hw = (sysregTrap env w hw.esr).map fun p => ({ p.1 with rc := advancePc p.1.rc }, p.2) := by
  unfold syncExit
  rw [h]
  rfl

/-- A trapped access to a system register by a 32-bit instruction. -/
structure Spec.Access (hw : Hw) : Prop where
  ec : ec hw.esr = EC_SYSREG
  il : hw.esr.getLsbD 25 = true

theorem rt_lt (e : W) : rt e < 32 := Nat.mod_lt _ (by omega)

/-- **C49 (identification registers).** Reading any of them gives the transfer register exactly the bits of the CPU's
register that a realm may see; nothing else changes, and the realm goes on after the instruction. -/
theorem C49_id_read (env : Env) (w : World) {hw : Hw} (ha : Access hw) (hrd : hw.esr.getLsbD 0 = true) {crm op2 : Nat}
    (hr : Reg hw.esr 3 0 0 crm op2) :
    ∃ regs, handleExit env w .sync hw =
        some ({ w with rc := { w.rc with regs := regs, pc := w.rc.pc + 4 }, ex := { w.ex with reason := EXIT_SYNC } }, true) ∧
      (∀ i, i ≠ rt hw.esr ∨ i = 31 → regs i = w.rc.regs i) ∧
      (rt hw.esr ≠ 31 → ∀ k < 64, (regs (rt hw.esr)).getLsbD k =
        ((env.idreg (sysregEsr 3 0 0 crm op2)).getLsbD k && visible w.rc.sveEn env.svePresent crm op2 k)) := by
  have hg := (id_group hw.esr).mpr ⟨hr.1, hr.2.1, hr.2.2.1⟩
  have hm : hw.esr &&& SYSREG_MASK = sysregEsr 3 0 0 crm op2 := by
    obtain ⟨h1, h2, h3, h4, h5⟩ := hr
    rw [and_mask_eq, h1, h2, h3, h4, h5]
  have hcrm : crm < 16 := by obtain ⟨_, _, _, h, _⟩ := hr; omega
  have hop2 : op2 < 8 := by obtain ⟨_, _, _, _, h⟩ := hr; omega
  simp only [handleExit, syncExit_sysreg env _ ha.ec, sysregTrap, ha.il, hg, if_true, idTrap, srWrite, hrd, Bool.not_true,
    srRt_eq, hm]
  by_cases h31 : rt hw.esr = 31
  · refine ⟨w.rc.regs, ?_, fun i _ => rfl, fun h => absurd h31 h⟩
    simp [h31, advancePc]
  · have hlt := rt_lt hw.esr
    refine ⟨upd w.rc.regs (rt hw.esr) (idValue env w.rc.sveEn (sysregEsr 3 0 0 crm op2)), ?_, ?_, ?_⟩
    · simp [h31, Rec.setReg, show rt hw.esr < 31 by omega, advancePc]
    · intro i hi
      have : i ≠ rt hw.esr := by omega
      simp [upd, this]
    · intro _ k hk
      simp only [upd, if_true]
      exact idValue_bits env w.rc.sveEn crm op2 hcrm hop2 k hk

/-- **C49 (read-only).** No identification register is ever written: a trapped write, which the hardware does not
produce, fails an assertion. -/
theorem C49_id_write (env : Env) (w : World) {hw : Hw} (ha : Access hw) (hwr : hw.esr.getLsbD 0 = false) {crm op2 : Nat}
    (hr : Reg hw.esr 3 0 0 crm op2) : handleExit env w .sync hw = none := by
  have hg := (id_group hw.esr).mpr ⟨hr.1, hr.2.1, hr.2.2.1⟩
  simp only [handleExit, syncExit_sysreg env _ ha.ec, sysregTrap, ha.il, hg, idTrap, srWrite, hwr, Bool.not_false, if_true,
    Bool.true_eq_false, if_false]
  rfl

theorem not_handled {e : W} (h : ¬ Handled e) : (e &&& sysregEsr 3 7 15 0 0 ≠ sysregEsr 3 0 0 0 0) ∧
    (e &&& sysregEsr 3 3 15 8 0 ≠ sysregEsr 3 0 12 8 0) ∧ (e &&& SYSREG_MASK ≠ sysregEsr 3 0 4 6 0) := by
  refine ⟨fun hc => h ?_, fun hc => h ?_, fun hc => h ?_⟩
  · obtain ⟨h1, h2, h3⟩ := (id_group e).mp hc
    exact .inl ⟨_, _, h1, h2, h3, rfl, rfl⟩
  · obtain ⟨h1, h2, h3, h4⟩ := (icc_group e).mp hc
    refine .inr (.inl ⟨_, e.toNat / 2 ^ 17 % 8, h4, ?_⟩)
    rcases h2 with h2 | h2
    · exact .inl ⟨h1, h2, h3, rfl, rfl⟩
    · exact .inr ⟨h1, h2, h3, rfl, rfl⟩
  · exact .inr (.inr ((pmr_reg e).mp hc))

/-- **C49 (everything else).** Every other register reads as zero and ignores writes; the realm goes on after the
instruction, and nothing else changes. -/
theorem C49_razwi (env : Env) (w : World) {hw : Hw} (ha : Access hw) (hh : ¬ Handled hw.esr) :
    ∃ regs, handleExit env w .sync hw =
        some ({ w with rc := { w.rc with regs := regs, pc := w.rc.pc + 4 }, ex := { w.ex with reason := EXIT_SYNC } }, true) ∧
      ∀ i, regs i = if hw.esr.getLsbD 0 = true ∧ i = rt hw.esr ∧ i ≠ 31 then 0 else w.rc.regs i := by
  obtain ⟨h1, h2, h3⟩ := not_handled hh
  have hlt := rt_lt hw.esr
  simp only [handleExit, syncExit_sysreg env _ ha.ec, sysregTrap, ha.il, h1, h2, h3, if_false, srWrite, srRt_eq,
    Bool.true_eq_false]
  by_cases hc : hw.esr.getLsbD 0 = true ∧ rt hw.esr ≠ 31
  · refine ⟨upd w.rc.regs (rt hw.esr) 0, ?_, ?_⟩
    · simp [hc, Rec.setReg, show rt hw.esr < 31 by omega, advancePc]
    · intro i
      unfold upd
      by_cases hi : i = rt hw.esr
      · subst hi; simp [hc]
      · simp [hi]
  · refine ⟨w.rc.regs, ?_, ?_⟩
    · have : ¬ ((!hw.esr.getLsbD 0) = false ∧ rt hw.esr ≠ 31) := by simpa using hc
      rw [if_neg this]
      simp [advancePc]
    · intro i
      have : ¬ (hw.esr.getLsbD 0 = true ∧ i = rt hw.esr ∧ i ≠ 31) := by
        rintro ⟨a, b, c⟩; exact hc ⟨a, b ▸ c⟩
      rw [if_neg this]

theorem host_icc {e : W} (h : HostReg e) : (e &&& sysregEsr 3 7 15 0 0 ≠ sysregEsr 3 0 0 0 0) ∧
    (e &&& sysregEsr 3 3 15 8 0 = sysregEsr 3 0 12 8 0) := by
  have : e.toNat / 2 ^ 20 % 4 = 3 ∧ e.toNat / 2 ^ 14 % 8 = 0 ∧ e.toNat / 2 ^ 10 % 16 = 12 ∧ e.toNat / 2 % 16 = 11 := by
    rcases h with ⟨a, b, c, d, _⟩ | ⟨a, b, c, d, _⟩ | ⟨a, b, c, d, _⟩ <;> exact ⟨a, b, c, d⟩
  obtain ⟨a, b, c, d⟩ := this
  constructor
  · rw [ne_eq, id_group]; rintro ⟨_, _, h⟩; omega
  · rw [icc_group]; exact ⟨a, .inl b, c, by omega⟩

/-- **C49 (exits).** An access leaves the run loop only if it is a write to ICC_DIR_EL1, ICC_SGI1R_EL1 or
ICC_SGI0R_EL1. -/
theorem C49_exit_only (env : Env) (w w' : World) {hw : Hw} (ha : Access hw) (h : handleExit env w .sync hw = some (w', false)) :
    HostReg hw.esr ∧ hw.esr.getLsbD 0 = false := by
  simp only [handleExit, syncExit_sysreg env _ ha.ec] at h
  obtain ⟨p, h1, h2⟩ := map_some h
  obtain ⟨q, h3, rfl⟩ := map_some h1
  have hq : q.2 = false := by
    rcases Bool.eq_false_or_eq_true q.2 with hb | hb
    · rw [hb] at h2; simp at h2
    · exact hb
  simp only [sysregTrap, ha.il, Bool.true_eq_false, if_false] at h3
  have icc : ∀ {x : World}, iccTrap x hw.esr = some q.1 → HostReg hw.esr ∧ hw.esr.getLsbD 0 = false := by
    intro x hx
    unfold iccTrap at hx
    rcases ite_or hx with ⟨⟨hs, hwr⟩, _⟩ | ⟨_, hx⟩
    · exact ⟨(host_reg hw.esr).mp hs, by simpa [srWrite] using hwr⟩
    · exact absurd hx (by simp)
  rcases ite_or h3 with ⟨_, h3⟩ | ⟨_, h3⟩
  · obtain ⟨x, _, rfl⟩ := map_some h3; exact absurd hq (by simp)
  rcases ite_or h3 with ⟨_, h3⟩ | ⟨_, h3⟩
  · obtain ⟨x, hx, rfl⟩ := map_some h3; exact icc hx
  rcases ite_or h3 with ⟨_, h3⟩ | ⟨_, h3⟩
  · obtain ⟨x, hx, rfl⟩ := map_some h3; exact icc hx
  rcases ite_or h3 with ⟨_, h3⟩ | ⟨_, h3⟩
  · obtain ⟨x, _, rfl⟩ := map_some h3; exact absurd hq (by simp)
  · obtain rfl := Option.some.inj h3; exact absurd hq (by simp)

theorem record_esr (e b : W) : (if e &&& b = 0 then e &&& ~~~b else e) = e := by
  by_cases h : e &&& b = 0
  · rw [if_pos h]
    apply BitVec.eq_of_getLsbD_eq
    intro k hk
    have := congrArg (BitVec.getLsbD · k) h
    simp only [BitVec.getLsbD_and, BitVec.getLsbD_not, hk, decide_true, Bool.true_and] at this ⊢
    cases he : e.getLsbD k
    · rfl
    · rw [he, Bool.true_and] at this
      rw [this]; simp
  · rw [if_neg h]

/-- **C49 (what the host is given).** Such a write gives the host the syndrome and the value, and no other part of the
exit structure; the realm's registers stay, and it will go on after the instruction. -/
theorem C49_exit (env : Env) (w : World) {hw : Hw} (ha : Access hw) (hr : HostReg hw.esr) (hwr : hw.esr.getLsbD 0 = false) :
    handleExit env w .sync hw =
      some ({ w with
        rc := { w.rc with pc := w.rc.pc + 4, lastEsr := hw.esr, lastFar := hw.far, lastHpfar := hw.hpfar }
        ex := { w.ex with
          reason := EXIT_SYNC, esr := hw.esr
          gprs := fun i => if i = 0 then (if rt hw.esr = 31 then 0 else w.rc.regs (rt hw.esr)) else w.ex.gprs i } }, false) := by
  obtain ⟨h1, h2⟩ := host_icc hr
  have hlt := rt_lt hw.esr
  simp only [handleExit, syncExit_sysreg env _ ha.ec, sysregTrap, ha.il, h1, h2, if_true, if_false, iccTrap, srWrite,
    (host_reg hw.esr).mpr hr, hwr, Bool.not_false, and_self, Bool.true_eq_false, srRt_eq]
  by_cases h31 : rt hw.esr = 31
  · simp [h31, advancePc, recordSync]
    exact ⟨fun hz => by have := record_esr hw.esr B_ISV; rw [if_pos (show hw.esr &&& B_ISV = 0 from hz)] at this; exact this, rfl⟩
  · simp [h31, Rec.reg, show rt hw.esr < 31 by omega, advancePc, recordSync]
    exact ⟨fun hz => by have := record_esr hw.esr B_ISV; rw [if_pos (show hw.esr &&& B_ISV = 0 from hz)] at this; exact this, rfl⟩

/-! ## Concrete accesses -/

namespace Demo

/-- Syndrome of a trapped access: exception class 0x18, 32-bit instruction. -/
def sysreg (op0 op1 crn crm op2 rt : Nat) (read : Bool) : Hw :=
  ⟨0x62000000 ||| sysregEsr op0 op1 crn crm op2 ||| BitVec.ofNat 64 (rt * 32) ||| (if read then 1 else 0), 0, 0⟩

end Demo

/-- `MRS X3, ID_AA64PFR0_EL1`. -/
example : Access (Demo.sysreg 3 0 0 4 0 3 true) ∧ (Demo.sysreg 3 0 0 4 0 3 true).esr.getLsbD 0 = true ∧
    Reg (Demo.sysreg 3 0 0 4 0 3 true).esr 3 0 0 4 0 ∧ rt (Demo.sysreg 3 0 0 4 0 3 true).esr = 3 :=
  ⟨⟨by decide, by decide⟩, by decide, by decide, by decide⟩

/-- The realm sees neither AMU nor, since it is not enabled, SVE. -/
example : ((handleExit Demo.env Demo.world .sync (Demo.sysreg 3 0 0 4 0 3 true)).map fun p => p.1.rc.regs 3) =
    some 0x1111011011111111#64 := by decide +kernel

/-- `MSR ID_AA64PFR0_EL1, X3`, which does not exist. -/
example : Access (Demo.sysreg 3 0 0 4 0 3 false) ∧ (Demo.sysreg 3 0 0 4 0 3 false).esr.getLsbD 0 = false ∧
    Reg (Demo.sysreg 3 0 0 4 0 3 false).esr 3 0 0 4 0 := ⟨⟨by decide, by decide⟩, by decide, by decide⟩

/-- `MRS X5, ACTLR_EL1` is not handled. -/
example : Access (Demo.sysreg 3 0 1 0 1 5 true) ∧ ¬ Handled (Demo.sysreg 3 0 1 0 1 5 true).esr := by
  refine ⟨⟨by decide, by decide⟩, ?_⟩
  have h : (Demo.sysreg 3 0 1 0 1 5 true).esr.toNat / 2 ^ 10 % 16 = 1 := by decide
  rintro (⟨_, _, _, _, h1, _⟩ | ⟨_, _, _, ⟨_, _, h1, _⟩ | ⟨_, _, h1, _⟩⟩ | ⟨_, _, h1, _⟩) <;> rw [h] at h1 <;>
    exact absurd h1 (by decide)

/-- `MSR ICC_SGI1R_EL1, X2` exits. -/
example : Access (Demo.sysreg 3 0 12 11 5 2 false) ∧ HostReg (Demo.sysreg 3 0 12 11 5 2 false).esr ∧
    (Demo.sysreg 3 0 12 11 5 2 false).esr.getLsbD 0 = false ∧
    (handleExit Demo.env Demo.world .sync (Demo.sysreg 3 0 12 11 5 2 false)).isSome = true := by
  refine ⟨⟨by decide, by decide⟩, .inr (.inl (by decide)), by decide, by decide +kernel⟩

/-- A disagreement with the claim: the architecture traps writes to ICC_ASGI1R_EL1 together with those to the other two
registers that generate interrupts, but the assertion of `handle_icc_el1_sysreg_trap` (sysregs.c:204-206) leaves it out,
so the write fails that assertion. -/
theorem C49_asgi1r_asserts (env : Env) (w : World) {hw : Hw} (ha : Access hw) (hr : Reg hw.esr 3 0 12 11 6) :
    handleExit env w .sync hw = none := by
  obtain ⟨a, b, c, d, e⟩ := hr
  have h1 : hw.esr &&& sysregEsr 3 7 15 0 0 ≠ sysregEsr 3 0 0 0 0 := by
    rw [ne_eq, id_group]; rintro ⟨_, _, h⟩; omega
  have h2 : hw.esr &&& sysregEsr 3 3 15 8 0 = sysregEsr 3 0 12 8 0 := by
    rw [icc_group]; exact ⟨a, .inl b, c, by omega⟩
  have h3 : ¬ (hw.esr &&& SYSREG_MASK = sysregEsr 3 0 12 11 1 ∨ hw.esr &&& SYSREG_MASK = sysregEsr 3 0 12 11 5 ∨
      hw.esr &&& SYSREG_MASK = sysregEsr 3 0 12 11 7) := by
    rw [host_reg]; rintro (⟨_, _, _, _, h⟩ | ⟨_, _, _, _, h⟩ | ⟨_, _, _, _, h⟩) <;> omega
  simp only [handleExit, syncExit_sysreg env _ ha.ec, sysregTrap, ha.il, h1, h2, if_true, if_false, iccTrap, h3, false_and,
    Bool.true_eq_false]
  rfl

example : Access (Demo.sysreg 3 0 12 11 6 2 false) ∧ Reg (Demo.sysreg 3 0 12 11 6 2 false).esr 3 0 12 11 6 :=
  ⟨⟨by decide, by decide⟩, by decide⟩

/-- Another: the table has an entry for ICC_PMR_EL1 whose handler asserts that the register is not ICC_PMR_EL1. -/
theorem C49_pmr_asserts (env : Env) (w : World) {hw : Hw} (ha : Access hw) (hr : Reg hw.esr 3 0 4 6 0) :
    handleExit env w .sync hw = none := by
  obtain ⟨a, b, c, d, e⟩ := hr
  have h1 : hw.esr &&& sysregEsr 3 7 15 0 0 ≠ sysregEsr 3 0 0 0 0 := by
    rw [ne_eq, id_group]; rintro ⟨_, _, h⟩; omega
  have h2 : hw.esr &&& sysregEsr 3 3 15 8 0 ≠ sysregEsr 3 0 12 8 0 := by
    rw [ne_eq, icc_group]; rintro ⟨_, _, h, _⟩; omega
  have h4 : hw.esr &&& SYSREG_MASK = sysregEsr 3 0 4 6 0 := (pmr_reg _).mpr ⟨a, b, c, d, e⟩
  have h3 : ¬ (sysregEsr 3 0 4 6 0 = sysregEsr 3 0 12 11 1 ∨ sysregEsr 3 0 4 6 0 = sysregEsr 3 0 12 11 5 ∨
      sysregEsr 3 0 4 6 0 = sysregEsr 3 0 12 11 7) := by decide
  simp only [handleExit, syncExit_sysreg env _ ha.ec, sysregTrap, ha.il, h1, h2, h4, if_true, if_false, iccTrap, h3,
    false_and, Bool.true_eq_false]
  rfl

example : Access (Demo.sysreg 3 0 4 6 0 2 false) ∧ Reg (Demo.sysreg 3 0 4 6 0 2 false).esr 3 0 4 6 0 :=
  ⟨⟨by decide, by decide⟩, by decide⟩

end Verif.Run
