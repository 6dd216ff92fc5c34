import Verif.Run.PropCall

/-!
# C59: exceptions injected into the realm

The specification says what the architecture does when an exception is taken to EL1 (where the old state goes, which
vector, which processor state) and which aborts the realm gets itself: those at addresses outside its address space,
in protected memory with RIPAS EMPTY and, for instructions, anywhere outside protected memory.  All other aborts go to
the host and leave the realm as it was.
-/

namespace Verif.Run

/-! ## Specification -/

namespace Inj

/-- What was running, as M[4:0] of the processor state encodes it. -/
inductive Mode where
  | el1t
  | el1h
  | el0
  | el0a32
  deriving DecidableEq

def Mode.code : Mode → Nat
  | .el1t => 4
  | .el1h => 5
  | .el0 => 0
  | .el0a32 => 16

def Mode.Is (m : Mode) (pstate : W) : Prop := pstate.toNat % 32 = m.code

/-- Offset of the synchronous exception vector: current EL with SP_EL0, with SP_EL1, lower EL in AArch64, in AArch32. -/
def Mode.vector : Mode → Nat
  | .el1t => 0
  | .el1h => 0x200
  | .el0 => 0x400
  | .el0a32 => 0x600

def Mode.isEl1 : Mode → Bool
  | .el1t => true
  | .el1h => true
  | _ => false

/-- The exception is taken at offset `off` from the vector for the mode: old PC and processor state saved, new state EL1
with SP_EL1 (M = 5) with F, I, A and D (bits 6 to 9) masked; nothing else of the REC changes but the syndrome and fault
address registers. -/
structure Taken (r r' : Rec) (m : Mode) (off : Nat) : Prop where
  elr : r'.elr1 = r.pc
  spsr : r'.spsr1 = r.pstate
  pc : r'.pc = r.vbar + BitVec.ofNat 64 (m.vector + off)
  pstate : ∀ k < 64, r'.pstate.getLsbD k = (k == 0 || k == 2 || (6 ≤ k && k ≤ 9))
  rest : r' = { r with far1 := r'.far1, elr1 := r'.elr1, spsr1 := r'.spsr1, esr1 := r'.esr1, pc := r'.pc, pstate := r'.pstate }

/-- The syndrome `e` of an injected synchronous external abort: the class tells whether it came from EL1 or EL0, the
status is 0x10, EA is set, FnV and S1PTW are clear, and the rest is what the hardware reported. -/
structure Syndrome (m : Mode) (src e : W) : Prop where
  ec : e.toNat / 2 ^ 26 % 64 = src.toNat / 2 ^ 26 % 64 + if m.isEl1 then 1 else 0
  fsc : e.toNat % 64 = 0x10
  ea : e.getLsbD 9 = true
  fnv : e.getLsbD 10 = false
  s1ptw : e.getLsbD 7 = false
  rest : ∀ k < 64, k = 6 ∨ k = 8 ∨ (11 ≤ k ∧ k ≤ 25) ∨ 32 ≤ k → e.getLsbD k = src.getLsbD k

/-- SCTLR2_EL1.EASE: the realm wants synchronous external aborts at the SError vector. -/
def easeOff (r : Rec) (m : Mode) : Nat := if r.sctlr2.getLsbD 5 && m != .el0a32 then 0x180 else 0

/-- The page of the fault: HPFAR_EL2 bits 43:4. -/
def page (hw : Hw) : Nat := hw.hpfar.toNat / 16 % 2 ^ 40

/-- Status codes of synchronous external aborts: 0x10, and 0x13 to 0x17 on a table walk. -/
def External (esr : W) : Prop := esr.toNat % 64 = 0x10 ∨ (0x13 ≤ esr.toNat % 64 ∧ esr.toNat % 64 ≤ 0x17)

/-- The fault is in protected memory whose RIPAS is EMPTY. -/
def EmptyAt (env : Env) (w : World) (hw : Hw) : Prop :=
  page hw * 4096 < 2 ^ (w.rc.ipaBits - 1) ∧ ∃ l, env.walk (BitVec.ofNat 64 (page hw * 4096)) = .miss .empty l

/-- A data access the realm has to answer for itself. -/
def DataOwn (env : Env) (w : World) (hw : Hw) : Prop := 2 ^ w.rc.ipaBits ≤ page hw * 4096 ∨ EmptyAt env w hw

/-- An instruction fetch the realm has to answer for itself. -/
def FetchOwn (env : Env) (w : World) (hw : Hw) : Prop := 2 ^ (w.rc.ipaBits - 1) ≤ page hw * 4096 ∨ EmptyAt env w hw

/-- The EL1 state and the program counter are as before. -/
def Undisturbed (r r' : Rec) : Prop :=
  r'.pc = r.pc ∧ r'.pstate = r.pstate ∧ r'.elr1 = r.elr1 ∧ r'.spsr1 = r.spsr1 ∧ r'.esr1 = r.esr1 ∧ r'.far1 = r.far1 ∧
  r'.regs = r.regs ∧ r'.vbar = r.vbar ∧ r'.sctlr = r.sctlr ∧ r'.sctlr2 = r.sctlr2

end Inj

open Inj

/-! ## Exception entry -/

theorem mode_fields {m : Mode} {p : W} (h : m.Is p) :
    (p.extractLsb' 0 4).toNat = m.code % 16 ∧ p.getLsbD 4 = decide (m = .el0a32) := by
  unfold Mode.Is at h
  constructor
  · simp only [BitVec.extractLsb'_toNat, Nat.shiftRight_zero]
    have : p.toNat % 16 = p.toNat % 32 % 16 := by omega
    show p.toNat % 16 = _
    rw [this, h]
  · rw [BitVec.getLsbD, Nat.testBit_eq_decide_div_mod_eq]
    have : p.toNat / 2 ^ 4 % 2 = p.toNat % 32 / 16 := by omega
    rw [this, h]
    cases m <;> decide

theorem vectorEntry_mode {m : Mode} {p : W} (h : m.Is p) (vbar : W) (b : Bool) :
    vectorEntry vbar p b = some (vbar + BitVec.ofNat 64 (m.vector + if b && m != .el0a32 then 0x180 else 0)) := by
  obtain ⟨h1, h2⟩ := mode_fields h
  have e : p.extractLsb' 0 4 = BitVec.ofNat 4 m.code := by
    apply BitVec.eq_of_toNat_eq
    rw [h1]; cases m <;> rfl
  unfold vectorEntry
  dsimp only
  rw [e, h2]
  cases m <;> cases b <;> simp [Mode.code, Mode.vector, BitVec.add_assoc]

theorem pstate_bits : ∀ k : Fin 64, EXC_PSTATE.getLsbD k = (k.val == 0 || k.val == 2 || (6 ≤ k.val && k.val ≤ 9)) := by
  decide

theorem esr_syndrome {m : Mode} {p esr : W} (h : m.Is p) (hc : ec esr = EC_IABT ∨ ec esr = EC_DABT) :
    ∃ e, esrIdabort esr p = some e ∧ Syndrome m esr e := by
  obtain ⟨h1, _⟩ := mode_fields h
  have hm : p.extractLsb' 0 4 ≠ 0 ↔ m.isEl1 = true := by
    rw [ne_eq, ← BitVec.toNat_inj, h1]
    cases m <;> simp [Mode.code, Mode.isEl1]
  refine ⟨_, by unfold esrIdabort; rw [if_pos hc], ?_⟩
  have hcn : esr.toNat / 2 ^ 26 % 64 = 32 ∨ esr.toNat / 2 ^ 26 % 64 = 36 := by
    have hx : (ec esr).toNat = esr.toNat / 2 ^ 26 % 64 := by
      unfold ec; rw [BitVec.extractLsb'_toNat, Nat.shiftRight_eq_div_pow]
    rcases hc with hc | hc <;> rw [← hx, hc]
    · left; rfl
    · right; rfl
  have hec : esr &&& M_EC = BitVec.ofNat 64 (esr.toNat / 2 ^ 26 % 64 * 2 ^ 26) := by
    have hx : (ec esr).toNat = esr.toNat / 2 ^ 26 % 64 := by
      unfold ec; rw [BitVec.extractLsb'_toNat, Nat.shiftRight_eq_div_pow]
    rw [← hx]
    apply BitVec.eq_of_getLsbD_eq
    intro k hk
    have hb : ∀ k : Fin 64, M_EC.getLsbD k = decide (26 ≤ k.val ∧ k.val < 32) := by decide
    rw [BitVec.getLsbD_and, hb ⟨k, hk⟩]
    rw [BitVec.getLsbD_ofNat, Nat.testBit_mul_two_pow]
    unfold ec
    by_cases h26 : 26 ≤ k
    · rw [show (BitVec.extractLsb' 26 6 esr).toNat.testBit (k - 26) = (BitVec.extractLsb' 26 6 esr).getLsbD (k - 26) from rfl]
      rw [BitVec.getLsbD_extractLsb']
      have : 26 + (k - 26) = k := by omega
      rw [this]
      by_cases h32 : k < 32
      · have : k - 26 < 6 := by omega
        simp [h26, h32, this, hk]
      · have : ¬ k - 26 < 6 := by omega
        simp [h32, this]
    · simp [h26]
  -- the new class
  have hnew : ∃ n : Nat, (n = 32 ∨ n = 33 ∨ n = 36 ∨ n = 37) ∧ n = esr.toNat / 2 ^ 26 % 64 + (if m.isEl1 then 1 else 0) ∧
      (esr &&& M_EC) + (if p.extractLsb' 0 4 ≠ 0 then (0x4000000 : W) else 0) = BitVec.ofNat 64 (n * 2 ^ 26) := by
    rw [hec]
    rcases hcn with hcn | hcn <;> rw [hcn] <;> by_cases hp : p.extractLsb' 0 4 ≠ 0
    · rw [if_pos hp, if_pos (hm.mp hp)]; exact ⟨33, by omega, rfl, by decide⟩
    · rw [if_neg hp, if_neg (mt hm.mpr hp)]; exact ⟨32, by omega, rfl, by decide⟩
    · rw [if_pos hp, if_pos (hm.mp hp)]; exact ⟨37, by omega, rfl, by decide⟩
    · rw [if_neg hp, if_neg (mt hm.mpr hp)]; exact ⟨36, by omega, rfl, by decide⟩
  obtain ⟨n, hn, hn2, hn3⟩ := hnew
  rw [hn3]
  have hbit : ∀ k < 64, (esr &&& ~~~(M_EC ||| 0x3f ||| 0x400 ||| 0x80) ||| BitVec.ofNat 64 (n * 2 ^ 26) ||| 0x10 ||| 0x200).getLsbD k =
      ((esr.getLsbD k && decide (k = 6 ∨ k = 8 ∨ k = 9 ∨ (11 ≤ k ∧ k ≤ 25) ∨ 32 ≤ k)) ||
        (BitVec.ofNat 64 (n * 2 ^ 26)).getLsbD k || decide (k = 4 ∨ k = 9)) := by
    intro k hk
    have hb : ∀ k : Fin 64, (~~~(M_EC ||| 0x3f ||| 0x400 ||| 0x80)).getLsbD k =
        decide (k.val = 6 ∨ k.val = 8 ∨ k.val = 9 ∨ (11 ≤ k.val ∧ k.val ≤ 25) ∨ 32 ≤ k.val) := by decide
    have hb2 : ∀ k : Fin 64, (0x10 ||| 0x200 : W).getLsbD k = decide (k.val = 4 ∨ k.val = 9) := by decide
    rw [BitVec.or_assoc _ (0x10 : W)]
    rw [BitVec.getLsbD_or, BitVec.getLsbD_or, BitVec.getLsbD_and, hb ⟨k, hk⟩, hb2 ⟨k, hk⟩]
  generalize (esr &&& ~~~(M_EC ||| 0x3f ||| 0x400 ||| 0x80) ||| BitVec.ofNat 64 (n * 2 ^ 26) ||| 0x10 ||| 0x200) = e at hbit
  have hnb : ∀ k < 64, (BitVec.ofNat 64 (n * 2 ^ 26)).getLsbD k = true → 26 ≤ k ∧ k ≤ 31 := by
    intro k hk
    have key : ∀ k : Fin 64, ((BitVec.ofNat 64 (32 * 2 ^ 26)).getLsbD k = true → 26 ≤ k.val ∧ k.val ≤ 31) ∧
        ((BitVec.ofNat 64 (33 * 2 ^ 26)).getLsbD k = true → 26 ≤ k.val ∧ k.val ≤ 31) ∧
        ((BitVec.ofNat 64 (36 * 2 ^ 26)).getLsbD k = true → 26 ≤ k.val ∧ k.val ≤ 31) ∧
        ((BitVec.ofNat 64 (37 * 2 ^ 26)).getLsbD k = true → 26 ≤ k.val ∧ k.val ≤ 31) := by decide +kernel
    have := key ⟨k, hk⟩
    rcases hn with rfl | rfl | rfl | rfl <;> simp_all
  constructor
  · rw [← hn2]
    have hx : e.extractLsb' 26 6 = BitVec.ofNat 6 n := by
      apply BitVec.eq_of_getLsbD_eq
      intro j hj
      rw [BitVec.getLsbD_extractLsb', hbit (26 + j) (by omega), BitVec.getLsbD_ofNat, BitVec.getLsbD_ofNat, Nat.testBit_mul_two_pow]
      have a1 : ¬ (26 + j = 6 ∨ 26 + j = 8 ∨ 26 + j = 9 ∨ (11 ≤ 26 + j ∧ 26 + j ≤ 25) ∨ 32 ≤ 26 + j) := by omega
      have a2 : ¬ (26 + j = 4 ∨ 26 + j = 9) := by omega
      have a3 : 26 + j < 64 := by omega
      simp [a1, a2, a3, hj]
    have := congrArg BitVec.toNat hx
    rw [BitVec.extractLsb'_toNat, Nat.shiftRight_eq_div_pow, BitVec.toNat_ofNat] at this
    show e.toNat / 2 ^ 26 % 2 ^ 6 = n
    rw [this]
    rcases hn with rfl | rfl | rfl | rfl <;> rfl
  · have hx : e.extractLsb' 0 6 = (0x10 : BitVec 6) := by
      apply BitVec.eq_of_getLsbD_eq
      intro j hj
      rw [BitVec.getLsbD_extractLsb', hbit (0 + j) (by omega)]
      have a0 : (BitVec.ofNat 64 (n * 2 ^ 26)).getLsbD (0 + j) = false := by
        refine Bool.eq_false_iff.mpr fun hc => ?_
        have := hnb _ (by omega) hc
        omega
      have hb : ∀ j : Fin 6, (0x10 : BitVec 6).getLsbD j = decide (j.val = 4) := by decide
      rw [a0, hb ⟨j, hj⟩]
      have a1 : ¬ (0 + j = 6 ∨ 0 + j = 8 ∨ 0 + j = 9 ∨ (11 ≤ 0 + j ∧ 0 + j ≤ 25) ∨ 32 ≤ 0 + j) := by omega
      have a2 : (0 + j = 4 ∨ 0 + j = 9) ↔ j = 4 := by omega
      simp only [a1, a2, hj, decide_false, Bool.and_false, Bool.or_false, Bool.false_or, decide_true, Bool.true_and]
    have := congrArg BitVec.toNat hx
    rw [BitVec.extractLsb'_toNat, Nat.shiftRight_zero] at this
    exact this
  · rw [hbit 9 (by omega)]; simp
  · rw [hbit 10 (by omega)]
    have : (BitVec.ofNat 64 (n * 2 ^ 26)).getLsbD 10 = false := Bool.eq_false_iff.mpr fun hc => by have := hnb _ (by omega) hc; omega
    rw [this]; simp
  · rw [hbit 7 (by omega)]
    have : (BitVec.ofNat 64 (n * 2 ^ 26)).getLsbD 7 = false := Bool.eq_false_iff.mpr fun hc => by have := hnb _ (by omega) hc; omega
    rw [this]; simp
  · intro k hk hr
    rw [hbit k hk]
    have a0 : (BitVec.ofNat 64 (n * 2 ^ 26)).getLsbD k = false := Bool.eq_false_iff.mpr fun hc => by have := hnb _ hk hc; omega
    have a1 : (k = 6 ∨ k = 8 ∨ k = 9 ∨ (11 ≤ k ∧ k ≤ 25) ∨ 32 ≤ k) := by omega
    have a2 : ¬ (k = 4 ∨ k = 9) := by omega
    rw [a0, decide_eq_true a1, decide_eq_false a2]
    simp

/-- **C59.**  An injected abort is what the architecture would deliver, in every mode the realm can be in. -/
theorem C59_abort {r : Rec} {m : Mode} {esr far : W} (hm : m.Is r.pstate) (hc : ec esr = EC_IABT ∨ ec esr = EC_DABT) :
    ∃ r', injectAbort r esr far = some r' ∧ Taken r r' m (easeOff r m) ∧ Syndrome m esr r'.esr1 ∧ r'.far1 = far := by
  obtain ⟨e, he, hs⟩ := esr_syndrome hm hc
  refine ⟨_, by unfold injectAbort; rw [he, vectorEntry_mode hm]; rfl, ?_, hs, rfl⟩
  exact ⟨rfl, rfl, rfl, fun k hk => pstate_bits ⟨k, hk⟩, rfl⟩

/-- **C59.**  An injected undefined instruction exception: class 0 with IL set, at the plain vector. -/
theorem C59_undef {r : Rec} {m : Mode} (hm : m.Is r.pstate) :
    ∃ r', injectUndef r = some r' ∧ Taken r r' m 0 ∧ r'.esr1.toNat = 2 ^ 25 ∧ r'.far1 = r.far1 := by
  have h : injectUndef r = some { r with
      elr1 := r.pc, spsr1 := r.pstate, esr1 := 0x2000000, pc := r.vbar + BitVec.ofNat 64 (m.vector + 0), pstate := EXC_PSTATE } := by
    unfold injectUndef; rw [vectorEntry_mode hm]; rfl
  exact ⟨_, h, ⟨rfl, rfl, rfl, fun k hk => pstate_bits ⟨k, hk⟩, rfl⟩, rfl, rfl⟩

/-! ## Which aborts -/

theorem fipa_toNat (hw : Hw) : (fipaOf hw.hpfar).toNat = page hw * 4096 := by
  unfold fipaOf page
  have h1 : (hw.hpfar &&& 0xFFFFFFFFFF0) = BitVec.ofNat 64 (hw.hpfar.toNat / 16 % 2 ^ 40 * 16) := by
    apply BitVec.eq_of_getLsbD_eq
    intro k hk
    have hb : ∀ k : Fin 64, (0xFFFFFFFFFF0 : W).getLsbD k = decide (4 ≤ k.val ∧ k.val < 44) := by decide
    rw [BitVec.getLsbD_and, hb ⟨k, hk⟩, BitVec.getLsbD_ofNat, show (16 : Nat) = 2 ^ 4 from rfl, Nat.testBit_mul_two_pow,
      Nat.testBit_mod_two_pow, Nat.testBit_div_two_pow]
    by_cases h4 : 4 ≤ k
    · have : k - 4 + 4 = k := by omega
      rw [this]
      by_cases h44 : k < 44
      · have : k - 4 < 40 := by omega
        simp [h4, h44, this, hk, BitVec.getLsbD]
      · have : ¬ k - 4 < 40 := by omega
        simp [h44, this]
    · simp [h4]
  rw [h1, BitVec.toNat_shiftLeft, BitVec.toNat_ofNat, Nat.shiftLeft_eq]
  have := Nat.mod_lt (hw.hpfar.toNat / 16) (show 0 < 2 ^ 40 by omega)
  omega

theorem fipa_eq (hw : Hw) : fipaOf hw.hpfar = BitVec.ofNat 64 (page hw * 4096) := by
  apply BitVec.eq_of_toNat_eq
  rw [fipa_toNat, BitVec.toNat_ofNat, Nat.mod_eq_of_lt]
  rw [← fipa_toNat]; exact (fipaOf hw.hpfar).isLt

theorem fipa_aligned (hw : Hw) : aligned (fipaOf hw.hpfar) = true := by
  unfold aligned
  rw [beq_iff_eq]
  apply BitVec.eq_of_toNat_eq
  rw [and_low_toNat _ _ 12 rfl, fipa_toNat]
  show page hw * 4096 % 4096 = 0
  omega

theorem external_iff (esr : W) : isExternal esr = true ↔ External esr := by
  have h : (fsc esr).toNat = esr.toNat % 64 := by unfold fsc; rw [BitVec.extractLsb'_toNat]; rfl
  unfold isExternal External
  rw [← h]
  simp only [Bool.or_eq_true, beq_iff_eq, Bool.and_eq_true, decide_eq_true_eq, BitVec.le_def]
  rw [← BitVec.toNat_inj]
  exact Iff.rfl

theorem size_le_iff {r : Rec} (hb : 32 ≤ r.ipaBits ∧ r.ipaBits ≤ 52) (a : W) : ipaSize r ≤ a ↔ 2 ^ r.ipaBits ≤ a.toNat := by
  unfold ipaSize
  rw [BitVec.le_def, BitVec.toNat_shiftLeft, Nat.shiftLeft_eq]
  have : (2 : Nat) ^ r.ipaBits < 2 ^ 64 := Nat.pow_lt_pow_right (by omega) (by omega)
  rw [show (1 : W).toNat = 1 from rfl, Nat.one_mul, Nat.mod_eq_of_lt this]

theorem empty_some (env : Env) {w : World} (hw : Hw) (hb : 32 ≤ w.rc.ipaBits ∧ w.rc.ipaBits ≤ 52) :
    ∃ b, ipaIsEmpty env w.rc (fipaOf hw.hpfar) = some b ∧ (b = true ↔ EmptyAt env w hw) := by
  unfold ipaIsEmpty
  rw [if_pos (fipa_aligned hw)]
  refine ⟨_, rfl, ?_⟩
  unfold EmptyAt
  rw [Bool.and_eq_true, inPar_iff hb, fipa_toNat, ← fipa_eq]
  cases hwk : env.walk (fipaOf hw.hpfar) with
  | ram pa => simp
  | miss rp l => cases rp <;> simp

theorem syncExit_iabt (env : Env) (w : World) {hw : Hw} (hc : ec hw.esr = EC_IABT) : syncExit env w hw = instrAbort env w hw := by
  simp only [syncExit, hc, EC_WFX, EC_HVC, EC_SMC, EC_SYSREG, EC_IABT]
  rfl

theorem syncExit_dabt (env : Env) (w : World) {hw : Hw} (hc : ec hw.esr = EC_DABT) : syncExit env w hw = dataAbort env w hw := by
  simp only [syncExit, hc, EC_WFX, EC_HVC, EC_SMC, EC_SYSREG, EC_IABT, EC_DABT]
  rfl

/-- The world in which the handlers work. -/
def syncing (w : World) : World := { w with ex := { w.ex with reason := EXIT_SYNC } }

/-- **C59.**  A data abort that is not an external abort is delivered to the realm exactly when it is the realm's own:
then the realm continues at its vector, the host learns nothing and nothing else changes; otherwise the host gets it,
and the realm's state is as it was. -/
theorem C59_data (env : Env) {w : World} {hw : Hw} {m : Mode} (hb : 32 ≤ w.rc.ipaBits ∧ w.rc.ipaBits ≤ 52)
    (hm : m.Is w.rc.pstate) (hc : ec hw.esr = EC_DABT) (hx : ¬ External hw.esr) :
    (DataOwn env w hw → ∃ r', handleExit env w .sync hw = some ({ syncing w with rc := r' }, true) ∧
      Taken w.rc r' m (easeOff w.rc m) ∧ Syndrome m hw.esr r'.esr1 ∧ r'.far1 = hw.far) ∧
    (¬ DataOwn env w hw → ∀ w' b, handleExit env w .sync hw = some (w', b) → b = false ∧ Undisturbed w.rc w'.rc) := by
  obtain ⟨b, hb1, hb2⟩ := empty_some env (w := syncing w) hw hb
  have hne : isExternal hw.esr = false := by rw [← Bool.not_eq_true, external_iff]; exact hx
  have hsz := size_le_iff hb (fipaOf hw.hpfar)
  rw [fipa_toNat] at hsz
  have key : ∃ d, (if ipaSize (syncing w).rc ≤ fipaOf hw.hpfar then some true else ipaIsEmpty env (syncing w).rc (fipaOf hw.hpfar)) =
      some d ∧ (d = true ↔ DataOwn env w hw) := by
    by_cases h : ipaSize (syncing w).rc ≤ fipaOf hw.hpfar
    · rw [if_pos h]; exact ⟨true, rfl, by simp only [true_iff]; exact Or.inl (hsz.mp h)⟩
    · rw [if_neg h]; refine ⟨b, hb1, ?_⟩
      rw [hb2]
      constructor
      · exact Or.inr
      · rintro (h1 | h1)
        · exact absurd (hsz.mpr h1) h
        · exact h1
  obtain ⟨d, hd1, hd2⟩ := key
  have hstep : handleExit env w .sync hw = (dataAbort env (syncing w) hw).map fun p => if p.2 then p else (recordSync p.1 hw, false) := by
    show (syncExit env (syncing w) hw).map _ = _
    rw [syncExit_dabt env _ hc]
  have hda : dataAbort env (syncing w) hw = (some d).bind fun bad =>
      if bad then (injectAbort w.rc hw.esr hw.far).map fun r => ({ syncing w with rc := r }, true)
      else if w.rc.pstate.getLsbD 4 || inPar w.rc (fipaOf hw.hpfar) then
        some ({ syncing w with ex := { (syncing w).ex with esr := hw.esr &&& M_NONEMUL, far := 0, hpfar := hw.hpfar
                                                           gprs := upd (syncing w).ex.gprs 0 0 } }, false)
      else
        (if wnr hw.esr then dabtWriteValue w.rc hw.esr else some 0).map fun v =>
          ({ syncing w with ex := { (syncing w).ex with esr := hw.esr &&& M_EMUL, far := hw.far &&& 0xfff, hpfar := hw.hpfar
                                                        gprs := upd (syncing w).ex.gprs 0 v } }, false) := by
    unfold dataAbort
    dsimp only
    rw [if_neg (by rw [hne]; simp), hd1]
    rfl
  constructor
  · intro ho
    obtain ⟨r', h1, h2⟩ := C59_abort (far := hw.far) hm (Or.inr hc)
    refine ⟨r', ?_, h2⟩
    rw [hstep, hda, Option.bind_some, if_pos (hd2.mpr ho), h1]
    rfl
  · intro ho w' b' h
    rw [hstep, hda, Option.bind_some, if_neg (mt hd2.mp ho)] at h
    obtain ⟨p, hp, h⟩ := map_some h
    have : p.2 = false ∧ p.1.rc = w.rc := by
      rcases ite_or hp with ⟨_, hp⟩ | ⟨_, hp⟩
      · obtain rfl := Option.some.inj hp; exact ⟨rfl, rfl⟩
      · obtain ⟨v, _, rfl⟩ := map_some hp; exact ⟨rfl, rfl⟩
    rw [this.1] at h
    obtain ⟨rfl, rfl⟩ := Prod.mk.inj h
    refine ⟨rfl, ?_⟩
    show Undisturbed w.rc (recordSync p.1 hw).rc
    unfold recordSync Undisturbed
    simp only [this.2, and_self]

/-- **C59.**  The same for instruction aborts; instructions are never fetched from unprotected memory. -/
theorem C59_fetch (env : Env) {w : World} {hw : Hw} {m : Mode} (hb : 32 ≤ w.rc.ipaBits ∧ w.rc.ipaBits ≤ 52)
    (hm : m.Is w.rc.pstate) (hc : ec hw.esr = EC_IABT) (hx : ¬ External hw.esr) :
    (FetchOwn env w hw → ∃ r', handleExit env w .sync hw = some ({ syncing w with rc := r' }, true) ∧
      Taken w.rc r' m (easeOff w.rc m) ∧ Syndrome m hw.esr r'.esr1 ∧ r'.far1 = hw.far) ∧
    (¬ FetchOwn env w hw → ∃ w', handleExit env w .sync hw = some (w', false) ∧ Undisturbed w.rc w'.rc) := by
  obtain ⟨b, hb1, hb2⟩ := empty_some env (w := syncing w) hw hb
  have hne : isExternal hw.esr = false := by rw [← Bool.not_eq_true, external_iff]; exact hx
  have hsz := size_le_iff hb (fipaOf hw.hpfar)
  have hpar := inPar_iff hb (fipaOf hw.hpfar)
  rw [fipa_toNat] at hsz hpar
  have hpow : (2 : Nat) ^ (w.rc.ipaBits - 1) ≤ 2 ^ w.rc.ipaBits := Nat.pow_le_pow_right (by omega) (by omega)
  have key : ∃ d, (if ipaSize (syncing w).rc ≤ fipaOf hw.hpfar ∨ ¬ inPar (syncing w).rc (fipaOf hw.hpfar) then some true
      else ipaIsEmpty env (syncing w).rc (fipaOf hw.hpfar)) = some d ∧ (d = true ↔ FetchOwn env w hw) := by
    by_cases h : ipaSize (syncing w).rc ≤ fipaOf hw.hpfar ∨ ¬ inPar (syncing w).rc (fipaOf hw.hpfar)
    · rw [if_pos h]
      refine ⟨true, rfl, ?_⟩
      simp only [true_iff]
      refine Or.inl ?_
      rcases h with h | h
      · have := hsz.mp h; omega
      · exact Nat.le_of_not_lt (mt hpar.mpr h)
    · rw [if_neg h]; refine ⟨b, hb1, ?_⟩
      rw [hb2]
      constructor
      · exact Or.inr
      · rintro (h1 | h1)
        · refine absurd (Or.inr ?_) h
          intro h2
          have := hpar.mp h2
          omega
        · exact h1
  obtain ⟨d, hd1, hd2⟩ := key
  have hstep : handleExit env w .sync hw = (instrAbort env (syncing w) hw).map fun p => if p.2 then p else (recordSync p.1 hw, false) := by
    show (syncExit env (syncing w) hw).map _ = _
    rw [syncExit_iabt env _ hc]
  have hda : instrAbort env (syncing w) hw = (some d).bind fun bad =>
      if bad then (injectAbort w.rc hw.esr hw.far).map fun r => ({ syncing w with rc := r }, true)
      else if fsc hw.esr &&& 0x3c ≠ 0x04 then some (syncing w, false)
      else some ({ syncing w with ex := { (syncing w).ex with hpfar := hw.hpfar, esr := hw.esr &&& M_NONEMUL } }, false) := by
    unfold instrAbort
    dsimp only
    rw [if_neg (by rw [hne]; simp), hd1]
    rfl
  constructor
  · intro ho
    obtain ⟨r', h1, h2⟩ := C59_abort (far := hw.far) hm (Or.inl hc)
    refine ⟨r', ?_, h2⟩
    rw [hstep, hda, Option.bind_some, if_pos (hd2.mpr ho), h1]
    rfl
  · intro ho
    rw [hstep, hda, Option.bind_some, if_neg (mt hd2.mp ho)]
    by_cases hf : fsc hw.esr &&& 0x3c ≠ 0x04
    · rw [if_pos hf]
      exact ⟨_, rfl, rfl, rfl, rfl, rfl, rfl, rfl, rfl, rfl, rfl, rfl⟩
    · rw [if_neg hf]
      exact ⟨_, rfl, rfl, rfl, rfl, rfl, rfl, rfl, rfl, rfl, rfl, rfl⟩

/-- **C59.**  An external abort always goes to the host.  If the realm's state is recoverable (SET 0) the realm gets it
too; if the instruction can be restarted (SET 3) the realm is left as it was. -/
theorem C59_external (env : Env) {w : World} {hw : Hw} {m : Mode} (hm : m.Is w.rc.pstate)
    (hc : ec hw.esr = EC_IABT ∨ ec hw.esr = EC_DABT) (hx : External hw.esr) :
    (hw.esr.toNat / 2 ^ 11 % 4 = 0 → ∃ w' r', handleExit env w .sync hw = some (w', false) ∧
      Taken w.rc r' m (easeOff w.rc m) ∧ Syndrome m hw.esr r'.esr1 ∧ r'.far1 = hw.far ∧ Undisturbed r' w'.rc) ∧
    (hw.esr.toNat / 2 ^ 11 % 4 = 3 → ∃ w', handleExit env w .sync hw = some (w', false) ∧ Undisturbed w.rc w'.rc) := by
  have hs : ∀ n, (aset hw.esr).toNat = n ↔ hw.esr.toNat / 2 ^ 11 % 4 = n := by
    intro n; unfold aset; rw [BitVec.extractLsb'_toNat, Nat.shiftRight_eq_div_pow]
  have hxe := (external_iff hw.esr).mpr hx
  have hstep : handleExit env w .sync hw = (externalAbort (syncing w) hw).map fun w' => (recordSync w' hw, false) := by
    show (syncExit env (syncing w) hw).map _ = _
    rcases hc with hc | hc
    · rw [syncExit_iabt env _ hc]
      unfold instrAbort
      dsimp only
      rw [if_pos hxe]
      cases externalAbort (syncing w) hw <;> rfl
    · rw [syncExit_dabt env _ hc]
      unfold dataAbort
      dsimp only
      rw [if_pos hxe]
      cases externalAbort (syncing w) hw <;> rfl
  constructor
  · intro h0
    have h1 : aset hw.esr = 0 := by rw [← BitVec.toNat_inj]; exact (hs 0).mpr h0
    obtain ⟨r', h2, h3, h4, h5⟩ := C59_abort (far := hw.far) hm hc
    have h6 : externalAbort (syncing w) hw = some
        { syncing w with rc := r', ex := { (syncing w).ex with esr := hw.esr &&& M_NONEMUL } } := by
      unfold externalAbort
      rw [if_pos h1]
      show (injectAbort w.rc hw.esr hw.far).map _ = _
      rw [h2]; rfl
    rw [hstep, h6]
    refine ⟨_, r', rfl, h3, h4, h5, ?_⟩
    · exact ⟨rfl, rfl, rfl, rfl, rfl, rfl, rfl, rfl, rfl, rfl⟩
  · intro h0
    have h1 : aset hw.esr = 3 := by rw [← BitVec.toNat_inj]; exact (hs 3).mpr h0
    have h6 : externalAbort (syncing w) hw = some
        { syncing w with ex := { (syncing w).ex with esr := hw.esr &&& M_NONEMUL } } := by
      unfold externalAbort
      rw [h1]; rfl
    rw [hstep, h6]
    refine ⟨_, rfl, ?_⟩
    · exact ⟨rfl, rfl, rfl, rfl, rfl, rfl, rfl, rfl, rfl, rfl⟩

/-- **C59.**  HVC is undefined in a realm. -/
theorem C59_hvc (env : Env) {w : World} {hw : Hw} {m : Mode} (hm : m.Is w.rc.pstate) (hc : ec hw.esr = EC_HVC) :
    ∃ r', handleExit env w .sync hw = some ({ syncing w with rc := r' }, true) ∧ Taken w.rc r' m 0 ∧ r'.esr1.toNat = 2 ^ 25 := by
  obtain ⟨r', h1, h2, h3, _⟩ := C59_undef hm
  refine ⟨r', ?_, h2, h3⟩
  show (syncExit env (syncing w) hw).map _ = _
  have : syncExit env (syncing w) hw = (injectUndef w.rc).map fun r => ({ syncing w with rc := r }, true) := by
    simp only [syncExit, hc, EC_WFX, EC_HVC]
    rfl
  rw [this, h1]
  rfl

/-- **C59.**  A vector instruction the realm may not use is undefined: SVE without SVE, and SME without SVE or once the
realm's vector registers are loaded.  Any other first use loads the realm's vector registers and changes nothing else. -/
theorem C59_simd (env : Env) {w : World} {hw : Hw} {m : Mode} (hm : m.Is w.rc.pstate)
    (hc : ec hw.esr = EC_FPU ∨ ec hw.esr = EC_SVE ∨ ec hw.esr = EC_SME) :
    ((ec hw.esr = EC_SVE ∧ w.rc.sveEn = false) ∨ (ec hw.esr = EC_SME ∧ (w.rc.sveEn = false ∨ w.rc.simdLive = true)) →
      ∃ r', handleExit env w .sync hw = some ({ syncing w with rc := r' }, true) ∧ Taken w.rc r' m 0 ∧ r'.esr1.toNat = 2 ^ 25) ∧
    (w.rc.simdLive = false → (ec hw.esr = EC_FPU ∨ w.rc.sveEn = true) →
      handleExit env w .sync hw = some ({ syncing w with rc := { w.rc with simdLive := true } }, true)) := by
  have hstep : handleExit env w .sync hw = (simdTrap (syncing w) hw.esr).map fun w' => (w', true) := by
    show (syncExit env (syncing w) hw).map _ = _
    have : syncExit env (syncing w) hw = (simdTrap (syncing w) hw.esr).map (·, true) := by
      rcases hc with hc | hc | hc <;> simp only [syncExit, hc, EC_WFX, EC_HVC, EC_SMC, EC_SYSREG, EC_IABT, EC_DABT, EC_FPU, EC_SVE, EC_SME] <;> rfl
    rw [this]
    cases simdTrap (syncing w) hw.esr <;> rfl
  obtain ⟨r', h1, h2, h3, _⟩ := C59_undef hm
  constructor
  · intro hu
    refine ⟨r', ?_, h2, h3⟩
    rw [hstep]
    unfold simdTrap
    rcases hu with hu | hu
    · have hu : ec hw.esr = EC_SVE ∧ (syncing w).rc.sveEn = false := hu
      rw [if_pos hu]
      show ((injectUndef w.rc).map _).map _ = _
      rw [h1]; rfl
    · have hu : ec hw.esr = EC_SME ∧ ((syncing w).rc.sveEn = false ∨ (syncing w).rc.simdLive = true) := hu
      rw [if_neg (by rw [hu.1]; simp [EC_SVE, EC_SME]), if_pos hu]
      show ((injectUndef w.rc).map _).map _ = _
      rw [h1]; rfl
  · intro hl hs
    rw [hstep]
    unfold simdTrap
    have a1 : ¬ (ec hw.esr = EC_SVE ∧ (syncing w).rc.sveEn = false) := by
      rintro ⟨h, h'⟩
      rcases hs with hs | hs
      · rw [hs] at h; exact absurd h (by decide)
      · rw [show (syncing w).rc.sveEn = w.rc.sveEn from rfl, hs] at h'; cases h'
    have a2 : ¬ (ec hw.esr = EC_SME ∧ ((syncing w).rc.sveEn = false ∨ (syncing w).rc.simdLive = true)) := by
      rintro ⟨h, h'⟩
      rcases hs with hs | hs
      · rw [hs] at h; exact absurd h (by decide)
      · rw [show (syncing w).rc.sveEn = w.rc.sveEn from rfl, hs, show (syncing w).rc.simdLive = w.rc.simdLive from rfl, hl] at h'
        simp at h'
    have a3 : ¬ (syncing w).rc.simdLive = true := by rw [show (syncing w).rc.simdLive = w.rc.simdLive from rfl, hl]; simp
    rw [if_neg a1, if_neg a2, if_neg a3]
    rfl

/-- **C59.**  An abort the host asks for (`REC_ENTRY_FLAG_INJECT_SEA`) is taken with the syndrome and the address of the
access the realm made, and only for a data abort outside protected memory. -/
theorem C59_sea {r : Rec} {e : Enter} {m : Mode} (hb : 32 ≤ r.ipaBits ∧ r.ipaBits ≤ 52) (hm : m.Is r.pstate)
    (he : e.flags.getLsbD 1 = true) :
    (ec r.lastEsr = EC_DABT ∧ 2 ^ (r.ipaBits - 1) ≤ r.lastHpfar.toNat / 16 % 2 ^ 40 * 4096 →
      ∃ r', completeSea r e = some (some r') ∧ Taken r r' m (easeOff r m) ∧ Syndrome m r.lastEsr r'.esr1 ∧ r'.far1 = r.lastFar) ∧
    (¬ (ec r.lastEsr = EC_DABT ∧ 2 ^ (r.ipaBits - 1) ≤ r.lastHpfar.toNat / 16 % 2 ^ 40 * 4096) → completeSea r e = some none) := by
  have hf := fipa_toNat ⟨0, 0, r.lastHpfar⟩
  have hpar := inPar_iff hb (fipaOf r.lastHpfar)
  rw [show (fipaOf r.lastHpfar).toNat = r.lastHpfar.toNat / 16 % 2 ^ 40 * 4096 from hf] at hpar
  have hi : e.injectSea = true := he
  unfold completeSea
  rw [if_neg (by rw [hi]; simp)]
  constructor
  · rintro ⟨h1, h2⟩
    obtain ⟨r', h3, h4⟩ := C59_abort (far := r.lastFar) hm (Or.inr h1)
    refine ⟨r', ?_, h4⟩
    rw [if_neg (by rw [h1]; simp), if_neg (fun h => absurd (hpar.mp h) (Nat.not_lt.mpr h2)), h3]
    rfl
  · intro h
    by_cases h1 : ec r.lastEsr = EC_DABT
    · rw [if_neg (by rw [h1]; simp), if_pos (hpar.mpr (Nat.lt_of_not_le fun h2 => h ⟨h1, h2⟩))]
    · rw [if_pos h1]

/-! ## The hypotheses are met -/

/-- A load from the page at 0x5000, which is EMPTY, by EL0 code. -/
example : Inj.Mode.el0.Is 0x80000000 ∧ ec (0x92000007 : W) = EC_DABT ∧ ¬ External 0x92000007 ∧
    DataOwn Demo.env Demo.world ⟨0x92000007, 0x123456, 0x50⟩ := by
  refine ⟨by unfold Mode.Is; decide, by decide, by unfold External; decide, Or.inr ⟨by decide, 2, by decide +kernel⟩⟩

/-- A store to the page at 0x1000, which has memory, is the host's business; so is one to unprotected memory. -/
example : ¬ DataOwn Demo.env Demo.world ⟨0x93800047, 0, 0x10⟩ ∧ ¬ DataOwn Demo.env Demo.world ⟨0x93800047, 0, 0x1000000⟩ ∧
    FetchOwn Demo.env Demo.world ⟨0x82000007, 0, 0x1000000⟩ := by
  refine ⟨?_, ?_, Or.inl (by decide)⟩
  · rintro (h | ⟨_, l, h⟩)
    · exact absurd h (by decide)
    · exact absurd (show Demo.env.walk 0x1000 = .miss .empty l from h) (by simp [Demo.env])
  · rintro (h | ⟨h, _⟩)
    · exact absurd h (by decide)
    · exact absurd h (by decide)

/-- What the realm then has in its registers. -/
example : ((handleExit Demo.env { Demo.world with rc := { Demo.rc with pstate := 0x80000000 } } .sync
      ⟨0x92000007, 0x123456, 0x50⟩).map
    fun p => (p.2, p.1.rc.pc, p.1.rc.esr1, p.1.rc.far1, p.1.rc.elr1, p.1.rc.spsr1)) =
    some (true, 0x10400, 0x92000210, 0x123456, 0x1000, 0x80000000) := by decide +kernel

/-- An external abort with a recoverable state. -/
example : External 0x92000010 ∧ (0x92000010 : W).toNat / 2 ^ 11 % 4 = 0 := ⟨Or.inl (by decide), by decide⟩

end Verif.Run
