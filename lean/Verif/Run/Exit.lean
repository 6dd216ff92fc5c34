import Verif.Run.Types

/-!
# Exceptions taken from a realm

Model of /repo/runtime/core/inject_exp.c, /repo/runtime/core/sysregs.c and the exception handlers of
/repo/runtime/core/exit.c, except the SMC handler, which is in `Verif.Run.Rsi`.

A handler returns the new world and whether the realm continues (`true`) or the host is told (`false`).
-/

namespace Verif.Run

/-- The EL2 syndrome registers of the exception being handled. -/
structure Hw where
  esr : W
  far : W
  hpfar : W
  deriving DecidableEq

/-! ## Injecting exceptions -/

/-- `calc_vector_entry`: inject_exp.c:21-47. -/
def vectorEntry (vbar spsr : W) (ease : Bool) : Option W :=
  let m := spsr.extractLsb' 0 4
  if m = 5 then some (vbar + 0x200 + if ease then 0x180 else 0)
  else if m = 4 then some (vbar + 0 + if ease then 0x180 else 0)
  else if m = 0 then
    if spsr.getLsbD 4 then some (vbar + 0x600) else some (vbar + 0x400 + if ease then 0x180 else 0)
  else none

/-- `calc_pstate`: inject_exp.c:53-68: EL1h with D, A, I and F masked. -/
def EXC_PSTATE : W := 0x3C5

/-- `calc_esr_idabort`: inject_exp.c:80-117, for `fsc = ESR_EL2_ABORT_FSC_SEA` (0x10), the only value used. -/
def esrIdabort (esr spsr : W) : Option W :=
  if ec esr = EC_IABT ∨ ec esr = EC_DABT then
    let e := esr &&& ~~~(M_EC ||| 0x3f ||| 0x400 ||| 0x80)
    let c := (esr &&& M_EC) + if spsr.extractLsb' 0 4 ≠ 0 then 0x4000000 else 0
    some (e ||| c ||| 0x10 ||| 0x200)
  else none

/-- Bit 5 of SCTLR2_EL1, `SCTLR2_ELx_EASE_BIT`: arch.h:828. -/
def ease (r : Rec) : Bool := r.sctlr2.getLsbD 5

/-- `inject_sync_idabort`: inject_exp.c:123-144, and `inject_sync_idabort_rec`: 150-163.  They differ
in where the registers are: the CPU, or the saved context of the REC. -/
def injectAbort (r : Rec) (esr far : W) : Option Rec :=
  (esrIdabort esr r.pstate).bind fun e =>
  (vectorEntry r.vbar r.pstate (ease r)).map fun pc =>
    { r with far1 := far, elr1 := r.pc, spsr1 := r.pstate, esr1 := e, pc := pc, pstate := EXC_PSTATE }

/-- `realm_inject_undef_abort`: inject_exp.c:168-184. -/
def injectUndef (r : Rec) : Option Rec :=
  (vectorEntry r.vbar r.pstate false).map fun pc =>
    { r with elr1 := r.pc, spsr1 := r.pstate, esr1 := 0x2000000, pc := pc, pstate := EXC_PSTATE }

/-- `advance_pc`: exit.c:360-365. -/
def advancePc (r : Rec) : Rec := { r with pc := r.pc + 4 }

/-! ## Aborts -/

/-- `get_dabt_write_value`: exit.c:51-60. -/
def dabtWriteValue (r : Rec) (esr : W) : Option W :=
  if srt esr = 31 then some 0 else (r.reg (srt esr)).map (· &&& accessMask esr)

/-- `ipa_is_empty`: exit.c:81-99; `realm_ipa_to_pa` refuses unaligned and unprotected addresses. -/
def ipaIsEmpty (env : Env) (r : Rec) (ipa : W) : Option Bool :=
  if aligned ipa then
    some (inPar r ipa && match env.walk ipa with | .miss .empty _ => true | _ => false)
  else none

/-- `fsc_is_external_abort`: exit.c:101-113. -/
def isExternal (e : W) : Bool := fsc e == 0x10 || (0x13 ≤ fsc e && fsc e ≤ 0x17)

/-- `handle_sync_external_abort`: exit.c:121-172, given that the fault is an external abort. -/
def externalAbort (w : World) (hw : Hw) : Option World :=
  if aset hw.esr = 0 then
    (injectAbort w.rc hw.esr hw.far).map fun r =>
      { w with rc := r, ex := { w.ex with esr := hw.esr &&& M_NONEMUL } }
  else if aset hw.esr = 3 then some { w with ex := { w.ex with esr := hw.esr &&& M_NONEMUL } }
  else none

/-- `handle_data_abort`: exit.c:197-244. -/
def dataAbort (env : Env) (w : World) (hw : Hw) : Option (World × Bool) :=
  let fipa := fipaOf hw.hpfar
  if isExternal hw.esr then (externalAbort w hw).map (·, false)
  else
    (if ipaSize w.rc ≤ fipa then some true else ipaIsEmpty env w.rc fipa).bind fun bad =>
    if bad then (injectAbort w.rc hw.esr hw.far).map fun r => ({ w with rc := r }, true)
    else if w.rc.pstate.getLsbD 4 || inPar w.rc fipa then
      some ({ w with ex := { w.ex with esr := hw.esr &&& M_NONEMUL, far := 0, hpfar := hw.hpfar
                                       gprs := upd w.ex.gprs 0 0 } }, false)
    else
      (if wnr hw.esr then dabtWriteValue w.rc hw.esr else some 0).map fun v =>
        ({ w with ex := { w.ex with esr := hw.esr &&& M_EMUL, far := hw.far &&& 0xfff, hpfar := hw.hpfar
                                    gprs := upd w.ex.gprs 0 v } }, false)

/-- `handle_instruction_abort`: exit.c:250-297. -/
def instrAbort (env : Env) (w : World) (hw : Hw) : Option (World × Bool) :=
  let fipa := fipaOf hw.hpfar
  if isExternal hw.esr then (externalAbort w hw).map (·, false)
  else
    (if ipaSize w.rc ≤ fipa ∨ ¬ inPar w.rc fipa then some true else ipaIsEmpty env w.rc fipa).bind fun bad =>
    if bad then (injectAbort w.rc hw.esr hw.far).map fun r => ({ w with rc := r }, true)
    else if fsc hw.esr &&& 0x3c ≠ 0x04 then some (w, false)
    else some ({ w with ex := { w.ex with hpfar := hw.hpfar, esr := hw.esr &&& M_NONEMUL } }, false)

/-- `emulate_stage2_data_abort`: exit.c:174-191. -/
def emulateS2Abort (w : World) (level : W) : Option World :=
  if level ≤ 3 then
    some { w with ex := { w.ex with esr := 0x90000000 ||| (4 + level), far := 0, hpfar := w.rc.regs 1 >>> 8
                                    reason := EXIT_SYNC } }
  else none

/-! ## SIMD -/

/-- `handle_simd_exception`: exit.c:303-358.  The contents of the contexts are not modelled, only which
one is live. -/
def simdTrap (w : World) (esr : W) : Option World :=
  if ec esr = EC_SVE ∧ w.rc.sveEn = false then (injectUndef w.rc).map fun r => { w with rc := r }
  else if ec esr = EC_SME ∧ (w.rc.sveEn = false ∨ w.rc.simdLive) then (injectUndef w.rc).map fun r => { w with rc := r }
  else if w.rc.simdLive then none
  else some { w with rc := { w.rc with simdLive := true } }

/-! ## System registers -/

/-- `SYSREG_ESR`: arch.h:998-1003. -/
def sysregEsr (op0 op1 crn crm op2 : Nat) : W :=
  (BitVec.ofNat 64 op0 <<< 20) ||| (BitVec.ofNat 64 op1 <<< 14) ||| (BitVec.ofNat 64 crn <<< 10) |||
    (BitVec.ofNat 64 crm <<< 1) ||| (BitVec.ofNat 64 op2 <<< 17)

/-- `ESR_EL2_SYSREG_MASK`: arch.h:1005. -/
def SYSREG_MASK : W := sysregEsr 3 7 15 15 7

/-- `ESR_EL2_SYSREG_IS_WRITE`: arch.h:1064-1065. -/
def srWrite (e : W) : Bool := !e.getLsbD 0
/-- `ESR_EL2_SYSREG_ISS_RT`: arch.h:1069. -/
def srRt (e : W) : Nat := (e.extractLsb' 5 5).toNat

/-- `MASK` of a 4-bit field. -/
def m4 (s : Nat) : W := (0xf : W) <<< s

/-- `ID_AA64DFR0_EL1_CLEAR`: sysregs.c:46-55 (TraceVer, PMSS, SEBEP, CTX_CMPS, PMSVer, TraceFilt,
TraceBuffer, BRBE, ExtTrcBuff). -/
def DFR0_CLEAR : W :=
  m4 4 ||| m4 16 ||| m4 24 ||| m4 28 ||| m4 32 ||| m4 40 ||| m4 44 ||| m4 52 ||| m4 56
/-- `ID_AA64DFR1_EL1_CLEAR`: sysregs.c:64-66 (EBEP, ICNTR). -/
def DFR1_CLEAR : W := m4 48 ||| m4 36
/-- `ID_AA64PFR0_EL1_CLEAR`: sysregs.c:74-75 (AMU). -/
def PFR0_CLEAR : W := m4 44
/-- `ID_AA64PFR1_EL1_CLEAR`: sysregs.c:83-86 (MTE, SME). -/
def PFR1_CLEAR : W := m4 8 ||| m4 24

/-- The value `handle_id_sysreg_trap` (sysregs.c:91-189) gives for the encoding `id`. -/
def idValue (env : Env) (sveEn : Bool) (id : W) : W :=
  if id = sysregEsr 3 0 0 5 4 then env.idreg id
  else if id = sysregEsr 3 0 0 5 5 then env.idreg id
  else if id = sysregEsr 3 0 0 5 0 then env.idreg id &&& ~~~DFR0_CLEAR
  else if id = sysregEsr 3 0 0 5 1 then env.idreg id &&& ~~~DFR1_CLEAR
  else if id = sysregEsr 3 0 0 6 0 then env.idreg id
  else if id = sysregEsr 3 0 0 6 1 then env.idreg id
  else if id = sysregEsr 3 0 0 7 0 then env.idreg id
  else if id = sysregEsr 3 0 0 7 1 then env.idreg id
  else if id = sysregEsr 3 0 0 7 2 then env.idreg id
  else if id = sysregEsr 3 0 0 4 0 then
    let v := env.idreg id &&& ~~~PFR0_CLEAR
    if v.extractLsb' 32 4 ≠ 0 ∧ sveEn = false then v &&& ~~~m4 32 else v
  else if id = sysregEsr 3 0 0 4 1 then env.idreg id &&& ~~~PFR1_CLEAR
  else if id = sysregEsr 3 0 0 4 4 then (if env.svePresent && sveEn then env.idreg id else 0)
  else 0

/-- `handle_id_sysreg_trap`: sysregs.c:91-189. -/
def idTrap (env : Env) (w : World) (esr : W) : Option World :=
  if srWrite esr then none
  else if srRt esr = 31 then some w
  else (w.rc.setReg (srRt esr) (idValue env w.rc.sveEn (esr &&& SYSREG_MASK))).map fun r => { w with rc := r }

/-- `handle_icc_el1_sysreg_trap` (sysregs.c:191-218) followed by `emulate_sysreg_access_ns` and
`get_sysreg_write_value` (241-261). -/
def iccTrap (w : World) (esr : W) : Option World :=
  let s := esr &&& SYSREG_MASK
  if (s = sysregEsr 3 0 12 11 1 ∨ s = sysregEsr 3 0 12 11 5 ∨ s = sysregEsr 3 0 12 11 7) ∧ srWrite esr then
    (if srRt esr = 31 then some 0 else w.rc.reg (srRt esr)).map fun v =>
      { w with ex := { w.ex with reason := EXIT_SYNC, esr := esr, gprs := upd w.ex.gprs 0 v } }
  else none

/-- `handle_sysreg_access_trap`: sysregs.c:267-318, with the table of 232-239. -/
def sysregTrap (env : Env) (w : World) (esr : W) : Option (World × Bool) :=
  if esr.getLsbD 25 = false then none
  else if esr &&& sysregEsr 3 7 15 0 0 = sysregEsr 3 0 0 0 0 then (idTrap env w esr).map (·, true)
  else if esr &&& sysregEsr 3 3 15 8 0 = sysregEsr 3 0 12 8 0 then (iccTrap w esr).map (·, false)
  else if esr &&& SYSREG_MASK = sysregEsr 3 0 4 6 0 then (iccTrap w esr).map (·, false)
  else if srWrite esr = false ∧ srRt esr ≠ 31 then (w.rc.setReg (srRt esr) 0).map fun r => ({ w with rc := r }, true)
  else some (w, true)

/-! ## SError -/

/-- `handle_exception_serror_lel`: exit.c:532-583, and `inject_serror`: /repo/runtime/core/run.c:232-236. -/
def serrorExit (w : World) (hw : Hw) : Option World :=
  if hw.esr.getLsbD 24 then none
  else if hw.esr.extractLsb' 0 6 ≠ (1 : BitVec 6) then none
  else
    let aet : BitVec 3 := hw.esr.extractLsb' 10 3
    if aet = 1 ∨ aet = 3 then
      some { w with rc := { w.rc with vsesr := hw.esr, serror := true }, ex := { w.ex with esr := hw.esr &&& M_SERROR } }
    else if aet = 6 ∨ aet = 2 then some { w with ex := { w.ex with esr := hw.esr &&& M_SERROR } }
    else none

end Verif.Run
