import Verif.Basic
import Verif.Tac
import Verif.Meas.Extend
import Verif.Leaf.Gic
import Verif.Leaf.Mpidr

/-!
# The run loop of a REC: state and syndrome helpers

Types and small functions shared by the model of /repo/runtime/rmi/run.c, /repo/runtime/core/exit.c,
/repo/runtime/core/run.c, /repo/runtime/core/sysregs.c, /repo/runtime/core/inject_exp.c and
/repo/runtime/rsi/*.c (C26 to C31, C34, C48, C49).

A function that reaches a failing assertion (or `system_abort`, or an index outside `rec->regs[31]`)
yields `none`.
-/

namespace Verif.Run

abbrev W := BitVec 64
abbrev Byte := BitVec 8

/-- Replace the value of a function at one point: an array store. -/
def upd {β : Type} (f : Nat → β) (i : Nat) (v : β) : Nat → β := fun j => if j = i then v else f j

/-! ## Exception syndrome fields -/

/-- `ESR_EL2_EC` (bits 31:26): /repo/lib/arch/include/arch.h:286-287. -/
def ec (e : W) : BitVec 6 := e.extractLsb' 26 6

/-- Exception classes `ESR_EL2_EC_*`: arch.h:295-308. -/
def EC_WFX : BitVec 6 := 1
def EC_FPU : BitVec 6 := 7
def EC_HVC : BitVec 6 := 22
def EC_SMC : BitVec 6 := 23
def EC_SYSREG : BitVec 6 := 24
def EC_SVE : BitVec 6 := 25
def EC_SME : BitVec 6 := 29
def EC_IABT : BitVec 6 := 32
def EC_DABT : BitVec 6 := 36

/-- `ESR_EL2_ABORT_ISV_BIT`: arch.h:311. -/
def isv (e : W) : Bool := e.getLsbD 24
/-- `esr_sas` (bits 23:22): /repo/lib/arch/include/esr.h:34-37. -/
def sas (e : W) : BitVec 2 := e.extractLsb' 22 2
/-- `esr_sign_extend` (bit 21): esr.h:24-27. -/
def sse (e : W) : Bool := e.getLsbD 21
/-- `esr_srt` (bits 20:16): esr.h:14-17. -/
def srt (e : W) : Nat := (e.extractLsb' 16 5).toNat
/-- `esr_sixty_four` (bit 15): esr.h:29-32. -/
def sf (e : W) : Bool := e.getLsbD 15
/-- `esr_is_write` (bit 6): esr.h:19-22. -/
def wnr (e : W) : Bool := e.getLsbD 6
/-- `ESR_EL2_ABORT_SET` (bits 12:11): arch.h:326-330. -/
def aset (e : W) : BitVec 2 := e.extractLsb' 11 2
/-- `ESR_EL2_ABORT_FSC` (bits 5:0): arch.h:337-338. -/
def fsc (e : W) : BitVec 6 := e.extractLsb' 0 6

/-- `access_len`: esr.h:39-52. -/
def accessLen (e : W) : Nat :=
  if sas e = 0 then 1 else if sas e = 1 then 2 else if sas e = 2 then 4 else 8

/-- `access_mask`: esr.h:54-67. -/
def accessMask (e : W) : W :=
  if sas e = 0 then 0xff else if sas e = 1 then 0xffff else if sas e = 2 then 0xffffffff else ~~~0

/-- `MASK(ESR_EL2_EC)`. -/
def M_EC : W := 0xFC000000
/-- `ESR_NONEMULATED_ABORT_MASK` (EC, SET, FnV, EA, FSC): arch.h:351-356. -/
def M_NONEMUL : W := 0xFC001E3F
/-- `ESR_EMULATED_ABORT_MASK` (also ISV, SAS, SF, WnR): arch.h:358-363. -/
def M_EMUL : W := 0xFDC09E7F
/-- `ESR_EL2_WFx_TI_BIT`: arch.h:409. -/
def B_TI : W := 1
/-- `ESR_EL2_ABORT_ISV_BIT`: arch.h:311. -/
def B_ISV : W := 0x1000000
/-- `ESR_SERROR_MASK` (IDS, AET, EA, DFSC): arch.h:384-388. -/
def M_SERROR : W := 0x1001E3F

/-- `(hpfar & MASK(HPFAR_EL2_FIPA)) << HPFAR_EL2_FIPA_OFFSET`: arch.h:585-587, bits 43:4, shifted by 8. -/
def fipaOf (hpfar : W) : W := (hpfar &&& 0xFFFFFFFFFF0) <<< 8

/-! ## State -/

/-- `rec->set_ripas`: /repo/runtime/include/rec.h:246-254.  The two enumerations are 32-bit values. -/
structure SetRipas where
  base : W
  top : W
  addr : W
  val : BitVec 32
  destroyed : BitVec 32
  reject : Bool
  deriving DecidableEq

/-- The part of `struct rec` (rec.h:224-310) used when a REC runs.  While it runs, `pc`, `pstate` and
the EL1 registers live in CPU registers; `save_realm_state` and `restore_realm_state`
(/repo/runtime/core/run.c:26-192) copy them without change, so they are one field here.  The other
saved registers, the PMU, the pointer authentication keys and the contents of the SIMD context are not
modelled. -/
structure Rec where
  regs : Nat → W
  pc : W
  pstate : W
  vbar : W
  sctlr : W
  sctlr2 : W
  elr1 : W
  spsr1 : W
  esr1 : W
  far1 : W
  ripas : SetRipas
  lastEsr : W
  lastFar : W
  lastHpfar : W
  pending : Bool
  runnable : Bool
  hostCall : Bool
  idx : W
  ipaBits : Nat
  sveEn : Bool
  serror : Bool
  vsesr : W
  /-- `rec->active_simd_ctx == rec->aux_data.simd_ctx` -/
  simdLive : Bool
  hcr : W
  commonHcr : W
  gic : Gic.St
  /-- saved timer control registers, and CNTHCTL_EL2 -/
  cntvCtl : W
  cntpCtl : W
  cnthctl : W

/-- `struct rmi_rec_exit`: /repo/lib/smc/include/smc-rmi.h:733-798. -/
structure Exit where
  reason : W
  flags : W
  esr : W
  far : W
  hpfar : W
  gprs : Nat → W
  ripasBase : W
  ripasTop : W
  ripasVal : BitVec 8
  imm : BitVec 32
  gic : Gic.Exit
  cntpCtl : W
  cntpCval : W
  cntvCtl : W
  cntvCval : W
  pmuOvf : W

/-- `memset(&rec_run.exit, 0, sizeof(struct rmi_rec_exit))`: /repo/runtime/rmi/run.c:186-191. -/
def Exit.zero : Exit :=
  { reason := 0, flags := 0, esr := 0, far := 0, hpfar := 0, gprs := fun _ => 0, ripasBase := 0, ripasTop := 0
    ripasVal := 0, imm := 0, gic := ⟨fun _ => 0, 0, 0, 0⟩, cntpCtl := 0, cntpCval := 0, cntvCtl := 0, cntvCval := 0
    pmuOvf := 0 }

/-- `enum attest_token_gen_state_t`: /repo/lib/attestation/include/attestation_token.h:30-35. -/
inductive TokState where
  | notStarted
  | init
  | sign
  | create
  deriving DecidableEq

/-- `struct rec_attest_data` (rec.h:186-200) and the token buffer of the REC. -/
structure Att where
  state : TokState
  realmLen : Nat
  ccaLen : Nat
  copied : Nat
  /-- contents of `rec->aux_data.cca_token_buf` -/
  buf : List Byte

/-- `rd->state`: /repo/runtime/include/realm.h:15-17. -/
inductive RState where
  | new
  | active
  | systemOff
  deriving DecidableEq

/-- Everything a running REC can read or change. -/
structure World where
  rc : Rec
  ex : Exit
  /-- `rd->state` of its realm -/
  state : RState
  /-- `rd->measurement` -/
  slots : Nat → List Byte
  /-- physical memory, by byte address -/
  mem : Nat → Byte
  att : Att

/-- `enum ripas`: /repo/lib/s2tt/include/ripas.h:17-23, without `RIPAS_DEV`, which no function of this
version ever sets. -/
inductive Ripas where
  | empty
  | ram
  | destroyed
  deriving DecidableEq

/-- The numeric value of the enumeration. -/
def Ripas.toW : Ripas → W
  | .empty => 0
  | .ram => 1
  | .destroyed => 2

/-- The result of `realm_ipa_to_pa` (/repo/runtime/rsi/realm_ipa_helper.c:39-94) for an aligned
protected address: `WALK_SUCCESS` with the physical address, or `WALK_FAIL` with the RIPAS and the
level reached.  What it is for given tables is the subject of C54. -/
inductive Walk where
  | ram (pa : Nat)
  | miss (r : Ripas) (level : Int)
  deriving DecidableEq

/-- One step of signing the realm token: what `attest_realm_token_sign` does in state SIGN
(/repo/lib/attestation/src/attestation_token.c:127-190), and whether an interrupt is pending after. -/
inductive SignRes where
  | inProgress
  | done (len : Nat)
  | error
  deriving DecidableEq

/-- What the handlers find in the rest of the system when they run: arbitrary values. -/
structure Env where
  /-- result of a walk of the stage 2 tables for an address -/
  walk : W → Walk
  /-- result of `realm_ipa_get_ripas` for `[start, end)`: the top and the RIPAS -/
  getRipas : W → W → Option (W × Ripas)
  /-- `rd->rec_count` -/
  recCount : W
  /-- identification registers of the CPU, by encoding -/
  idreg : W → W
  svePresent : Bool
  /-- `rd->algorithm` and `rd->rpv` -/
  algo : Meas.Algo
  rpv : Nat → Byte
  hash : Meas.Hash
  /-- the rounds of signing, with the interrupt status read after each -/
  sign : List (SignRes × Bool)
  /-- `attest_cca_token_create`: the token, or failure -/
  ccaToken : Option (List Byte)
  /-- whether `attest_token_ctx_init` and the rest of `attest_realm_token_create` succeed -/
  attInit : Bool
  attCreate : Bool
  /-- `REC_ATTEST_TOKEN_BUF_SIZE`, a build option -/
  tokenBuf : W

/-- `rec_ipa_size`: /repo/runtime/include/realm.h:185-188. -/
def ipaSize (r : Rec) : W := (1 : W) <<< r.ipaBits
/-- `rec_par_size`: realm.h:190-193. -/
def parSize (r : Rec) : W := ipaSize r >>> 1
/-- `addr_in_rec_par`: realm.h:195-198. -/
def inPar (r : Rec) (a : W) : Bool := a < parSize r

/-- `GRANULE_ALIGNED`: the low 12 bits are zero. -/
def aligned (a : W) : Bool := a &&& 0xfff == 0

/-- `rec->regs[i]`: there are 31 of them (rec.h:25, 229). -/
def Rec.reg (r : Rec) (i : Nat) : Option W := if i < 31 then some (r.regs i) else none
/-- `rec->regs[i] = v`. -/
def Rec.setReg (r : Rec) (i : Nat) (v : W) : Option Rec := if i < 31 then some { r with regs := upd r.regs i v } else none

/-- The values of `enum rsi_action` (/repo/runtime/include/rsi-handler.h:18-57) by their flags. -/
structure Act where
  upd : Bool
  exit : Bool
  abort : Bool
  deriving DecidableEq

def RETURN_TO_REALM : Act := ⟨true, false, false⟩
def EXIT_TO_HOST : Act := ⟨false, true, false⟩
def UPDATE_EXIT : Act := ⟨true, true, false⟩
def S2_FAULT : Act := ⟨false, true, true⟩

/-- `struct rsi_result`: rsi-handler.h:62-77.  `level` is the `unsigned long` it is stored in. -/
structure Res where
  act : Act
  level : W
  x : Nat → W

/-- Exit reasons `RMI_EXIT_*`: smc-rmi.h:129-135. -/
def EXIT_SYNC : W := 0
def EXIT_IRQ : W := 1
def EXIT_FIQ : W := 2
def EXIT_PSCI : W := 3
def EXIT_RIPAS : W := 4
def EXIT_HOST_CALL : W := 5
def EXIT_SERROR : W := 6

/-- Read `n` bytes of memory. -/
def load (m : Nat → Byte) (a n : Nat) : List Byte := (List.range n).map fun i => m (a + i)
/-- Write bytes to memory. -/
def store (m : Nat → Byte) (a : Nat) (bs : List Byte) : Nat → Byte :=
  fun p => if h : a ≤ p ∧ p - a < bs.length then bs[p - a]'h.2 else m p
/-- A 64-bit little endian load. -/
def load64 (m : Nat → Byte) (a : Nat) : W := BitVec.ofNat 64 (Meas.leNat (load m a 8))
/-- The bytes of a 64-bit value in little endian order. -/
def bytes64 (v : W) : List Byte := (List.range 8).map (Meas.intByte v)

end Verif.Run
