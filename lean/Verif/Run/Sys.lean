import Verif.Run.Inv
import Verif.Leaf.Mpidr

/-!
# The RECs of all realms

`smc_psci_complete` (/repo/runtime/rmi/rec.c:469-524) and `psci_complete_request` (/repo/runtime/rsi/psci.c:323-429), and
a system of RECs on which REC_CREATE, REC_DESTROY, REC_ENTER, PSCI_COMPLETE and the part of RTT_SET_RIPAS that touches the
REC act in any order.  REC_ENTER is split in two, so that other commands happen while a REC runs.
-/

namespace Verif.Run

/-- A REC granule: the REC, `realm_info.g_rd`, and whether the reference count is nonzero. -/
structure Vcpu where
  rc : Rec
  rd : Nat
  running : Bool

/-- `SCTLR_EL1_FLAGS`: /repo/lib/arch/include/arch.h:775-777. -/
def SCTLR_EL1_FLAGS : W := 0xC50878
/-- `SCTLR_ELx_EE_BIT`: arch.h:767. -/
def SCTLR_EE : W := 0x2000000

/-- `psci_reset_rec`: psci.c:94-109.  PSTATE: EL1h (5), and F, I, A and D (bits 6 to 9). -/
def resetRec (r : Rec) (callerSctlr : W) : Rec :=
  { r with pstate := 0x3C5, sctlr := SCTLR_EL1_FLAGS ||| (callerSctlr &&& SCTLR_EE) }

/-- The reference count is nonzero or `runnable` is set: psci.c:339-340, 361-362. -/
def Vcpu.on (t : Vcpu) : Bool := t.running || t.rc.runnable

/-- `complete_psci_cpu_on`: psci.c:333-357. -/
def completeOn (t : Vcpu) (entry ctx sctlr status : W) : Vcpu × W :=
  if t.on then (t, PSCI_ALREADY_ON)
  else if status = PSCI_DENIED then (t, PSCI_DENIED)
  else
    let r := resetRec t.rc sctlr
    ({ t with rc := { r with regs := upd r.regs 0 ctx, pc := entry, runnable := true } }, PSCI_SUCCESS)

/-- `SMC32_PSCI_CPU_ON`, `SMC64_PSCI_CPU_ON` and the same for AFFINITY_INFO: /repo/runtime/include/psci.h. -/
def isOn (f : W) : Bool := f == 0x84000003 || f == 0xC4000003
def isAff (f : W) : Bool := f == 0x84000004 || f == 0xC4000004

/-- The end of `psci_complete_request`: psci.c:422-426. -/
def answer (c : Vcpu) (v : W) : Vcpu :=
  { c with rc := { c.rc with regs := upd (upd (upd (upd c.rc.regs 0 v) 1 0) 2 0) 3 0, pending := false } }

/-- `psci_complete_request`: psci.c:369-429: the caller, the target and the return code; `none` is the assertion of 419. -/
def completeRequest (c t : Vcpu) (status : W) : Option (Vcpu × Vcpu × W) :=
  if c.rc.pending = false then some (c, t, RMI_ERROR_INPUT)
  else if c.rd ≠ t.rd then some (c, t, RMI_ERROR_INPUT)
  else if Mpidr.el1ToIdx (c.rc.regs 1) ≠ t.rc.idx then some (c, t, RMI_ERROR_INPUT)
  else if isOn (c.rc.regs 0) then
    if status ≠ PSCI_SUCCESS ∧ status ≠ PSCI_DENIED then some (c, t, RMI_ERROR_INPUT)
    else
      let p := completeOn t (c.rc.regs 2) (c.rc.regs 3) c.rc.sctlr status
      some (answer c p.2, p.1, if status = PSCI_DENIED ∧ p.2 = PSCI_ALREADY_ON then RMI_ERROR_INPUT else RMI_SUCCESS)
  else if isAff (c.rc.regs 0) then
    if status ≠ PSCI_SUCCESS then some (c, t, RMI_ERROR_INPUT)
    else some (answer c (if t.on then 0 else 1), t, RMI_SUCCESS)
  else none

/-- The RECs by address, and `rd->rec_count` by address of the RD. -/
structure Sys where
  recs : Nat → Option Vcpu
  count : Nat → Nat

def Sys.set (s : Sys) (a : Nat) (v : Option Vcpu) : Sys := { s with recs := upd s.recs a v }

/-- `smc_psci_complete`: rec.c:469-524.  `find_lock_two_granules` fails for equal addresses, and for granules that are
not RECs. -/
def smcComplete (s : Sys) (ca ta : Nat) (status : W) : Option (Sys × W) :=
  if ca = ta then some (s, RMI_ERROR_INPUT)
  else match s.recs ca, s.recs ta with
    | some c, some t =>
      if c.running then some (s, RMI_ERROR_INPUT)
      else (completeRequest c t status).map fun p => ((s.set ta (some p.2.1)).set ca (some p.1), p.2.2)
    | _, _ => some (s, RMI_ERROR_INPUT)

/-- What can happen to RECs. -/
inductive Op where
  /-- a new realm whose RD is at this address; only if no REC refers to an old one there -/
  | realm (rd : Nat)
  /-- `smc_rec_create` has succeeded -/
  | create (a rd : Nat) (r : Rec)
  /-- `smc_rec_destroy` -/
  | destroy (a : Nat)
  /-- `smc_rec_enter` takes its reference to the REC: /repo/runtime/rmi/run.c:218-238 -/
  | start (a : Nat)
  /-- the rest of `smc_rec_enter`; realm state, memory and so on as in `w` -/
  | finish (a : Nat) (c : Call) (w : World)
  | complete (ca ta : Nat) (status : W)
  /-- `smc_rtt_set_ripas` has changed the state of the addresses below `top`: /repo/runtime/rmi/rtt.c (see C13) -/
  | progress (a : Nat) (top : W)

/-- A REC as `smc_rec_create` leaves it, as far as it matters here: rec.c:247-401.  The index is the number of
RECs created before (rec.c:330-344). -/
structure Fresh0 (r : Rec) (n : Nat) : Prop where
  idx : r.idx.toNat = n
  pending : r.pending = false
  call : r.hostCall = false
  ripas : r.ripas.base = 0 ∧ r.ripas.top = 0
  last : r.lastEsr = 0
  bits : 32 ≤ r.ipaBits ∧ r.ipaBits ≤ 52

/-- What an operation may assume: the values that come from outside are possible. -/
def Op.ok (s : Sys) : Op → Prop
  | .create _ rd r => Fresh0 r (s.count rd)
  | .finish a c _ => ∀ v, s.recs a = some v → ∀ e ∈ c.evs, HwOk e.exc e.hw ∧ e.env.recCount.toNat = s.count v.rd
  | .realm rd => ∀ a v, s.recs a = some v → v.rd ≠ rd
  | _ => True

/-- One operation; `none` is a failed assertion.  Commands that are refused change nothing. -/
def step (s : Sys) : Op → Option Sys
  | .realm rd => some { s with count := upd s.count rd 0 }
  | .create a rd r =>
    match s.recs a with
    | some _ => some s
    | none => some { recs := upd s.recs a (some ⟨r, rd, false⟩), count := upd s.count rd (s.count rd + 1) }
  | .destroy a =>
    match s.recs a with
    | some v => if v.running then some s else some (s.set a none)
    | none => some s
  | .start a =>
    match s.recs a with
    | some v => if v.running then some s else some (s.set a (some { v with running := true }))
    | none => some s
  | .finish a c w =>
    match s.recs a with
    | some v =>
      if v.running then (recEnter c { w with rc := v.rc }).map fun o => s.set a (some { v with rc := o.w.rc, running := false })
      else some s
    | none => some s
  | .complete ca ta status => (smcComplete s ca ta status).map (·.1)
  | .progress a top =>
    match s.recs a with
    | some v =>
      if v.running then some s
      else if v.rc.ripas.base ≠ v.rc.ripas.top ∧ v.rc.ripas.addr ≤ top ∧ top ≤ v.rc.ripas.top then
        some (s.set a (some { v with rc := { v.rc with ripas := { v.rc.ripas with addr := top } } }))
      else some s
    | none => some s

/-- No realm and no REC. -/
def Sys.init : Sys := ⟨fun _ => none, fun _ => 0⟩

/-- `Hist h s`: the operations `h`, in this order, lead to `s`. -/
inductive Hist : List Op → Sys → Prop
  | nil : Hist [] Sys.init
  | snoc {h s o s'} : Hist h s → o.ok s → step s o = some s' → Hist (h ++ [o]) s'

end Verif.Run
