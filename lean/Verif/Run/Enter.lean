import Verif.Run.Rsi

/-!
# Running a REC

Model of `smc_rec_enter` (/repo/runtime/rmi/run.c), `handle_realm_exit` (/repo/runtime/core/exit.c:599-657),
`rec_run_loop` (/repo/runtime/core/run.c:259-368) and /repo/runtime/core/timers.c.
-/

namespace Verif.Run

/-! ## One exit from the realm -/

/-- What `run_realm` returns: `ARM_EXCEPTION_*`. -/
inductive Exc where
  | sync
  | irq
  | fiq
  | serror
  | other
  deriving DecidableEq

/-- `handle_exception_sync`: exit.c:480-526. -/
def syncExit (env : Env) (w : World) (hw : Hw) : Option (World × Bool) :=
  if ec hw.esr = EC_WFX then
    some ({ w with rc := advancePc w.rc, ex := { w.ex with esr := hw.esr &&& (M_EC ||| B_TI) } }, false)
  else if ec hw.esr = EC_HVC then (injectUndef w.rc).map fun r => ({ w with rc := r }, true)
  else if ec hw.esr = EC_SMC then realmRsi env w
  else if ec hw.esr = EC_SYSREG then
    (sysregTrap env w hw.esr).map fun p => ({ p.1 with rc := advancePc p.1.rc }, p.2)
  else if ec hw.esr = EC_IABT then instrAbort env w hw
  else if ec hw.esr = EC_DABT then dataAbort env w hw
  else if ec hw.esr = EC_FPU ∨ ec hw.esr = EC_SVE ∨ ec hw.esr = EC_SME then (simdTrap w hw.esr).map (·, true)
  else some (w, false)

/-- The record of the exit in `rec->last_run_info`: exit.c:612-623. -/
def recordSync (w : World) (hw : Hw) : World :=
  { w with rc := { w.rc with
      lastEsr := if w.ex.esr &&& B_ISV = 0 then hw.esr &&& ~~~B_ISV else hw.esr
      lastFar := hw.far, lastHpfar := hw.hpfar } }

/-- `handle_realm_exit`: exit.c:599-657. -/
def handleExit (env : Env) (w : World) (e : Exc) (hw : Hw) : Option (World × Bool) :=
  match e with
  | .sync =>
    (syncExit env { w with ex := { w.ex with reason := EXIT_SYNC } } hw).map fun p =>
      if p.2 then p else (recordSync p.1 hw, false)
  | .irq => some ({ w with ex := { w.ex with reason := EXIT_IRQ } }, false)
  | .fiq => some ({ w with ex := { w.ex with reason := EXIT_FIQ } }, false)
  | .serror =>
    (serrorExit { w with ex := { w.ex with reason := EXIT_SERROR } } hw).map fun w' =>
      ({ w' with rc := { w'.rc with lastEsr := hw.esr, lastFar := hw.far, lastHpfar := hw.hpfar } }, false)
  | .other => some (w, false)

/-! ## Timers -/

/-- `TIMER_ASSERTED`: timers.c:17-20 (ENABLE bit 0, IMASK bit 1, ISTATUS bit 2). -/
def asserted (ctl : W) : Bool := ctl &&& 7 == 5

/-- `check_pending_timers`: timers.c:34-84: the new CNTHCTL_EL2 (CNTVMASK bit 18, CNTPMASK bit 19) and
whether an output changed.  The wait for retired interrupts is left out. -/
def checkTimers (r : Rec) (ctlV ctlP : W) : Rec × Bool :=
  let c1 := if asserted ctlV then r.cnthctl ||| 0x40000 else r.cnthctl &&& ~~~0x40000
  let c2 := if asserted ctlP then c1 ||| 0x80000 else c1 &&& ~~~0x80000
  ({ r with cnthctl := c2 }, (asserted ctlV != asserted r.cntvCtl) || (asserted ctlP != asserted r.cntpCtl))

/-! ## The loop -/

/-- What happens between one check of the timers and the next: the realm runs, with any effect on its
registers and on memory (other RECs of the realm run too), and an exception is taken. -/
structure Ev where
  ctlV : W
  ctlP : W
  regs : Nat → W
  pc : W
  pstate : W
  vbar : W
  sctlr : W
  sctlr2 : W
  elr1 : W
  spsr1 : W
  esr1 : W
  far1 : W
  mem : Nat → Byte
  slots : Nat → List Byte
  state : RState
  exc : Exc
  hw : Hw
  env : Env

/-- The world when the realm has run: `activate_events` (core/run.c:220-230) has delivered a pending
SError. -/
def afterRun (w : World) (e : Ev) : World :=
  { w with
    rc := { w.rc with
      regs := e.regs, pc := e.pc, pstate := e.pstate, vbar := e.vbar, sctlr := e.sctlr, sctlr2 := e.sctlr2
      elr1 := e.elr1, spsr1 := e.spsr1, esr1 := e.esr1, far1 := e.far1, serror := false }
    mem := e.mem, slots := e.slots, state := e.state }

/-- One iteration: core/run.c:292-334. -/
def iter (w : World) (e : Ev) : Option (World × Bool) :=
  let t := checkTimers w.rc e.ctlV e.ctlP
  let w1 := { w with rc := t.1 }
  if t.2 then some ({ w1 with ex := { w1.ex with reason := EXIT_IRQ } }, false)
  else handleExit e.env (afterRun w1 e) e.exc e.hw

/-- The `do … while` loop over the given events; the Boolean tells that it has ended. -/
def loop : List Ev → World → Option (World × Bool)
  | [], w => some (w, false)
  | e :: es, w => (iter w e).bind fun p => if p.2 then loop es p.1 else some (p.1, true)

/-- Hardware state read when the loop has ended: timers, PMU overflow if the realm has a PMU, and the
virtual interrupt interface. -/
structure HwEnd where
  ctlV : W
  cvalV : W
  offV : W
  ctlP : W
  cvalP : W
  offP : W
  pmu : Option W
  gic : Gic.Hw

/-- The rest of `rec_run_loop` (core/run.c:336-367): `report_timer_state_to_ns` (timers.c:86-94),
`save_realm_state`; and `gic_copy_state_to_rec_exit` (rmi/run.c:319). -/
def finish (f : Gic.Feat) (w : World) (n : HwEnd) : World :=
  let g := (Gic.save f w.rc.gic n.gic).1
  { w with
    rc := { w.rc with simdLive := false, cntvCtl := n.ctlV, cntpCtl := n.ctlP, gic := g }
    ex := { w.ex with
      cntvCtl := n.ctlV, cntvCval := n.cvalV - n.offV, cntpCtl := n.ctlP, cntpCval := n.cvalP - n.offP
      pmuOvf := n.pmu.getD w.ex.pmuOvf, gic := Gic.copyTo f g w.ex.gic } }

/-! ## Completing what the host was asked -/

/-- The host's part of the run structure: `struct rmi_rec_enter`, smc-rmi.h:698-709. -/
structure Enter where
  flags : W
  gprs : Nat → W
  gic : Gic.Enter

/-- `REC_ENTRY_FLAG_*`: smc-rmi.h (bits 0 to 4). -/
def Enter.emulMmio (e : Enter) : Bool := e.flags.getLsbD 0
def Enter.injectSea (e : Enter) : Bool := e.flags.getLsbD 1
def Enter.trapWfi (e : Enter) : Bool := e.flags.getLsbD 2
def Enter.trapWfe (e : Enter) : Bool := e.flags.getLsbD 3
def Enter.ripasReject (e : Enter) : Bool := e.flags.getLsbD 4

/-- The value an emulated read gives: rmi/run.c:64-76. -/
def mmioValue (esr v : W) : W :=
  let val := v &&& accessMask esr
  if sse esr then
    let mask : W := (1 : W) <<< (accessLen esr * 8 - 1)
    let x := (val ^^^ mask) - mask
    if sf esr then x else x &&& 0xffffffff
  else val

/-- `complete_mmio_emulation`: rmi/run.c:27-83; `some none` is the return value `false`. -/
def completeMmio (r : Rec) (e : Enter) : Option (Option Rec) :=
  if e.emulMmio = false then some (some r)
  else if e.injectSea then some (some r)
  else if ec r.lastEsr ≠ EC_DABT ∨ isv r.lastEsr = false then some none
  else if wnr r.lastEsr = false ∧ srt r.lastEsr ≠ 31 then
    (r.setReg (srt r.lastEsr) (mmioValue r.lastEsr (e.gprs 0))).map fun r' => some (advancePc r')
  else some (some (advancePc r))

/-- `complete_set_ripas`: rmi/run.c:85-106, after the response has been recorded (293-295). -/
def completeRipas (r : Rec) (e : Enter) : Rec :=
  let r := { r with ripas := { r.ripas with reject := e.ripasReject } }
  if r.ripas.base = r.ripas.top then r
  else
    { r with
      regs := upd (upd (upd r.regs 0 RSI_SUCCESS) 1 r.ripas.addr) 2
        (if r.ripas.val = 1 ∧ r.ripas.addr ≠ r.ripas.top ∧ r.ripas.reject then 1 else 0)
      ripas := { r.ripas with base := 0, top := 0 } }

/-- `complete_sea_insertion`: rmi/run.c:108-129. -/
def completeSea (r : Rec) (e : Enter) : Option (Option Rec) :=
  if e.injectSea = false then some (some r)
  else if ec r.lastEsr ≠ EC_DABT then some none
  else if inPar r (fipaOf r.lastHpfar) then some none
  else (injectAbort r r.lastEsr r.lastFar).map some

/-- `complete_sysreg_emulation`: rmi/run.c:132-151. -/
def completeSysreg (r : Rec) (e : Enter) : Option Rec :=
  if ec r.lastEsr ≠ EC_SYSREG then some r
  else if srWrite r.lastEsr then some r
  else if srRt r.lastEsr ≠ 31 then r.setReg (srRt r.lastEsr) (e.gprs 0)
  else some r

/-- The results half of `do_host_call`: host_call.c:91-98. -/
def hostCallIn (w : World) (e : Enter) (a : Nat) : World :=
  { w with
    rc := { w.rc with regs := upd w.rc.regs 0 RSI_SUCCESS }
    mem := store w.mem (a + 8) ((List.range 31).flatMap fun i => bytes64 (e.gprs i)) }

/-- `complete_host_call` and `complete_rsi_host_call`: rmi/run.c:153-170, host_call.c:133-156.  The
Boolean is the return value: `false` means the host has to fix a stage 2 fault.  If the page has RIPAS
EMPTY nothing is copied and the call counts as complete. -/
def completeHostCall (env : Env) (w : World) (e : Enter) : Option (World × Bool) :=
  if w.rc.hostCall = false then some (w, true)
  else (hostCallWalk env w.rc).bind fun
    | .miss .empty _ => some ({ w with rc := { w.rc with hostCall := false } }, true)
    | .miss _ l => (emulateS2Abort w (BitVec.ofInt 64 l)).map (·, false)
    | .ram pa =>
      let w' := hostCallIn w e (hostCallPa w.rc pa)
      some ({ w' with rc := { w'.rc with hostCall := false } }, true)

/-! ## RMI_REC_ENTER -/

/-- The outcome of looking up the REC granule: `find_lock_unused_granule`. -/
inductive Find where
  | ok
  | inval
  | busy
  deriving DecidableEq

/-- What the command finds outside the REC. -/
structure Call where
  /-- the run page is a granule in state NS -/
  runOk : Bool
  find : Find
  /-- copying the run structure from and to the host succeeds -/
  readOk : Bool
  writeOk : Bool
  enter : Enter
  feat : Gic.Feat
  env : Env
  evs : List Ev
  fin : HwEnd

/-- The result of the command: the world, the return code, whether the REC ran, and what was
written to the host's run structure. -/
structure Out where
  w : World
  code : W
  ran : Bool
  host : Option Exit

/-- Return codes: `pack_return_code(status, index)`, smc-rmi.h (see C35). -/
def RMI_SUCCESS : W := 0
def RMI_ERROR_INPUT : W := 1
def RMI_ERROR_REALM : W := 2
def RMI_ERROR_REALM_OFF : W := 0x102
def RMI_ERROR_REC : W := 3

/-- The end of `smc_rec_enter`: rmi/run.c:321-335. -/
def leave (c : Call) (w : World) (ran : Bool) : Out :=
  if c.writeOk then ⟨w, RMI_SUCCESS, ran, some w.ex⟩ else ⟨w, RMI_ERROR_INPUT, ran, none⟩

/-- HCR_EL2 for this run: rmi/run.c:307-313 (TWI bit 13, TWE bit 14). -/
def entryHcr (r : Rec) (e : Enter) : W :=
  let h := if e.trapWfi then r.commonHcr ||| 0x2000 else r.commonHcr
  if e.trapWfe then h ||| 0x4000 else h

/-- From `reset_last_run_info` on: rmi/run.c:305-319; `none` also when the events end before the loop. -/
def runRec (c : Call) (w : World) : Option Out :=
  let w := { w with rc := { w.rc with lastEsr := 0, hcr := entryHcr w.rc c.enter } }
  (loop c.evs w).bind fun p => if p.2 then some (leave c (finish c.feat p.1 c.fin) true) else none

/-- From the completion of pending requests on: rmi/run.c:293-303. -/
def enterComplete (c : Call) (w : World) : Option Out :=
  (completeSysreg (completeRipas w.rc c.enter) c.enter).bind fun r =>
  (completeHostCall c.env { w with rc := r } c.enter).bind fun p =>
  if p.2 then runRec c p.1 else some (leave c p.1 false)

/-- From the check of the interrupt state on: rmi/run.c:266-291. -/
def enterChecked (c : Call) (w : World) : Option Out :=
  let w := { w with rc := { w.rc with gic := Gic.copyFrom c.feat w.rc.gic c.enter.gic } }
  (completeSea w.rc c.enter).bind fun
  | none => some ⟨w, RMI_ERROR_REC, false, none⟩
  | some r =>
    (completeMmio r c.enter).bind fun
    | none => some ⟨{ w with rc := r }, RMI_ERROR_REC, false, none⟩
    | some r' => enterComplete c { w with rc := r' }

/-- `smc_rec_enter`: rmi/run.c:172-336. -/
def recEnter (c : Call) (w0 : World) : Option Out :=
  let w := { w0 with ex := Exit.zero }
  if c.runOk = false then some ⟨w, RMI_ERROR_INPUT, false, none⟩
  else if c.find = .inval then some ⟨w, RMI_ERROR_INPUT, false, none⟩
  else if c.find = .busy then some ⟨w, RMI_ERROR_REC, false, none⟩
  else if c.readOk = false then some ⟨w, RMI_ERROR_INPUT, false, none⟩
  else if w.state = .new then some ⟨w, RMI_ERROR_REALM, false, none⟩
  else if w.state = .systemOff then some ⟨w, RMI_ERROR_REALM_OFF, false, none⟩
  else if w.rc.runnable = false then some ⟨w, RMI_ERROR_REC, false, none⟩
  else if w.rc.pending then some ⟨w, RMI_ERROR_REC, false, none⟩
  else if Gic.validate c.feat c.enter.gic = false then some ⟨w, RMI_ERROR_REC, false, none⟩
  else enterChecked c w

end Verif.Run
