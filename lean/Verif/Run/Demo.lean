import Verif.Run.Enter

/-!
# A concrete REC

A small but complete state used to show that the hypotheses of the theorems about running a REC are met.
-/

namespace Verif.Run.Demo

def feat : Gic.Feat := { nrLrs := 3, nrAprs := 0, priRes0 := 7, maxVintid := 0xffff, extRange := false }

def hash : Meas.Hash := { f := fun a _ => List.replicate a.size 0xab, len := by intro a d; simp }

/-- A system where the page at 0x1000 of the realm is at 0x80001000, the page at 0x2000 has RIPAS RAM but is not
mapped, and everything else has RIPAS EMPTY. -/
def env : Env :=
  { walk := fun a => if a = 0x1000 then .ram 0x80001000 else if a = 0x2000 then .miss .ram 3 else .miss .empty 2
    getRipas := fun s _ => if s = 0x1000 then some (0x3000, .ram) else some (0x200000, .empty)
    recCount := 4
    idreg := fun _ => 0x1111111111111111
    svePresent := false
    algo := .sha256
    rpv := fun _ => 0x77
    hash := hash
    sign := []
    ccaToken := none
    attInit := true
    attCreate := true
    tokenBuf := 4096 }

/-- 33-bit addresses: the protected half is below 2^32. -/
def rc : Rec :=
  { regs := fun _ => 0, pc := 0x1000, pstate := 5, vbar := 0x10000, sctlr := 0, sctlr2 := 0, elr1 := 0, spsr1 := 0
    esr1 := 0, far1 := 0, ripas := ⟨0, 0, 0, 0, 0, false⟩, lastEsr := 0, lastFar := 0, lastHpfar := 0
    pending := false, runnable := true, hostCall := false, idx := 0, ipaBits := 33, sveEn := false, serror := false
    vsesr := 0, simdLive := false, hcr := 0, commonHcr := 0x80000001, gic := Gic.init, cntvCtl := 0, cntpCtl := 0
    cnthctl := 0 }

def world : World :=
  { rc := rc, ex := Exit.zero, state := .active, slots := fun _ => List.replicate 64 0
    mem := fun a => BitVec.ofNat 8 a, att := ⟨.notStarted, 0, 0, 0, []⟩ }

/-- The realm runs and takes the exception `e` with the syndrome `hw` and the registers `regs`. -/
def ev (e : Exc) (hw : Hw) (regs : Nat → W) : Ev :=
  { ctlV := 0, ctlP := 0, regs := regs, pc := 0x2000, pstate := 5, vbar := 0x10000, sctlr := 0, sctlr2 := 0
    elr1 := 0, spsr1 := 0, esr1 := 0, far1 := 0, mem := fun a => BitVec.ofNat 8 a
    slots := fun _ => List.replicate 64 0, state := .active, exc := e, hw := hw, env := env }

def gicHw : Gic.Hw := { ap0r := fun _ => 0, ap1r := fun _ => 0, vmcr := 0, lr := fun _ => 0, misr := 0, hcr := 0 }

def hwEnd : HwEnd := ⟨0, 0, 0, 0, 0, 0, none, gicHw⟩

def enter (flags : W) (g0 : W) : Enter :=
  { flags := flags, gprs := fun i => if i = 0 then g0 else 0, gic := ⟨0, fun _ => 0⟩ }

def call (flags g0 : W) (evs : List Ev) : Call :=
  { runOk := true, find := .ok, readOk := true, writeOk := true, enter := enter flags g0, feat := feat, env := env
    evs := evs, fin := hwEnd }

/-- Syndrome of a data abort: `isv`, size, register and write flag as given. -/
def dabt (iv : Bool) (size reg : Nat) (write : Bool) : W :=
  0x90000000 ||| (if iv then 0x1000000 else 0) ||| BitVec.ofNat 64 (size * 2 ^ 22) ||| BitVec.ofNat 64 (reg * 2 ^ 16) |||
    (if write then 0x40 else 0) ||| 0x7

/-- HPFAR for the page of an address. -/
def hpfar (a : Nat) : W := BitVec.ofNat 64 (a / 4096 * 16)

end Verif.Run.Demo
