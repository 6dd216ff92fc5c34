import Verif.Basic

/-!
# The switch of system registers between the host and a realm

`rec_run_loop` and the functions it saves and restores registers with: /repo/runtime/core/run.c, the PMU context
(/repo/lib/arch/src/pmu.c), the GIC context (/repo/lib/gic/src/gic.c:232-329) and the pointer authentication keys
(/repo/lib/arch/src/pauth.c). The assembly that moves the general registers is in `Verif.Switch.Asm`; here it is the
two assignments that `Verif.Switch.Asm.C62_enter` and `C62_leave` prove of it.

Hardware that the code depends on is modelled with its side effects: a write of PMCR_EL0 with P or C set clears counters,
the SET and CLR registers are two views of one register, and PMXEVCNTR_EL0 and PMXEVTYPER_EL0 reach the counter that
PMSELR_EL0 selects.

Simplifications: counters do not count by themselves, timers do not fire by themselves, barriers are left out, and
SIMD is in `Verif.Simd`.
-/

namespace Verif.Switch

abbrev W := BitVec 64

/-- The system registers the switch touches, and VDISR_EL2, which it does not. `elr1` stands for ELR_EL1, which RMM reaches
as ELR_EL12, and so on. -/
inductive Sys
  | spEl0 | spEl1 | elr1 | spsr1 | pmcr | tpidrro0 | tpidr0 | csselr1 | sctlr1 | sctlr2_1 | actlr1 | cpacr1
  | ttbr0_1 | ttbr1_1 | tcr1 | esr1 | afsr0_1 | afsr1_1 | far1 | mair1 | vbar1 | contextidr1 | tpidr1 | amair1
  | cntkctl1 | par1 | mdscr1 | mdccint1 | disr1 | mpam0_1 | vmpidr2 | cntpoff2 | cntvoff2 | cntpCtl | cntpCval
  | cntvCtl | cntvCval | cnthctl2 | iccSre2 | elr2 | spsr2 | hcr2 | mdcr2 | vtcr2 | vttbr2 | cptr2 | vsesr2 | vdisr2
  deriving DecidableEq, Repr

/-- What the CPU implements and how RMM was built. -/
structure Env where
  /-- Number of event counters, PMCR_EL0.N. -/
  nctr : Nat
  /-- The bits that PMCNTENSET_EL0 and the like implement. -/
  imp : W
  /-- `is_feat_sctlr2x_present`. -/
  sctlr2 : Bool
  /-- RMM built with `MPAM(...)`. -/
  mpam : Bool
  /-- `gic_virt_feature.nr_lrs` and `nr_aprs`: the numbers of registers, less one. -/
  nrLrs : Nat
  nrAprs : Nat
  /-- RMM_CPU_EH_STACK_END_VA. -/
  ehEnd : W

/-- The performance monitors. -/
structure Pmu where
  pmcr : W
  ccntr : W
  ccfiltr : W
  cnten : W
  inten : W
  ovs : W
  selr : W
  userenr : W
  cntr : Nat → W
  typer : Nat → W

/-- The virtual interface of the GIC. -/
structure Gic where
  lr : Nat → W
  ap0r : Nat → W
  ap1r : Nat → W
  vmcr : W
  hcr : W
  misr : W

/-- The CPU's registers. `key 0` to `key 9` are APIA, APIB, APDA, APDB, APGA, low and high halves; `x` the general
registers. -/
structure Hw where
  sys : Sys → W
  pmu : Pmu
  gic : Gic
  key : Nat → W
  x : Nat → W

def upd {α β : Type} [DecidableEq α] (f : α → β) (a : α) (v : β) : α → β := fun b => if b = a then v else f b

/-! ## Registers with side effects -/

/-- PMCR_EL0 fields RMM and realms can write: E, D, X, DP, LC, LP, FZO, FZS. -/
def PMCR_CTL : W := 0x1000002F9
/-- PMCR_EL0 read-only fields: IMP, IDCODE, N. -/
def PMCR_RO : W := 0xFFFFF800
/-- `PMCR_EL0_P_BIT`, `PMCR_EL0_C_BIT`: /repo/lib/arch/include/arch.h:729-730. -/
def PMCR_P : W := 0x2
def PMCR_C : W := 0x4

/-- A write of PMCR_EL0 at EL2: P clears every event counter, whatever MDCR_EL2.HPMN is; C clears the cycle counter
(Arm ARM, PMCR_EL0). -/
def writePmcr (p : Pmu) (v : W) : Pmu :=
  { p with
    pmcr := (p.pmcr &&& PMCR_RO) ||| (v &&& PMCR_CTL)
    ccntr := if v &&& PMCR_C ≠ 0 then 0 else p.ccntr
    cntr := if v &&& PMCR_P ≠ 0 then fun _ => 0 else p.cntr }

/-- The counter that PMSELR_EL0 selects. -/
def sel (p : Pmu) : Nat := (p.selr &&& 0x1F).toNat

/-- PMXEVCNTR_EL0 and PMXEVTYPER_EL0 (Arm ARM). Selecting a counter that does not exist is CONSTRAINED UNPREDICTABLE; here
such accesses read zero and write nothing. Selecting 31 makes PMXEVTYPER_EL0 another name of PMCCFILTR_EL0. -/
def readXcntr (e : Env) (p : Pmu) : W := if sel p < e.nctr then p.cntr (sel p) else 0
def readXtyper (e : Env) (p : Pmu) : W :=
  if sel p < e.nctr then p.typer (sel p) else if sel p = 31 then p.ccfiltr else 0
def writeXcntr (e : Env) (p : Pmu) (v : W) : Pmu :=
  if sel p < e.nctr then { p with cntr := upd p.cntr (sel p) v } else p
def writeXtyper (e : Env) (p : Pmu) (v : W) : Pmu :=
  if sel p < e.nctr then { p with typer := upd p.typer (sel p) v }
  else if sel p = 31 then { p with ccfiltr := v } else p

/-- Writes of the SET and CLR views. -/
def setBits (e : Env) (r v : W) : W := r ||| (v &&& e.imp)
def clrBits (r v : W) : W := r &&& ~~~v

/-! ## `switch` statements that fall through -/

/-- The cases that run, in order, in a `switch` on `m` whose cases are `top`, `top-1`, …, 1, and `default` together
with 0, each falling through to the next: pmu.c:50-83 and 110-143, gic.c:235-305. -/
def falls (top m : Nat) : List Nat := if m ≤ top then (List.range (m + 1)).reverse else [0]

/-! ## PMU context -/

/-- `struct pmu_state`: /repo/lib/arch/include/pmu.h:25-41. -/
structure PmuS where
  ccfiltr : W
  ccntr : W
  cntenset : W
  cntenclr : W
  intenset : W
  intenclr : W
  ovsset : W
  ovsclr : W
  selr : W
  userenr : W
  xevcntr : W
  xevtyper : W
  evcntr : Nat → W
  evtyper : Nat → W

/-- `PMU_CLEAR_ALL`: /repo/lib/arch/src/pmu.c:13. -/
def CLEAR_ALL : W := 0x1FFFFFFFF

/-- The counters `pmu_save_state` and `pmu_restore_state` go through: pmu.c:48-50 and 108-110. -/
def ctrs (num : Nat) : List Nat := if num ≠ 0 then falls 30 (num - 1) else []

/-- `pmu_save_state`: pmu.c:31-85. -/
def pmuSave (e : Env) (p : Pmu) (s : PmuS) (num : Nat) : PmuS :=
  (ctrs num).foldl
    (fun s n => { s with evcntr := upd s.evcntr n (p.cntr n), evtyper := upd s.evtyper n (p.typer n) })
    { s with
      ccfiltr := p.ccfiltr, ccntr := p.ccntr
      cntenset := p.cnten, cntenclr := p.cnten
      intenset := p.inten, intenclr := p.inten
      ovsset := p.ovs, ovsclr := p.ovs
      selr := p.selr, userenr := p.userenr
      xevcntr := readXcntr e p, xevtyper := readXtyper e p }

/-- `pmu_restore_state`: pmu.c:91-145. -/
def pmuRestore (e : Env) (s : PmuS) (p : Pmu) (num : Nat) : Pmu :=
  let p := { p with ccfiltr := s.ccfiltr }
  let p := { p with ccntr := s.ccntr }
  let p := { p with cnten := setBits e p.cnten s.cntenset }
  let p := { p with cnten := clrBits p.cnten (s.cntenclr ^^^ CLEAR_ALL) }
  let p := { p with inten := setBits e p.inten s.intenset }
  let p := { p with inten := clrBits p.inten (s.intenclr ^^^ CLEAR_ALL) }
  let p := { p with ovs := setBits e p.ovs s.ovsset }
  let p := { p with ovs := clrBits p.ovs (s.ovsclr ^^^ CLEAR_ALL) }
  let p := { p with selr := s.selr }
  let p := { p with userenr := s.userenr }
  let p := writeXcntr e p s.xevcntr
  let p := writeXtyper e p s.xevtyper
  (ctrs num).foldl
    (fun p n => { p with cntr := upd p.cntr n (s.evcntr n), typer := upd p.typer n (s.evtyper n) }) p

/-- `pmu_update_rec_exit`: pmu.c:150-161. `true` is RMI_PMU_OVERFLOW_ACTIVE. -/
def pmuOverflow (p : Pmu) : Bool := decide (p.ovs &&& p.inten &&& p.cnten ≠ 0) && decide (p.pmcr &&& 1 ≠ 0)

/-! ## GIC context -/

/-- `ICH_HCR_EL2_EN_BIT`: /repo/lib/gic/include/gic.h:29. -/
def ICH_EN : W := 1

/-- `gic_save_state` with `read_aprs` and `read_lrs`: /repo/lib/gic/src/gic.c:232-255, 282-293, 317-329. The second
component is the CPU, whose virtual interface is switched off. -/
def gicSave (e : Env) (h s : Gic) : Gic × Gic :=
  let s := (falls 3 e.nrAprs).foldl
    (fun s n => { s with ap0r := upd s.ap0r n (h.ap0r n), ap1r := upd s.ap1r n (h.ap1r n) }) s
  let s := (falls 15 e.nrLrs).foldl (fun s n => { s with lr := upd s.lr n (h.lr n) }) s
  ({ s with vmcr := h.vmcr, hcr := h.hcr, misr := h.misr }, { h with hcr := h.hcr &&& ~~~ICH_EN })

/-- `gic_restore_state` with `write_aprs` and `write_lrs`: gic.c:257-280, 295-315. -/
def gicRestore (e : Env) (s h : Gic) : Gic :=
  let h := (falls 3 e.nrAprs).foldl
    (fun h n => { h with ap0r := upd h.ap0r n (s.ap0r n), ap1r := upd h.ap1r n (s.ap1r n) }) h
  let h := (falls 15 e.nrLrs).foldl (fun h n => { h with lr := upd h.lr n (s.lr n) }) h
  { h with vmcr := s.vmcr, hcr := s.hcr }

/-! ## System registers -/

/-- Does the access happen? `read_sctlr2_el12_if_present` and `MPAM(...)`: run.c:39 and 60, 101 and 121. -/
def present (e : Env) : Sys → Bool
  | .sctlr2_1 => e.sctlr2
  | .mpam0_1 => e.mpam
  | _ => true

def read (h : Hw) : Sys → W
  | .pmcr => h.pmu.pmcr
  | r => h.sys r

def write (h : Hw) (r : Sys) (v : W) : Hw :=
  match r with
  | .pmcr => { h with pmu := writePmcr h.pmu v }
  | r => { h with sys := upd h.sys r v }

/-- The registers `save_sysreg_state` reads, in order: run.c:30-68. -/
def saveList : List Sys := [
  .spEl0, .spEl1, .elr1, .spsr1, .pmcr, .tpidrro0, .tpidr0, .csselr1, .sctlr1, .sctlr2_1, .actlr1, .cpacr1,
  .ttbr0_1, .ttbr1_1, .tcr1, .esr1, .afsr0_1, .afsr1_1, .far1, .mair1, .vbar1,
  .contextidr1, .tpidr1, .amair1, .cntkctl1, .par1, .mdscr1, .mdccint1, .disr1, .mpam0_1,
  .cntpoff2, .cntvoff2, .cntpCtl, .cntpCval, .cntvCtl, .cntvCval]

/-- The registers `restore_sysreg_state` writes, in order: run.c:92-138. -/
def restoreList : List Sys := [
  .spEl0, .spEl1, .elr1, .spsr1, .pmcr, .tpidrro0, .tpidr0, .csselr1, .sctlr1, .sctlr2_1, .actlr1, .cpacr1,
  .ttbr0_1, .ttbr1_1, .tcr1, .esr1, .afsr0_1, .afsr1_1, .far1, .mair1, .vbar1,
  .contextidr1, .tpidr1, .amair1, .cntkctl1, .par1, .mdscr1, .mdccint1, .disr1, .mpam0_1, .vmpidr2,
  .cntpoff2, .cntvoff2, .cntpCval, .cntpCtl, .cntvCval, .cntvCtl]

/-- `save_sysreg_state`: run.c:28-69. `read_sctlr2_el12_if_present` gives 0 when the register is absent
(/repo/lib/arch/include/arch_features.h:172-173); the MPAM line is not compiled then. -/
def saveSys (e : Env) (h : Hw) (ctx : Sys → W) : Sys → W :=
  saveList.foldl
    (fun c r => if present e r then upd c r (read h r) else if r = .sctlr2_1 then upd c r 0 else c) ctx

/-- `restore_sysreg_state`: run.c:90-139. -/
def restoreSys (e : Env) (ctx : Sys → W) (h : Hw) : Hw :=
  restoreList.foldl (fun h r => if present e r then write h r (ctx r) else h) h

/-! ## The REC and the host context -/

/-- The parts of `struct rec` the switch uses: /repo/runtime/include/rec.h. `sys` is `rec->sysregs` with the fields of
`rec->common_sysregs` for MDCR_EL2, VTCR_EL2 and VTTBR_EL2, `rec->pc` under ELR_EL2 and `rec->pstate` under
SPSR_EL2. `regs` has X0-X30 and, as number 31, SP_EL0. -/
structure Rec where
  sys : Sys → W
  gic : Gic
  pmu : PmuS
  key : Nat → W
  regs : Nat → W
  inject : Bool
  vsesr : W
  pmuEn : Bool
  num : Nat

/-- `struct ns_state`: rec.h:176-181. `icc_sre_el2` is `sys .iccSre2`. -/
structure Ns where
  sys : Sys → W
  pmu : PmuS

/-- `save_realm_state`: run.c:71-88. The report of `pmu_update_rec_exit` is the second component. -/
def saveRealm (e : Env) (h : Hw) (c : Rec) : Hw × Rec × Option Bool :=
  let c := { c with sys := saveSys e h c.sys }
  let c := { c with sys := upd c.sys .elr2 (h.sys .elr2) }
  let c := { c with sys := upd c.sys .spsr2 (h.sys .spsr2) }
  let g := gicSave e h.gic c.gic
  let c := { c with gic := g.1 }
  let h := { h with gic := g.2 }
  if c.pmuEn then (h, { c with pmu := pmuSave e h.pmu c.pmu c.num }, some (pmuOverflow h.pmu)) else (h, c, none)

/-- `restore_realm_state` with `configure_realm_stage2`: run.c:141-175. -/
def restoreRealm (e : Env) (c : Rec) (h : Hw) : Hw :=
  let h := write h .cnthctl2 (c.sys .cnthctl2)
  let h := restoreSys e c.sys h
  let h := write h .elr2 (c.sys .elr2)
  let h := write h .spsr2 (c.sys .spsr2)
  let h := write h .hcr2 (c.sys .hcr2)
  let h := write h .mdcr2 (c.sys .mdcr2)
  let h := { h with gic := gicRestore e c.gic h.gic }
  let h := write h .vtcr2 (c.sys .vtcr2)
  let h := write h .vttbr2 (c.sys .vttbr2)
  if c.pmuEn then { h with pmu := pmuRestore e c.pmu h.pmu c.num } else h

/-- `save_ns_state`: run.c:177-196. -/
def saveNs (e : Env) (c : Rec) (h : Hw) (n : Ns) : Ns :=
  let n := { n with sys := saveSys e h n.sys }
  let n := { n with sys := upd n.sys .cnthctl2 (h.sys .cnthctl2) }
  let n := { n with sys := upd n.sys .iccSre2 (h.sys .iccSre2) }
  if c.pmuEn then { n with pmu := pmuSave e h.pmu n.pmu c.num } else n

/-- `restore_ns_state`: run.c:198-218. -/
def restoreNs (e : Env) (c : Rec) (n : Ns) (h : Hw) : Hw :=
  let h := restoreSys e n.sys h
  let h := write h .cnthctl2 (n.sys .cnthctl2)
  let h := write h .iccSre2 (n.sys .iccSre2)
  if c.pmuEn then { h with pmu := pmuRestore e n.pmu h.pmu c.num } else h

/-! ## One round of the loop -/

structure St where
  hw : Hw
  rc : Rec

/-- `HCR_VSE`: /repo/lib/arch/include/arch.h:169. -/
def HCR_VSE : W := 0x100

/-- `activate_events`: run.c:220-230. -/
def activate (s : St) : St :=
  if s.rc.inject then
    let h := write s.hw .vsesr2 s.rc.vsesr
    let h := write h .hcr2 (s.rc.sys .hcr2 ||| HCR_VSE)
    { hw := h, rc := { s.rc with inject := false } }
  else s

/-- `pauth_restore_realm_keys` and `pauth_save_realm_keys`: /repo/lib/arch/src/pauth.c:58-85; all ten key registers. -/
def keysIn (c : Rec) (h : Hw) : Hw := { h with key := (List.range 10).foldl (fun k n => upd k n (c.key n)) h.key }
def keysOut (h : Hw) (c : Rec) : Rec := { c with key := (List.range 10).foldl (fun k n => upd k n (h.key n)) c.key }

/-- `pauth_restore_rmm_keys`: pauth.c:49-56; APIA only. `apia 0`, `apia 1` are the halves of `g_rmm_pauth_apia`. -/
def keysRmm (apia : Nat → W) (h : Hw) : Hw := { h with key := upd (upd h.key 0 (apia 0)) 1 (apia 1) }

/-- From the check of the timers to the `eret` into the realm: run.c:306-321 and `run_realm`. -/
def toRealm (s : St) : St :=
  let cptr := s.hw.sys .cptr2
  let s := activate s
  let h := if cptr ≠ s.rc.sys .cptr2 then write s.hw .cptr2 (s.rc.sys .cptr2) else s.hw
  let h := keysIn s.rc h
  { s with hw := write { h with x := fun n => if n ≤ 30 then s.rc.regs n else h.x n } .spEl0 (s.rc.regs 31) }

/-- From the exception to the call of `handle_realm_exit`: `realm_exit` and run.c:324-333. `cptr` is `rmm_cptr_el2`. -/
def fromRealm (e : Env) (apia : Nat → W) (cptr : W) (s : St) : St :=
  let c := { s.rc with regs := fun n => if n ≤ 30 then s.hw.x n else if n = 31 then s.hw.sys .spEl0 else s.rc.regs n }
  let h := write s.hw .spEl0 e.ehEnd
  let c := keysOut h c
  let h := keysRmm apia h
  let h := if cptr ≠ c.sys .cptr2 then write h .cptr2 cptr else h
  { hw := h, rc := c }

end Verif.Switch
