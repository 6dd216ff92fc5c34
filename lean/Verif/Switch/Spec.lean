import Verif.Switch.Model

/-!
# What a realm, RMM's handlers and the loop may do, and what must survive
-/

namespace Verif.Switch

/-- Limits the architecture sets: at most 31 event counters, 16 list registers and 4 active priority registers; PMCNTENSET_EL0
and its like implement bits 0-32 only. -/
structure Fine (e : Env) : Prop where
  nctr : e.nctr ≤ 31
  imp : e.imp &&& ~~~CLEAR_ALL = 0
  lrs : e.nrLrs ≤ 15
  aprs : e.nrAprs ≤ 3

/-- Bits that do not exist read as zero. -/
structure PmuOk (e : Env) (p : Pmu) : Prop where
  pmcr : p.pmcr &&& ~~~(PMCR_RO ||| PMCR_CTL) = 0
  cnten : p.cnten &&& ~~~e.imp = 0
  inten : p.inten &&& ~~~e.imp = 0
  ovs : p.ovs &&& ~~~e.imp = 0

/-- What a REC must be: its realm has no more counters than there are, its PMCR_EL0 resets nothing, and the saved SET and
CLR views agree. `Verif.Switch.C83_recOk` shows that REC_CREATE makes it so and `Verif.Switch.C62_recOk` that it stays
so. -/
structure RecOk (e : Env) (c : Rec) : Prop where
  num : c.num ≤ e.nctr
  quiet : c.sys .pmcr &&& PMCR_P = 0 ∧ c.sys .pmcr &&& PMCR_C = 0
  cnten : c.pmu.cntenclr = c.pmu.cntenset ∧ c.pmu.cntenset &&& ~~~e.imp = 0
  inten : c.pmu.intenclr = c.pmu.intenset ∧ c.pmu.intenset &&& ~~~e.imp = 0
  ovs : c.pmu.ovsclr = c.pmu.ovsset ∧ c.pmu.ovsset &&& ~~~e.imp = 0

/-- What the realm can do to the CPU while it runs: anything, except that the registers of EL2 stay (taking a virtual SError
clears HCR_EL2.VSE; ELR_EL2 and SPSR_EL2 get the realm's PC and PSTATE), absent registers stay, and of the PMU it
reaches only what MDCR_EL2 gives it: nothing without the PMU feature, else all but the counters from `num` on. -/
structure RealmRuns (e : Env) (c : Rec) (h h' : Hw) : Prop where
  el2 : ∀ r ∈ [Sys.vmpidr2, .cntpoff2, .cntvoff2, .cnthctl2, .iccSre2, .mdcr2, .vtcr2, .vttbr2, .cptr2, .vsesr2],
    h'.sys r = h.sys r
  hcr : h'.sys .hcr2 = h.sys .hcr2 ∨ h'.sys .hcr2 = h.sys .hcr2 &&& ~~~HCR_VSE
  pmuOk : PmuOk e h'.pmu
  ro : h'.pmu.pmcr &&& PMCR_RO = h.pmu.pmcr &&& PMCR_RO
  off : c.pmuEn = false → h'.pmu = h.pmu
  high : ∀ i, c.num ≤ i → h'.pmu.cntr i = h.pmu.cntr i ∧ h'.pmu.typer i = h.pmu.typer i

/-- What `check_pending_timers` changes (/repo/runtime/core/timers.c:34-84): CNTHCTL_EL2 and the REC's copy of it. -/
structure Timers (s s' : St) : Prop where
  hwSys : ∀ r, r ≠ .cnthctl2 → s'.hw.sys r = s.hw.sys r
  rcSys : ∀ r, r ≠ .cnthctl2 → s'.rc.sys r = s.rc.sys r
  pmu : s'.hw.pmu = s.hw.pmu
  gic : s'.hw.gic = s.hw.gic
  key : s'.hw.key = s.hw.key
  rest : s'.rc.gic = s.rc.gic ∧ s'.rc.pmu = s.rc.pmu ∧ s'.rc.key = s.rc.key ∧ s'.rc.regs = s.rc.regs ∧
    s'.rc.inject = s.rc.inject ∧ s'.rc.vsesr = s.rc.vsesr ∧ s'.rc.pmuEn = s.rc.pmuEn ∧ s'.rc.num = s.rc.num

/-- The registers `handle_realm_exit` may change to make the realm take an exception or step over an instruction:
/repo/runtime/core/inject_exp.c and /repo/runtime/core/exit.c. -/
def injected : List Sys := [.elr1, .spsr1, .esr1, .far1, .elr2, .spsr2]

/-- What `handle_realm_exit` changes: the registers above, the REC's general registers, the SIMD bits of its CPTR_EL2
(exit.c:351), and the SError to inject. -/
structure Handles (s s' : St) : Prop where
  hwSys : ∀ r, r ∉ injected → s'.hw.sys r = s.hw.sys r
  rcSys : ∀ r, r ≠ .cptr2 → s'.rc.sys r = s.rc.sys r
  pmu : s'.hw.pmu = s.hw.pmu
  gic : s'.hw.gic = s.hw.gic
  key : s'.hw.key = s.hw.key
  rest : s'.rc.gic = s.rc.gic ∧ s'.rc.pmu = s.rc.pmu ∧ s'.rc.key = s.rc.key ∧ s'.rc.pmuEn = s.rc.pmuEn ∧
    s'.rc.num = s.rc.num

/-- One round in which the realm runs: timers, entry, the realm, exit, handling. -/
def Round (e : Env) (apia : Nat → W) (s s' : St) : Prop :=
  ∃ s1 h, Timers s s1 ∧ RealmRuns e s1.rc (toRealm s1).hw h ∧
    Handles (fromRealm e apia (s.hw.sys .cptr2) { hw := h, rc := (toRealm s1).rc }) s'

/-- The `do … while` of `rec_run_loop`: /repo/runtime/core/run.c:292-334. It ends after any number of rounds, either because
a timer changed or because `handle_realm_exit` says so. -/
inductive Loop (e : Env) (apia : Nat → W) : St → St → Prop
  | timer {s s'} : Timers s s' → Loop e apia s s'
  | last {s s'} : Round e apia s s' → Loop e apia s s'
  | more {s s' s''} : Round e apia s s' → Loop e apia s' s'' → Loop e apia s s''

/-- `rec_run_loop`: run.c:259-370, without the slot buffers (`Verif.Slot`), the heap (`Verif.Heap`) and SIMD
(`Verif.Simd`), of which only `SIMD_DISABLE_ALL_CPTR_FLAGS` is here. -/
def Run (e : Env) (apia : Nat → W) (s : St) (n : Ns) (s' : St) (n' : Ns) : Prop :=
  n' = saveNs e s.rc s.hw n ∧
  ∃ s1 cptr, Loop e apia { hw := restoreRealm e s.rc s.hw, rc := s.rc } s1 ∧
    let v := saveRealm e s1.hw { s1.rc with sys := upd s1.rc.sys .cptr2 cptr }
    s' = { hw := restoreNs e v.2.1 n' v.1, rc := v.2.1 }

/-- What RMM may do to a REC between two runs, in REC_ENTER before the loop: the exception and general registers, the list
registers and HCR_EL2's trap bits from the host, the timer mask. The PMU, the keys and everything else stay. -/
structure Between (c c' : Rec) : Prop where
  sys : ∀ r, r ∉ injected → r ≠ .cptr2 → r ≠ .hcr2 → r ≠ .cnthctl2 → c'.sys r = c.sys r
  gic : c'.gic.ap0r = c.gic.ap0r ∧ c'.gic.ap1r = c.gic.ap1r ∧ c'.gic.vmcr = c.gic.vmcr
  pmu : c'.pmu = c.pmu
  key : c'.key = c.key
  en : c'.pmuEn = c.pmuEn ∧ c'.num = c.num

/-! ## What must survive -/

/-- EL2 registers that EL3 restores for the host (DESIGN.md, trusted base); PMCR_EL0 is with the PMU. -/
def el3Restores : List Sys := [.vmpidr2, .elr2, .spsr2, .hcr2, .mdcr2, .vtcr2, .vttbr2, .vsesr2, .vdisr2]

/-- The PMU as the host left it, as far as `num` counters go. -/
structure SamePmu (num : Nat) (p q : Pmu) : Prop where
  pmcr : q.pmcr = p.pmcr
  ccntr : q.ccntr = p.ccntr
  ccfiltr : q.ccfiltr = p.ccfiltr
  cnten : q.cnten = p.cnten
  inten : q.inten = p.inten
  ovs : q.ovs = p.ovs
  selr : q.selr = p.selr
  userenr : q.userenr = p.userenr
  ctr : ∀ i, i < num → q.cntr i = p.cntr i ∧ q.typer i = p.typer i

/-- The system registers a realm can read or write (or that act on it) that the switch gives back to it. DISR_EL1 is the
physical register: for what the realm reads under that name see `Verif.Switch.disrSeen`. -/
def realmRegs : List Sys := [
  .spEl1, .elr1, .spsr1, .tpidrro0, .tpidr0, .csselr1, .sctlr1, .sctlr2_1, .actlr1, .cpacr1, .ttbr0_1, .ttbr1_1, .tcr1,
  .esr1, .afsr0_1, .afsr1_1, .far1, .mair1, .vbar1, .contextidr1, .tpidr1, .amair1, .cntkctl1, .par1, .mdscr1,
  .mdccint1, .disr1, .mpam0_1, .cntpoff2, .cntvoff2, .cntpCtl, .cntpCval, .cntvCtl, .cntvCval, .elr2, .spsr2]

/-- The PMU as a realm with `num` counters sees it. -/
structure SameRealmPmu (num : Nat) (p q : Pmu) : Prop where
  pmcr : q.pmcr &&& PMCR_CTL = p.pmcr &&& PMCR_CTL
  ccntr : q.ccntr = p.ccntr
  ccfiltr : q.ccfiltr = p.ccfiltr
  cnten : q.cnten = p.cnten
  inten : q.inten = p.inten
  ovs : q.ovs = p.ovs
  selr : q.selr = p.selr
  userenr : q.userenr = p.userenr
  ctr : ∀ i, i < num → q.cntr i = p.cntr i ∧ q.typer i = p.typer i

/-- The GIC's virtual interface as a realm sees it. -/
structure SameGic (e : Env) (g k : Gic) : Prop where
  lr : ∀ i, i ≤ e.nrLrs → k.lr i = g.lr i
  apr : ∀ i, i ≤ e.nrAprs → k.ap0r i = g.ap0r i ∧ k.ap1r i = g.ap1r i
  vmcr : k.vmcr = g.vmcr
  hcr : k.hcr = g.hcr

end Verif.Switch
