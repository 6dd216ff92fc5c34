import Verif.Switch.Props
import Verif.Vtcr.Model
import Verif.Leaf.Mpidr
import Verif.Leaf.Gic

/-!
# What a realm finds at the first instruction of a REC (C83)

REC_CREATE sets a few fields of `struct rec` and relies on the granules being zero for the others; REC_ENTER and the
world switch then load the CPU. Here the two are put together: what the realm sees at its first instruction is fixed by
the parameters of REC_CREATE and nothing else, on any CPU and whatever ran there before.
-/

namespace Verif.Switch

/-! ## REC_CREATE -/

/-- What `init_rec_regs` takes of `struct rmi_rec_params`: /repo/lib/smc/include/smc-rmi.h:678-693. -/
structure Params where
  gprs : Nat → W
  pc : W
  mpidr : W

/-- What it takes of the realm descriptor: `pmu_enabled`, `pmu_num_ctrs`, and the values computed for VTCR_EL2 and
VTTBR_EL2 (/repo/runtime/rmi/rec.c:70-125; C51). -/
structure Rd where
  pmu : Bool
  ctrs : Nat
  vtcr : W
  vttbr : W

/-- `struct rec` with `common_sysregs.hcr_el2`, which `Rec` does not have. -/
structure Page where
  rc : Rec
  hcr : W

def zeroGic : Gic := { lr := fun _ => 0, ap0r := fun _ => 0, ap1r := fun _ => 0, vmcr := 0, hcr := 0, misr := 0 }

def zeroPmu : PmuS :=
  { ccfiltr := 0, ccntr := 0, cntenset := 0, cntenclr := 0, intenset := 0, intenclr := 0, ovsset := 0, ovsclr := 0,
    selr := 0, userenr := 0, xevcntr := 0, xevtyper := 0, evcntr := fun _ => 0, evtyper := fun _ => 0 }

/-- A granule of zeros as `struct rec`, and one as `struct pmu_state`: REC_CREATE takes granules that were DELEGATED, and
those are zero (C07). -/
def zeroPage : Page where
  rc := { sys := fun _ => 0, gic := zeroGic, pmu := zeroPmu, key := fun _ => 0, regs := fun _ => 0, inject := false
          vsesr := 0, pmuEn := false, num := 0 }
  hcr := 0

/-- `SCTLR_EL1_FLAGS`: /repo/lib/arch/include/arch.h:775-777, bits 752-766. -/
def SCTLR_EL1_FLAGS : W :=
  1#64 <<< 23 ||| 1#64 <<< 22 ||| 1#64 <<< 18 ||| 1#64 <<< 16 ||| 1#64 <<< 11 ||| 1#64 <<< 6 ||| 1#64 <<< 5 |||
    1#64 <<< 4 ||| 1#64 <<< 3

/-- `PMCR_EL0_INIT` and `PMCR_EL0_INIT_RESET`: arch.h:727-735. -/
def PMCR_INIT : W := 1#64 <<< 6 ||| 1#64 <<< 5
def PMCR_INIT_RESET : W := PMCR_INIT ||| 1#64 <<< 2 ||| 1#64 <<< 1

/-- `init_rec_sysregs`: rec.c:24-35. `c.pmuEn` is `rec->realm_info.pmu_enabled`. CNTHCTL_EL2_NO_TRAPS is arch.h:1076-1086,
CPTR_EL2_VHE_INIT arch.h:832-864, MDSCR_EL1_TDCC_BIT arch.h:743, VMPIDR_EL2_RES1 arch.h:981. -/
def initSysregs (c : Rec) (mpidr : W) : Rec :=
  let y := upd c.sys .pmcr (if c.pmuEn then PMCR_INIT_RESET else PMCR_INIT)
  let y := upd y .sctlr1 SCTLR_EL1_FLAGS
  let y := upd y .mdscr1 (1#64 <<< 12)
  let y := upd y .vmpidr2 (Mpidr.toEl1 mpidr ||| 1#64 <<< 31)
  let y := upd y .cnthctl2 (1#64 <<< 10 ||| 1#64 <<< 11)
  let y := upd y .cptr2 (1#64 <<< 28 ||| 1#64 <<< 30)
  { c with sys := y }

/-- `HCR_REALM_FLAGS`: arch.h:155-187. -/
def HCR_REALM : W :=
  1#64 <<< 46 ||| 1#64 <<< 34 ||| 1#64 <<< 31 ||| 1#64 <<< 19 ||| 1#64 <<< 5 ||| 1#64 <<< 10 ||| 1#64 <<< 4 |||
    1#64 <<< 3 ||| 1#64 <<< 2 ||| 1#64 <<< 1 ||| 1#64 <<< 0 ||| 1#64 <<< 18 ||| 1#64 <<< 37 ||| 1#64 <<< 41 |||
    1#64 <<< 40

/-- `init_common_sysregs`: rec.c:106-141. `m` is MDCR_EL2 of the CPU REC_CREATE runs on (C80). -/
def initCommon (p : Page) (d : Rd) (m : W) : Page :=
  let y := upd p.rc.sys .vtcr2 d.vtcr
  let y := upd y .vttbr2 d.vttbr
  let y := upd y .mdcr2 (Vtcr.mdcr m d.pmu d.ctrs)
  { rc := { p.rc with sys := y }, hcr := HCR_REALM }

/-- `init_rec_regs`: rec.c:143-169. REC_CREATE_NR_GPRS is 8 (smc-rmi.h:88). -/
def initRegs (p : Page) (a : Params) (d : Rd) (m : W) : Page :=
  let c := { p.rc with regs := (List.range 8).foldl (fun f i => upd f i (a.gprs i)) p.rc.regs }
  let c := { c with sys := upd c.sys .elr2 a.pc }
  let c := { c with sys := upd c.sys .spsr2 (5#64 ||| 1#64 <<< 6 ||| 1#64 <<< 7 ||| 1#64 <<< 8 ||| 1#64 <<< 9) }
  initCommon { p with rc := initSysregs c a.mpidr } d m

/-- `gic_cpu_state_init`: /repo/lib/gic/src/gic.c:123-130, gic.h:29, 57, 90. -/
def gicInit : Gic := { zeroGic with hcr := 1#64 <<< 0 ||| 1#64 <<< 8 ||| 1#64 <<< 15 }

/-- The part of `smc_rec_create` that fills the REC: rec.c:343-358. `realm_info` is set after `init_rec_regs` has used it. -/
def create (p : Page) (a : Params) (d : Rd) (m : W) : Page :=
  let p := initRegs p a d m
  let p := { p with rc := { p.rc with gic := gicInit } }
  { p with rc := { p.rc with pmuEn := d.pmu, num := d.ctrs } }

/-! ## PSCI_CPU_ON and REC_ENTER -/

/-- `complete_psci_cpu_on` with `psci_reset_rec`, when it succeeds: /repo/runtime/rsi/psci.c:94-109, 352-355. `sctlr` is the
caller's SCTLR_EL1. -/
def cpuOn (c : Rec) (entry ctx sctlr : W) : Rec :=
  let c := { c with sys := upd c.sys .spsr2 (5#64 ||| 1#64 <<< 6 ||| 1#64 <<< 7 ||| 1#64 <<< 8 ||| 1#64 <<< 9) }
  let c := { c with sys := upd c.sys .sctlr1 SCTLR_EL1_FLAGS }
  let c := { c with sys := upd c.sys .sctlr1 (c.sys .sctlr1 ||| (sctlr &&& 1#64 <<< 25)) }
  let c := { c with regs := upd c.regs 0 ctx }
  { c with sys := upd c.sys .elr2 entry }

/-- What the host passes to REC_ENTER that reaches a REC that has not run: `struct rmi_rec_enter`. -/
structure Enter where
  twi : Bool
  twe : Bool
  lrs : Nat → W
  hcr : W

/-- `smc_rec_enter` up to the loop, for a REC that has not run: /repo/runtime/rmi/run.c:274-313. Its `last_run_info`,
`set_ripas` and `host_call` are zero, so the `complete_…` functions change nothing (run.c:22-170): with the flags
INJECT_SEA or EMUL_MMIO the call fails. `gic_copy_state_from_rec_entry` is gic.c:132-145. -/
def firstEnter (e : Env) (p : Page) (x : Enter) : Rec :=
  let g := { p.rc.gic with lr := (List.range (e.nrLrs + 1)).foldl (fun f i => upd f i (x.lrs i)) p.rc.gic.lr }
  let g := { g with hcr := (g.hcr &&& ~~~ Gic.NS_MASK) ||| (x.hcr &&& Gic.NS_MASK) }
  let v := p.hcr
  let v := if x.twi then v ||| 1#64 <<< 13 else v
  let v := if x.twe then v ||| 1#64 <<< 14 else v
  { p.rc with gic := g, sys := upd p.rc.sys .hcr2 v }

/-! ## Specification -/

/-- What realm code of a REC finds at its first instruction: `x i` is the value of general register `i`, all others are
zero. -/
structure Start (e : Env) (x : Nat → W) (pc sctlr : W) (idx : W) (d : Rd) (host : Enter) (h : Hw) : Prop where
  gpr : ∀ i, i < 8 → h.x i = x i
  clear : ∀ i, 8 ≤ i → i ≤ 30 → h.x i = 0
  sp : h.sys .spEl0 = 0
  pc : h.sys .elr2 = pc
  /-- EL1 with its own stack pointer, AArch64, all exceptions masked, every other flag clear -/
  pstate : h.sys .spsr2 = 0x3C5
  sctlr : h.sys .sctlr1 = sctlr
  mdscr : h.sys .mdscr1 = 0x1000
  other : ∀ r ∈ realmRegs, r ∉ [Sys.elr2, .spsr2, .sctlr1, .mdscr1] → present e r → h.sys r = 0
  /-- the MPIDR_EL1 the realm reads is that of the REC's index -/
  mpidr : Mpidr.el1ToIdx (h.sys .vmpidr2) = idx
  mpidr1 : ∀ i, (h.sys .vmpidr2).getLsbD i = true → i = 31 ∨ i < 4 ∨ (8 ≤ i ∧ i < 24) ∨ (32 ≤ i ∧ i < 40)
  key : ∀ i, i < 10 → h.key i = 0
  apr : ∀ i, i ≤ e.nrAprs → h.gic.ap0r i = 0 ∧ h.gic.ap1r i = 0
  vmcr : h.gic.vmcr = 0
  lr : ∀ i, i ≤ e.nrLrs → h.gic.lr i = host.lrs i
  /-- of ICH_HCR_EL2 the host has only its own bits -/
  hcr : ∀ i, h.gic.hcr.getLsbD i =
    if Gic.Spec.hostBit i then host.hcr.getLsbD i else decide (i = 0 ∨ i = 8 ∨ i = 15)
  /-- the PMU counts nothing, has counted nothing and interrupts nobody -/
  pmu : d.pmu = true → h.pmu.pmcr &&& PMCR_CTL = 0x60 ∧ h.pmu.ccntr = 0 ∧ h.pmu.ccfiltr = 0 ∧ h.pmu.cnten = 0 ∧
    h.pmu.inten = 0 ∧ h.pmu.ovs = 0 ∧ h.pmu.selr = 0 ∧ h.pmu.userenr = 0 ∧
    ∀ i, i < d.ctrs → h.pmu.cntr i = 0 ∧ h.pmu.typer i = 0
  /-- stage 2 is that of the realm -/
  vtcr : h.sys .vtcr2 = d.vtcr
  vttbr : h.sys .vttbr2 = d.vttbr
  /-- SIMD, SVE, SME, trace and activity monitors trap -/
  cptr : h.sys .cptr2 = 0x50000000
  /-- and the host has only the traps of WFI and WFE of HCR_EL2 -/
  hcr2 : ∀ i, (h.sys .hcr2).getLsbD i = (decide (i ∈ [0, 1, 2, 3, 4, 5, 10, 18, 19, 31, 34, 37, 40, 41, 46]) ||
    (decide (i = 13) && host.twi) || (decide (i = 14) && host.twe))

/-! ## Proofs -/

theorem upd8 {f g : Nat → W} (i : Nat) :
    (List.range 8).foldl (fun f i => upd f i (g i)) f i = if i < 8 then g i else f i := by
  rw [foldl_upd]; simp

theorem upds {f g : Nat → W} (n i : Nat) :
    (List.range n).foldl (fun f i => upd f i (g i)) f i = if i < n then g i else f i := by
  rw [foldl_upd]; simp

/-- The fields a REC has when it is entered first, after REC_CREATE and perhaps CPU_ON. -/
structure Fresh (e : Env) (x : Nat → W) (pc sctlr mpidr m : W) (d : Rd) (host : Enter) (c : Rec) : Prop where
  regs : ∀ i, c.regs i = if i < 8 then x i else 0
  sys : ∀ r, c.sys r = match r with
    | .pmcr => 0x60 | .sctlr1 => sctlr | .mdscr1 => 0x1000 | .vmpidr2 => Mpidr.toEl1 mpidr ||| 1#64 <<< 31
    | .cnthctl2 => 0xC00 | .cptr2 => 0x50000000 | .vtcr2 => d.vtcr | .vttbr2 => d.vttbr
    | .mdcr2 => Vtcr.mdcr m d.pmu d.ctrs | .elr2 => pc | .spsr2 => 0x3C5
    | .hcr2 => (if host.twe then (if host.twi then HCR_REALM ||| 1#64 <<< 13 else HCR_REALM) ||| 1#64 <<< 14
        else if host.twi then HCR_REALM ||| 1#64 <<< 13 else HCR_REALM)
    | _ => 0
  gic : c.gic = { zeroGic with
    lr := fun i => if i < e.nrLrs + 1 then host.lrs i else 0
    hcr := (0x8101 &&& ~~~ Gic.NS_MASK) ||| (host.hcr &&& Gic.NS_MASK) }
  pmu : c.pmu = zeroPmu
  key : ∀ i, c.key i = 0
  inject : c.inject = false
  en : c.pmuEn = d.pmu
  num : c.num = d.ctrs

theorem gic_fresh (e : Env) (host : Enter) : { ({ gicInit with
      lr := (List.range (e.nrLrs + 1)).foldl (fun f i => upd f i (host.lrs i)) gicInit.lr } : Gic) with
      hcr := (gicInit.hcr &&& ~~~ Gic.NS_MASK) ||| (host.hcr &&& Gic.NS_MASK) } = { zeroGic with
    lr := fun i => if i < e.nrLrs + 1 then host.lrs i else 0
    hcr := (0x8101 &&& ~~~ Gic.NS_MASK) ||| (host.hcr &&& Gic.NS_MASK) } := by
  have : (List.range (e.nrLrs + 1)).foldl (fun f i => upd f i (host.lrs i)) gicInit.lr =
      fun i => if i < e.nrLrs + 1 then host.lrs i else 0 := by
    funext i; rw [upds]; rfl
  rw [this]
  rfl

theorem create_fresh (e : Env) (a : Params) (d : Rd) (m : W) (host : Enter) :
    Fresh e a.gprs a.pc 0xC50878 a.mpidr m d host (firstEnter e (create zeroPage a d m) host) := by
  refine ⟨fun i => ?_, fun r => ?_, gic_fresh e host, rfl, fun _ => rfl, rfl, rfl, rfl⟩
  · show (List.range 8).foldl (fun f i => upd f i (a.gprs i)) (fun _ => 0) i = _
    rw [upd8]
  · cases r <;> rfl

theorem on_fresh (e : Env) (a : Params) (d : Rd) (m : W) (host : Enter) (entry ctx sctlr : W) :
    Fresh e (fun i => if i = 0 then ctx else a.gprs i) entry (0xC50878 ||| (sctlr &&& 0x2000000)) a.mpidr m d host
      (firstEnter e { create zeroPage a d m with rc := cpuOn (create zeroPage a d m).rc entry ctx sctlr } host) := by
  refine ⟨fun i => ?_, fun r => ?_, gic_fresh e host, rfl, fun _ => rfl, rfl, rfl, rfl⟩
  · show upd ((List.range 8).foldl (fun f i => upd f i (a.gprs i)) (fun _ => 0)) 0 ctx i = _
    unfold upd
    split
    · rename_i h; subst h; rfl
    · exact upd8 i
  · cases r <;> rfl

theorem fresh_recOk {e : Env} {x : Nat → W} {pc sctlr mpidr m : W} {d : Rd} {host : Enter} {c : Rec}
    (h : Fresh e x pc sctlr mpidr m d host c) (hn : d.ctrs ≤ e.nctr) : RecOk e c := by
  refine ⟨by rw [h.num]; exact hn, ?_, ?_, ?_, ?_⟩
  · have hp : c.sys .pmcr = 0x60 := h.sys .pmcr
    rw [hp]; exact ⟨by decide, by decide⟩
  all_goals rw [h.pmu]; exact ⟨rfl, BitVec.zero_and⟩

theorem vmpidr_bits (m : W) : Mpidr.el1ToIdx (Mpidr.toEl1 m ||| 1#64 <<< 31) = Mpidr.toIdx m ∧
    ∀ i, (Mpidr.toEl1 m ||| 1#64 <<< 31).getLsbD i = true → i = 31 ∨ i < 4 ∨ (8 ≤ i ∧ i < 24) ∨ (32 ≤ i ∧ i < 40) := by
  constructor
  · rw [← Mpidr.C25_el1_index m]
    have k : ∀ c : W, (1#64 <<< 31 : W) &&& c = 0 → (Mpidr.toEl1 m ||| 1#64 <<< 31) &&& c = Mpidr.toEl1 m &&& c := by
      intro c hc
      rw [BitVec.and_comm, BitVec.and_or_distrib_left, BitVec.and_comm c (1#64 <<< 31), hc]
      exact BitVec.or_zero.trans (BitVec.and_comm _ _)
    unfold Mpidr.el1ToIdx
    rw [k _ (by decide), k _ (by decide), k _ (by decide), k _ (by decide)]
  · intro i h
    rw [BitVec.getLsbD_or, Mpidr.toEl1_bit] at h
    by_cases hi : i < 64
    · have : ∀ k : Fin 64, (1#64 <<< 31 : W).getLsbD k = decide (k.val = 31) := by decide
      rw [this ⟨i, hi⟩] at h
      by_cases h1 : i = 31
      · exact Or.inl h1
      · simp only [h1, decide_false, Bool.or_false] at h
        grind
    · exfalso
      rw [BitVec.getLsbD_of_ge (1#64 <<< 31) _ (by omega)] at h
      grind

theorem fresh_start {e : Env} (he : Fine e) {x : Nat → W} {pc sctlr mpidr m : W} {d : Rd} {host : Enter} {c : Rec}
    (h : Fresh e x pc sctlr mpidr m d host c) (hn : d.ctrs ≤ e.nctr) {k : Hw} (hk : PmuOk e k.pmu) {s : St}
    (ht : Timers { hw := restoreRealm e c k, rc := c } s) :
    Start e x pc sctlr (Mpidr.toIdx mpidr) d host (toRealm s).hw := by
  obtain ⟨l1, l2, l3, _, l5, l6, l7, l8⟩ := C62_loaded he c k ht
  have g1 := l8.lr
  have g2 := l8.apr
  have g3 := l8.vmcr
  have g4 := l8.hcr
  rw [h.gic] at g1 g2 g3 g4
  have hv := l2 .vmpidr2 (by decide)
  rw [h.sys] at hv
  constructor
  case gpr => intro i hi; rw [l6 i (by omega), h.regs, if_pos hi]
  case clear => intro i hi h3; rw [l6 i h3, h.regs, if_neg (by omega)]
  case sp => rw [l7, h.regs]; rfl
  case pc => rw [l1 _ (by decide) rfl, h.sys]
  case pstate => rw [l1 _ (by decide) rfl, h.sys]
  case sctlr => rw [l1 _ (by decide) rfl, h.sys]
  case mdscr => rw [l1 _ (by decide) rfl, h.sys]
  case other =>
    intro r hr h1 h2
    rw [l1 r hr h2, h.sys]
    revert hr h1
    clear h2
    cases r <;> simp [realmRegs]
  case mpidr => rw [hv]; exact (vmpidr_bits mpidr).1
  case mpidr1 => rw [hv]; exact (vmpidr_bits mpidr).2
  case key => intro i hi; rw [l5 i hi, h.key]
  case apr => intro i hi; exact g2 i hi
  case vmcr => exact g3
  case lr => intro i hi; rw [g1 i hi]; exact if_pos (by omega)
  case hcr =>
    intro i
    rw [g4]
    simp only [BitVec.getLsbD_or, BitVec.getLsbD_and]
    by_cases hi : i < 64
    · have e1 : Gic.NS_MASK.getLsbD i = Gic.Spec.hostBit i := Gic.ns_bits ⟨i, hi⟩
      have e2 : ∀ k : Fin 64, ((0x8101 : W) &&& ~~~ Gic.NS_MASK).getLsbD k =
        (! Gic.Spec.hostBit k && decide (k.val = 0 ∨ k.val = 8 ∨ k.val = 15)) := by decide
      have e3 := e2 ⟨i, hi⟩
      rw [BitVec.getLsbD_and] at e3
      rw [e3, e1]
      cases Gic.Spec.hostBit i <;> simp
    · rw [BitVec.getLsbD_of_ge _ _ (by omega), BitVec.getLsbD_of_ge Gic.NS_MASK _ (by omega),
        BitVec.getLsbD_of_ge host.hcr _ (by omega)]
      have : ¬ (i = 0 ∨ i = 8 ∨ i = 15) := by omega
      simp [this]
  case pmu =>
    intro hd
    have hr := fresh_recOk h hn
    obtain ⟨a1, a2, a3, a4, a5, a6, a7, a8, a9⟩ := restored_pmu he hk hr (h.en.trans hd)
    rw [(toRealm_hw s).1, ht.pmu]
    have hp : c.sys .pmcr = 0x60 := h.sys .pmcr
    rw [hp] at a1
    rw [h.pmu] at a2 a3 a4 a5 a6 a7 a8 a9
    rw [h.num] at a9
    refine ⟨a1.trans (by decide), a2, ?_, a4, a5, a6, a7, a8, a9⟩
    rw [a3]
    split
    · rfl
    · split <;> rfl
  case vtcr => rw [l2 _ (by decide), h.sys]
  case vttbr => rw [l2 _ (by decide), h.sys]
  case cptr => rw [l2 _ (by decide), h.sys]
  case hcr2 =>
    intro i
    rw [l3, h.inject, h.sys]
    simp only [Bool.false_eq_true, if_false]
    by_cases hi : i < 64
    · have hh : ∀ k : Fin 64, HCR_REALM.getLsbD k =
        decide (k.val ∈ [0, 1, 2, 3, 4, 5, 10, 18, 19, 31, 34, 37, 40, 41, 46]) := by decide
      have h13 : ∀ k : Fin 64, (1#64 <<< 13 : W).getLsbD k = decide (k.val = 13) := by decide
      have h14 : ∀ k : Fin 64, (1#64 <<< 14 : W).getLsbD k = decide (k.val = 14) := by decide
      have hh := hh ⟨i, hi⟩
      have h13 := h13 ⟨i, hi⟩
      have h14 := h14 ⟨i, hi⟩
      cases host.twi <;> cases host.twe <;>
        simp only [Bool.false_eq_true, if_false, if_true, BitVec.getLsbD_or, hh, h13, h14, Bool.and_false, Bool.and_true,
          Bool.or_false]
    · rw [BitVec.getLsbD_of_ge _ _ (by omega)]
      have e1 : ¬ i = 13 := by omega
      have e2 : ¬ i = 14 := by omega
      have e3 : ¬ i ∈ [0, 1, 2, 3, 4, 5, 10, 18, 19, 31, 34, 37, 40, 41, 46] := by simp; omega
      simp [e1, e2, e3]

/-! ## The theorems -/

/-- C83: the first time a REC made by REC_CREATE is entered, on any CPU and whatever its registers hold, the realm finds
the general registers and PC of the parameters, and everything else it can see as the specification says. `m` is
MDCR_EL2 of the CPU that made the REC, `k` the CPU that enters it. -/
theorem C83_start_partial {e : Env} (he : Fine e) (a : Params) (d : Rd) (m : W) (host : Enter) (hn : d.ctrs ≤ e.nctr) {k : Hw}
    (hk : PmuOk e k.pmu) {s : St}
    (ht : Timers { hw := restoreRealm e (firstEnter e (create zeroPage a d m) host) k
                   rc := firstEnter e (create zeroPage a d m) host } s) :
    Start e a.gprs a.pc 0xC50878 (Mpidr.toIdx a.mpidr) d host (toRealm s).hw :=
  fresh_start he (create_fresh e a d m host) hn hk ht

/-- C83: the same for a REC that another REC of the realm has started with PSCI_CPU_ON: PC and X0 are the caller's, and so
is the byte order; the MMU and the caches are off. X1 to X7 are those the host gave to REC_CREATE. -/
theorem C83_on_partial {e : Env} (he : Fine e) (a : Params) (d : Rd) (m : W) (host : Enter) (hn : d.ctrs ≤ e.nctr)
    (entry ctx sctlr : W) {k : Hw} (hk : PmuOk e k.pmu) {s : St}
    (ht : let c := firstEnter e { create zeroPage a d m with rc := cpuOn (create zeroPage a d m).rc entry ctx sctlr } host
          Timers { hw := restoreRealm e c k, rc := c } s) :
    Start e (fun i => if i = 0 then ctx else a.gprs i) entry (0xC50878 ||| (sctlr &&& 0x2000000)) (Mpidr.toIdx a.mpidr) d
      host (toRealm s).hw :=
  fresh_start he (on_fresh e a d m host entry ctx sctlr) hn hk ht

/-- C83: a REC that had run, switched itself off and is started again also gets its PC, X0, PSTATE and SCTLR_EL1 afresh,
and finds everything else as it left it. -/
theorem C83_again (c : Rec) (entry ctx sctlr : W) :
    (cpuOn c entry ctx sctlr).sys .elr2 = entry ∧ (cpuOn c entry ctx sctlr).sys .spsr2 = 0x3C5 ∧
    (cpuOn c entry ctx sctlr).sys .sctlr1 = 0xC50878 ||| (sctlr &&& 0x2000000) ∧
    (∀ r, r ≠ .elr2 → r ≠ .spsr2 → r ≠ .sctlr1 → (cpuOn c entry ctx sctlr).sys r = c.sys r) ∧
    (cpuOn c entry ctx sctlr).regs 0 = ctx ∧ (∀ i, i ≠ 0 → (cpuOn c entry ctx sctlr).regs i = c.regs i) ∧
    cpuOn c entry ctx sctlr =
      { c with sys := (cpuOn c entry ctx sctlr).sys, regs := (cpuOn c entry ctx sctlr).regs } := by
  refine ⟨rfl, rfl, rfl, fun r h1 h2 h3 => ?_, rfl, fun i hi => ?_, rfl⟩
  · simp only [cpuOn, upd, if_neg h1, if_neg h2, if_neg h3]
  · simp only [cpuOn, upd, if_neg hi]

/-- What the constants of SCTLR_EL1 mean: MMU, alignment checks and caches off, little endian, and for a started REC the
caller's byte order. -/
theorem C83_sctlr (sctlr : W) :
    (∀ i ∈ [0, 1, 2, 12, 19, 25, 31], (0xC50878 : W).getLsbD i = false) ∧
    ∀ i, (0xC50878 ||| (sctlr &&& 0x2000000) : W).getLsbD i =
      if i = 25 then sctlr.getLsbD 25 else (0xC50878 : W).getLsbD i := by
  refine ⟨by decide, fun i => ?_⟩
  rw [BitVec.getLsbD_or, BitVec.getLsbD_and]
  by_cases hi : i < 64
  · have : ∀ k : Fin 64, (0x2000000 : W).getLsbD k = decide (k.val = 25) := by decide
    rw [this ⟨i, hi⟩]
    split
    · rename_i h; subst h; simp
    · rename_i h; simp [h]
  · rw [BitVec.getLsbD_of_ge sctlr _ (by omega)]
    have : ¬ i = 25 := by omega
    simp [this]

/-- C83: the zeroes matter. A register that REC_CREATE does not set is, in the REC, what the granule held. -/
theorem C83_zero_needed (p : Page) (a : Params) (d : Rd) (m : W) :
    (∀ r, r ∉ [Sys.pmcr, .sctlr1, .mdscr1, .vmpidr2, .cnthctl2, .cptr2, .vtcr2, .vttbr2, .mdcr2, .elr2, .spsr2] →
      (create p a d m).rc.sys r = p.rc.sys r) ∧
    (∀ i, 8 ≤ i → (create p a d m).rc.regs i = p.rc.regs i) ∧
    (create p a d m).rc.key = p.rc.key ∧ (create p a d m).rc.pmu = p.rc.pmu := by
  refine ⟨fun r hr => ?_, fun i hi => ?_, rfl, rfl⟩
  · revert hr
    cases r <;> simp [create, initRegs, initSysregs, initCommon, upd]
  · show (List.range 8).foldl (fun f i => upd f i (a.gprs i)) p.rc.regs i = _
    rw [upd8, if_neg (by omega)]

/-- A REC from its creation on: REC_CREATE, PSCI_CPU_ON by another REC, what REC_ENTER does before the loop, and runs. -/
inductive Life (e : Env) (apia : Nat → W) (a : Params) (d : Rd) : Rec → Prop
  | create (m : W) : Life e apia a d (create zeroPage a d m).rc
  | on {c} (entry ctx sctlr : W) : Life e apia a d c → Life e apia a d (cpuOn c entry ctx sctlr)
  | enter {c c'} : Life e apia a d c → Between c c' → Life e apia a d c'
  | run {s s' n n'} : Life e apia a d s.rc → PmuOk e s.hw.pmu → Run e apia s n s' n' → Life e apia a d s'.rc

theorem first_between (e : Env) (p : Page) (x : Enter) : Between p.rc (firstEnter e p x) := by
  refine ⟨fun r _ _ h _ => ?_, ⟨rfl, rfl, rfl⟩, rfl, rfl, rfl, rfl⟩
  simp [firstEnter, upd, h]

/-- C83: REC_CREATE makes a REC that the world switch can rely on, and all its life it stays one. -/
theorem C83_recOk {e : Env} {apia : Nat → W} {a : Params} {d : Rd} (hn : d.ctrs ≤ e.nctr) {c : Rec}
    (h : Life e apia a d c) : RecOk e c ∧ c.pmuEn = d.pmu ∧ c.num = d.ctrs := by
  induction h with
  | create m =>
    refine ⟨⟨hn, ⟨(by decide : PMCR_INIT &&& PMCR_P = 0), (by decide : PMCR_INIT &&& PMCR_C = 0)⟩, ⟨rfl, BitVec.zero_and⟩, ⟨rfl, BitVec.zero_and⟩,
      ⟨rfl, BitVec.zero_and⟩⟩, rfl, rfl⟩
  | on entry ctx sctlr _ ih =>
    obtain ⟨⟨h1, h2, h3, h4, h5⟩, h6, h7⟩ := ih
    exact ⟨⟨h1, h2, h3, h4, h5⟩, h6, h7⟩
  | enter _ hb ih =>
    obtain ⟨⟨h1, h2, h3, h4, h5⟩, h6, h7⟩ := ih
    have hp := hb.sys .pmcr (by decide) (by decide) (by decide) (by decide)
    exact ⟨⟨by rw [hb.en.2]; exact h1, by rw [hp]; exact h2, by rw [hb.pmu]; exact h3, by rw [hb.pmu]; exact h4,
      by rw [hb.pmu]; exact h5⟩, hb.en.1.trans h6, hb.en.2.trans h7⟩
  | run _ hp hr ih =>
    obtain ⟨s1, cptr, k, _, h2, h3, _⟩ := run_facts hp hr
    exact ⟨C62_recOk hp ih.1 hr, h2.trans ih.2.1, h3.trans ih.2.2⟩

/-- C83: `init_rec_sysregs` asks `rec->realm_info.pmu_enabled` before `smc_rec_create` sets it, so the PMCR_EL0 that
resets the counters (PMCR_EL0_INIT_RESET) is never used, PMU or not; and no REC ever has P or C set in PMCR_EL0. The
realm's counters start at zero all the same (`C83_start_partial`), and the host's are not reset. -/
theorem C83_no_reset {e : Env} {apia : Nat → W} {a : Params} {d : Rd} (hn : d.ctrs ≤ e.nctr) :
    (∀ m, (create zeroPage a d m).rc.sys .pmcr = PMCR_INIT) ∧
    ∀ c, Life e apia a d c → (c.sys .pmcr).getLsbD 1 = false ∧ (c.sys .pmcr).getLsbD 2 = false := by
  refine ⟨fun m => rfl, fun c h => ?_⟩
  obtain ⟨q1, q2⟩ := (C83_recOk hn h).1.quiet
  have a1 := congrArg (fun w : W => w.getLsbD 1) q1
  have a2 := congrArg (fun w : W => w.getLsbD 2) q2
  rw [BitVec.getLsbD_and] at a1 a2
  have b1 : PMCR_P.getLsbD 1 = true := by decide
  have b2 : PMCR_C.getLsbD 2 = true := by decide
  rw [b1, Bool.and_true] at a1
  rw [b2, Bool.and_true] at a2
  exact ⟨a1.trans (by decide), a2.trans (by decide)⟩

namespace Demo

def params : Params := { gprs := fun i => 0x70 + BitVec.ofNat 64 i, pc := 0x80000000, mpidr := 0x102 }
def rd : Rd := { pmu := true, ctrs := 2, vtcr := 0x80000018, vttbr := 0x1000000088000000 }
def enter : Enter := { twi := true, twe := false, lrs := fun i => if i = 0 then 0x9000000000000020 else 0, hcr := 2 }

/-- The second REC: MPIDR 0x102 is index 18. -/
example : ∃ h : Hw, Start env params.gprs 0x80000000 0xC50878 18 rd enter h ∧ h.x 3 = 0x73 ∧ h.x 8 = 0 ∧ h.sys .ttbr0_1 = 0 ∧
    host.sys .ttbr0_1 = 0x4000 := by
  have h := C83_start_partial fine params rd 7 enter (by decide) (k := host) hostOk (timers_refl _)
  exact ⟨_, h, h.gpr 3 (by decide), h.clear 8 (by decide) (by decide), h.other _ (by decide) (by decide) rfl, rfl⟩
example := C83_on_partial fine params rd 7 enter (by decide) 0x1000 5 0x2000001 (k := host) hostOk (timers_refl _)
example : (0xC50878 ||| (0x2000001 &&& 0x2000000) : W) = 0x2C50878 := by decide
/-- With the MMU on before, and off after. -/
example : ∃ c : Rec, (c.sys .sctlr1).getLsbD 0 = true ∧ ((cpuOn c 0x1000 5 1).sys .sctlr1).getLsbD 0 = false :=
  ⟨{ zeroPage.rc with sys := fun _ => 1 }, rfl, by rw [(C83_again _ _ _ _).2.2.1]; decide⟩
/-- A granule that was not cleared would show in the key registers. -/
example : (create { zeroPage with rc := { zeroPage.rc with key := fun _ => 0xDEAD } } params rd 7).rc.key 0 = 0xDEAD := by
  rw [(C83_zero_needed _ _ _ _).2.2.1]

/-- A REC's life with a run in it. -/
theorem life : ∃ c, Life env (fun _ => 5) params rd c := by
  have h0 : Life env (fun _ => 5) params rd (create zeroPage params rd 7).rc := .create 7
  exact ⟨_, .run (s := { hw := host, rc := (create zeroPage params rd 7).rc }) (n := ns) h0 hostOk
    ⟨rfl, _, 0, Loop.last ⟨_, realm _, timers_refl _, realm_runs
      (by rw [(toRealm_hw _).1]; exact restoreRealm_ok hostOk _) rfl (by decide), handles_refl _⟩, rfl⟩⟩
example : ∃ c, RecOk env c ∧ (c.sys .pmcr).getLsbD 1 = false := by
  obtain ⟨c, h⟩ := life
  exact ⟨c, (C83_recOk (by decide) h).1, ((C83_no_reset (by decide)).2 c h).1⟩

end Demo

end Verif.Switch
