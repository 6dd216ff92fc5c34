import Verif.Xlat.PropMap
import Verif.Boot.Start

/-
The configuration of the processor for the RMM's own address space: the
registers computed and written at start-up (`xlat_tables_arch.c`,
`enable_mmu.S`, `head.S`), the regions the RMM asks for
(`plat_common_init.c`, `arm_setup.c`, `xlat_high_va.c`), and, written from
the architecture, what the processor makes of the registers.
-/
namespace Verif.Xlat

/-! ### Registers -/

/-- A field of the ID register ID_AA64MMFR0_EL1 (`EXTRACT`). -/
def extract (r : BitVec 64) (lo w : Nat) : BitVec 64 := (r >>> lo) &&& BitVec.ofNat 64 (2 ^ w - 1)

/-- `read_id_aa64mmfr0_el0_tgran4` and `xlat_arch_is_granule_size_supported(SZ_4K)`
(lib/xlat/src/xlat_tables_arch.c:20-38; the field is bits 31:28,
lib/arch/include/arch.h:548-549). -/
def granule4k (mmfr0 : BitVec 64) : Bool := extract mmfr0 28 4 < 8#64

/-- `is_feat_lpa2_4k_present` (lib/arch/include/arch_features.h:101-105). -/
def lpa2Present (mmfr0 : BitVec 64) : Bool := extract mmfr0 28 4 == 1#64

/-- `arch_feat_get_pa_width`, with the assertion on the index
(lib/arch/src/arch_features.c, arch.h:511-520). -/
def paWidthOf (mmfr0 : BitVec 64) : Except Err Nat :=
  match [32, 36, 40, 42, 44, 48, 52][(extract mmfr0 0 4).toNat]? with
  | some w => .ok w
  | none => .error .assertion

/-- The processor features the library looks at, as read from the ID
register. -/
def cpuOf (mmfr0 : BitVec 64) : Except Err Cpu := do
  let w ← paWidthOf mmfr0
  pure { lpa2 := lpa2Present mmfr0, paWidth := w }

/-- `tcr_physical_addr_size_bits` (xlat_tables_arch.c:44-82); `none` is
`~0ULL`.  The value is placed at bit 32 (arch.h:130-138). -/
def psBits (lpa2 : Bool) (maxAddr : BitVec 64) : Option (BitVec 64) :=
  if maxAddr &&& 0xFFF0000000000000#64 ≠ 0#64 then none
  else if maxAddr &&& 0x000F000000000000#64 ≠ 0#64 then
    if lpa2 then some (6#64 <<< 32) else none
  else if maxAddr &&& 0x0000F00000000000#64 ≠ 0#64 then some (5#64 <<< 32)
  else if maxAddr &&& 0x00000C0000000000#64 ≠ 0#64 then some (4#64 <<< 32)
  else if maxAddr &&& 0x0000030000000000#64 ≠ 0#64 then some (3#64 <<< 32)
  else if maxAddr &&& 0x000000F000000000#64 ≠ 0#64 then some (2#64 <<< 32)
  else if maxAddr &&& 0x0000000F00000000#64 ≠ 0#64 then some (1#64 <<< 32)
  else some 0#64

/-- `struct xlat_mmu_cfg` (lib/xlat/include/xlat_tables.h). -/
structure MmuCfg where
  high : Bool
  mair : BitVec 64
  tcr : BitVec 64
  txsz : BitVec 64
  ttbrx : BitVec 64
deriving DecidableEq

/-- MAIR_EL2: Device-nGnRE at index 1, Normal write-back read/write-allocate at
index 0 (xlat_tables_arch.c:162-164, xlat_defs_private.h:74-94,
arch.h:211-255). -/
def mairVal : BitVec 64 := (0x04#64 <<< 8) ||| ((0xf#64 ||| (0xf#64 <<< 4)) <<< 0)

/-- The part of TCR_EL2 that does not depend on the sizes: walks are
write-back write-allocate and inner shareable in both halves, 16-bit ASIDs,
hierarchical permissions off, 4 KB granules, and with FEAT_LPA2 the DS bit and
the shareability of the half (xlat_tables_arch.c:174-199). -/
def tcrBase (lpa2 high : Bool) : BitVec 64 :=
  (1#64 <<< 8) ||| (1#64 <<< 10) ||| (3#64 <<< 12) |||
  (1#64 <<< 24) ||| (1#64 <<< 26) ||| (3#64 <<< 28) |||
  (1#64 <<< 36) ||| (1#64 <<< 41) ||| (1#64 <<< 42) |||
  (0#64 <<< 14) ||| (2#64 <<< 30) |||
  (if lpa2 then (1#64 <<< 59) ||| (if high then 3#64 <<< 28 else 3#64 <<< 12) else 0#64)

/-- `xlat_arch_setup_mmu_cfg` (xlat_tables_arch.c:133-234) for the context of
one half with `vaSize` bytes and tables at `addr`.  Pointers are taken to be
non-NULL. -/
def setupMmuCfg (mmfr0 : BitVec 64) (initialized high : Bool) (vaSize addr : Nat) :
    Except Err MmuCfg :=
  if granule4k mmfr0 = false then .error .eperm
  else if initialized = false then .error .einval
  else
    match paWidthOf mmfr0 with
    | .error e => .error e
    | .ok w =>
      match psBits (lpa2Present mmfr0) ((1#64 <<< w) - 1#64) with
      | none => .error .eperm
      | some ps =>
        let ttbrx := BitVec.ofNat 64 addr &&& 0x0000FFFFFFFFFFFE#64
        .ok { high := high
              mair := mairVal
              tcr := tcrBase (lpa2Present mmfr0) high ||| ps
              txsz := BitVec.ofNat 64 (txsz vaSize)
              ttbrx := if high then ttbrx &&& ~~~ 1#64 else ttbrx ||| 1#64 }

/-- The registers of one processing element that matter for stage 1 of the
EL2&0 regime, and its stack pointers. -/
structure Regs where
  mair : BitVec 64
  tcr : BitVec 64
  ttbr0 : BitVec 64
  ttbr1 : BitVec 64
  hcr : BitVec 64
  sctlr : BitVec 64
  sp : BitVec 64
  spEl0 : BitVec 64
deriving DecidableEq

/-- `SCTLR_EL2_INIT` (arch.h:772-819); `a` is the alignment check bit, set
unless the RMM uses floating point. -/
def SCTLR_EL2_INIT (a : Bool) : BitVec 64 :=
  (1#64 <<< 2) ||| (1#64 <<< 3) ||| (1#64 <<< 4) ||| (1#64 <<< 8) ||| (1#64 <<< 12) |||
  (1#64 <<< 14) ||| (1#64 <<< 15) ||| (1#64 <<< 16) ||| (1#64 <<< 18) ||| (1#64 <<< 19) |||
  (1#64 <<< 20) ||| (1#64 <<< 22) ||| (1#64 <<< 11) ||| (1#64 <<< 26) ||| (1#64 <<< 28) |||
  (1#64 <<< 29) ||| (if a then 1#64 <<< 1 else 0#64)

/-- The part of `rmm_el2_init_env` that sets registers: SCTLR_EL2 and HCR_EL2
(HCR_TGE, HCR_E2H, HCR_TEA) are overwritten, and the stack is the physical one
(runtime/core/aarch64/head.S:28-68, arch.h:189). -/
def initEnv (a : Bool) (stackPa : BitVec 64) (r : Regs) : Regs :=
  { r with
    sctlr := SCTLR_EL2_INIT a
    hcr := (1#64 <<< 27) ||| (1#64 <<< 34) ||| (1#64 <<< 37)
    sp := stackPa }

/-- `xlat_arch_write_mmu_cfg` (xlat_tables_arch.c:84-127). -/
def writeMmuCfg (cfg : MmuCfg) (r : Regs) : Except Err Regs :=
  if r.sctlr &&& 1#64 ≠ 0#64 then .error .assertion
  else
    let t0sz := if cfg.high then extract r.tcr 0 6 else cfg.txsz
    let t1sz := if cfg.high then cfg.txsz else extract r.tcr 16 6
    let tcr := cfg.tcr ||| (t0sz <<< 0) ||| (t1sz <<< 16)
    .ok (if cfg.high then { r with mair := cfg.mair, tcr := tcr, ttbr1 := cfg.ttbrx }
         else { r with mair := cfg.mair, tcr := tcr, ttbr0 := cfg.ttbrx })

/-- `xlat_enable_mmu_el2` (lib/xlat/src/aarch64/enable_mmu.S:15-52).  The TLB
invalidation and the barriers have no effect on the registers. -/
def enableMmu (bc : Boot.Cfg) (r : Regs) : Regs :=
  { r with
    hcr := r.hcr ||| (1#64 <<< 31)
    sctlr := r.sctlr ||| ((1#64 <<< 19) ||| 1#64)
    sp := Boot.stackEndVa
    spEl0 := Boot.ehEndVa bc }

/-! ### The regions -/

/-- `REGION_DEFAULT_GRANULARITY` (xlat_tables.h:43). -/
def defGran (c : Cpu) : Nat := bsz (maxBlockDepth c)

/-- `MAP_REGION_FLAT` (xlat_tables.h:60-65). -/
def flat (c : Cpu) (adr size : Nat) (attr : BitVec 64) : Region :=
  { basePa := adr, baseVa := adr, size := size, attr := attr, gran := defGran c }

/-- The symbols of the linker script that bound code, read-only data (with the
static translation tables) and writable data (runtime/linker.lds:20-83). -/
structure Image where
  codeS : Nat
  codeE : Nat
  roS : Nat
  roE : Nat
  rwS : Nat
  rwE : Nat
deriving DecidableEq

/-- `RMM_CODE`, `RMM_RO`, `RMM_RW` and `RMM_SHARED` with the address and size of
the shared buffer filled in (plat/common/src/plat_common_init.c:36-70, 122-140);
`MT_REALM` is zero and the shared buffer is one page
(lib/rmm_el3_ifc/include/rmm_el3_ifc.h:198-201). -/
def common (c : Cpu) (g : Image) (sharedPa : Nat) : List Region :=
  [ flat c g.codeS (wsub g.codeE g.codeS) MT_CODE,
    flat c g.roS (wsub g.roE g.roS) MT_RO_DATA,
    flat c g.rwS (wsub g.rwE g.rwS) MT_RW_DATA,
    { basePa := sharedPa, baseVa := wadd g.rwE 4096, size := 4096, attr := MT_RW_DATA,
      gran := defGran c } ]

/-- The memory map of `plat_cmn_setup`: the platform's regions go in front of
the common ones or behind them (plat_common_init.c:130-159). -/
def merge (c : Cpu) (g : Image) (sharedPa extra : Nat) (plat : List Region) :
    Except Err (List Region) :=
  if plat.length > extra then .error .erange
  else
    match plat with
    | [] => .ok (common c g sharedPa)
    | p :: _ =>
      if p.baseVa < g.codeS then .ok (plat ++ common c g sharedPa)
      else .ok (common c g sharedPa ++ plat)

/-- `plat_cmn_setup` (plat_common_init.c:116-190), the part that builds the
address space common to all processing elements. -/
def platCmnSetup (c : Cpu) (g : Image) (sharedPa extra : Nat) (plat : List Region)
    (vaSize addr num : Nat) (old : Nat → Nat → BitVec 64) : Except Err (List Region × Tabs) := do
  let rs ← merge c g sharedPa extra plat
  let s ← setup c false rs vaSize addr num old
  pure (rs, s)

/-- The region `plat_setup` of the Arm platforms passes on: the console's
registers, or, when the boot manifest names no console, the page at address
zero (plat/arm/src/arm_setup.c:17-20, 60-63, 78-103). -/
def armRegions (c : Cpu) (uart : Option Nat) : List Region :=
  [flat c (uart.getD 0) 4096 (MT_DEVICE ||| MT_RW)]

/-- `mm_regions_array[cpuid]`: the exception stack, the stack, and the slot
buffers, with the physical addresses of the stacks of this processing element
(lib/xlat/src/xlat_high_va.c:22-42, 99-118).  `stackPa` and `ehPa` are the ends
of the stacks, from `rmm_get_my_stack` and `rmm_get_my_eh_stack`. -/
def highRegions (bc : Boot.Cfg) (stackPa ehPa : Nat) : List Region :=
  [ { basePa := wsub ehPa 4096, baseVa := (Boot.ehVirt bc).toNat, size := 4096,
      attr := NG_DATA_ATTR, gran := 4096 },
    { basePa := wsub stackPa (bc.pages * 4096), baseVa := (Boot.stackVirt bc).toNat,
      size := bc.pages * 4096, attr := NG_DATA_ATTR, gran := 4096 },
    { basePa := 0, baseVa := Boot.slotVirt.toNat, size := 108 * 4096, attr := MT_TRANSIENT,
      gran := 4096 } ]

/-- `XLAT_HIGH_VA_SIZE` (lib/xlat/include/xlat_high_va.h:35). -/
def HIGH_VA_SIZE : Nat := 512 * 4096

/-! ### Start-up of one processing element -/

/-- `plat_cmn_warmboot_setup` with `xlat_high_va_setup` (plat_common_init.c:199-225,
xlat_high_va.c:93-150).  `lowAddr` is where the common tables are, `hiAddr` the
table of this processing element; `prev` is what an earlier start of the same
processing element built (`-EALREADY`). -/
def warmSetup (mmfr0 : BitVec 64) (c : Cpu) (bc : Boot.Cfg) (vaSize lowAddr : Nat)
    (stackPa ehPa hiAddr : Nat) (prev : Option Tabs) (old : Nat → Nat → BitVec 64) (r : Regs) :
    Except Err (Regs × Tabs) := do
  let low ← setupMmuCfg mmfr0 true false vaSize lowAddr
  let r1 ← writeMmuCfg low r
  let s ← match prev with
    | some s => pure s
    | none => setup c true (highRegions bc stackPa ehPa) HIGH_VA_SIZE hiAddr 1 old
  let hi ← setupMmuCfg mmfr0 true true HIGH_VA_SIZE hiAddr
  let r2 ← writeMmuCfg hi r1
  pure (r2, s)

/-- From the entry point of one processing element to the first instruction
with the MMU on (head.S:132-157): the registers at reset are arbitrary. -/
def startPe (mmfr0 : BitVec 64) (c : Cpu) (bc : Boot.Cfg) (a : Bool) (vaSize lowAddr : Nat)
    (stackPa ehPa hiAddr : Nat) (prev : Option Tabs) (old : Nat → Nat → BitVec 64) (r : Regs) :
    Except Err (Regs × Tabs) := do
  let (r1, s) ← warmSetup mmfr0 c bc vaSize lowAddr stackPa ehPa hiAddr prev old
    (initEnv a (BitVec.ofNat 64 stackPa) r)
  pure (enableMmu bc r1, s)

/-! ### What the processor makes of it -/

namespace Spec

/-- Bits `lo + w - 1 : lo` of a register. -/
def bits (x : BitVec 64) (lo w : Nat) : Nat := x.toNat / 2 ^ lo % 2 ^ w

/-- The same walk as `walk`, giving the last descriptor and how many levels
were left below it. -/
def walkWord (lpa2 : Bool) (m : Nat → BitVec 64) (va : Nat) :
    (d table i : Nat) → Option (Nat × BitVec 64)
  | 0, table, i =>
    let e := m (table + 8 * i)
    if e.toNat % 4 = 3 then some (0, e) else none
  | d + 1, table, i =>
    let e := m (table + 8 * i)
    if e.toNat % 4 = 3 then
      walkWord lpa2 m va d (outAddr lpa2 e) (va / 2 ^ (12 + 9 * d) % 512)
    else if e.toNat % 4 = 1 ∧ d + 1 ≤ (if lpa2 then 3 else 2) then some (d + 1, e)
    else none

/-- `TCR_EL2.IPS`: the size of output addresses.  52 bits need TCR_EL2.DS. -/
def psWidth (ds : Bool) : Nat → Nat
  | 0 => 32
  | 1 => 36
  | 2 => 40
  | 3 => 42
  | 4 => 44
  | 5 => 48
  | 6 => if ds then 52 else 48
  | _ => 0

/-- The outcome of stage 1 translation: the MMU is off; the registers select a
configuration not described here; a fault; or an address with its attributes,
the MAIR byte and the shareability (0 non, 2 outer, 3 inner). -/
inductive S1
  | off
  | other
  | fault
  | ok (pa : Nat) (attrs : Attrs) (mair share : Nat)
deriving DecidableEq

/-- Stage 1 of the EL2&0 translation regime for a processor with `impl` bits of
physical address.  SCTLR_EL2.M is bit 0 and HCR_EL2.E2H bit 34.  Bit 55 of the
address selects the half.  In TCR_EL2: T0SZ 5:0, EPD0 7, SH0 13:12, TG0 15:14,
T1SZ 21:16, EPD1 23, SH1 29:28, TG1 31:30, IPS 34:32, TBI0 37, TBI1 38, HPD0
41, HPD1 42, DS 59.  Only 4 KB granules, no top-byte ignore and no hierarchical
permissions are described.  The table base is in bits 47:x of TTBR, x being the
size of the first table (at least 6 with DS, when bits 5:2 are the address bits
51:48).  A table or an output address beyond the configured size faults.  With
DS the shareability is that of TCR_EL2, else that of the descriptor; Device
memory is always outer shareable. -/
def stage1 (impl : Nat) (r : Regs) (m : Nat → BitVec 64) (va : Nat) : S1 :=
  if bits r.sctlr 0 1 = 0 then .off
  else if bits r.hcr 34 1 = 0 then .other
  else
    let hi := decide (va / 2 ^ 55 % 2 = 1)
    let sz := bits r.tcr (if hi then 16 else 0) 6
    let ds := decide (bits r.tcr 59 1 = 1)
    if bits r.tcr (if hi then 30 else 14) 2 ≠ (if hi then 2 else 0) ∨
        sz < (if ds then 12 else 16) ∨ 48 < sz ∨ bits r.tcr (if hi then 42 else 41) 1 = 0 ∨
        bits r.tcr (if hi then 38 else 37) 1 = 1 then .other
    else if bits r.tcr (if hi then 23 else 7) 1 = 1 then .fault
    else
      let k := 64 - sz
      let d := (k - 13) / 9
      let ps := min impl (psWidth ds (bits r.tcr 32 3))
      let x := max (if ds then 6 else 0) (k - 9 - 9 * d)
      let ttbr := if hi then r.ttbr1 else r.ttbr0
      let base := bits ttbr x (48 - x) * 2 ^ x + (if ds then bits ttbr 2 4 * 2 ^ 48 else 0)
      if (if hi then 2 ^ 64 - 2 ^ k ≤ va else va < 2 ^ k) then
        match walkWord ds (fun a => if a < 2 ^ ps then m a else 0#64) va d base
            (va % 2 ^ k / 2 ^ (12 + 9 * d)) with
        | none => .fault
        | some (n, e) =>
          let pa := outAddr ds e / 2 ^ (12 + 9 * n) * 2 ^ (12 + 9 * n) + va % 2 ^ (12 + 9 * n)
          let attrs := decode e
          let mair := bits r.mair (8 * attrs.memIndex) 8
          let share := if mair < 16 then 2
            else if ds then bits r.tcr (if hi then 28 else 12) 2 else bits e 8 2
          if pa < 2 ^ ps then .ok pa attrs mair share else .fault
      else .fault

/-- The MAIR byte of the memory a region asks for: Device-nGnRE, or Normal
write-back cacheable. -/
def wantedMair (attr : BitVec 64) : Nat := if attr.toNat % 16 = 0 then 0x04 else 0xff

/-- Its shareability: Device memory is outer shareable, Normal memory inner
shareable. -/
def wantedShare (attr : BitVec 64) : Nat := if attr.toNat % 16 = 0 then 2 else 3

end Spec

end Verif.Xlat
