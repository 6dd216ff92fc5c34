import Verif.Boot.Reloc

/-!
# The start of a CPU

/repo/runtime/core/aarch64/head.S, rmm_el3_ifc_helpers.S, the argument checks of rmm_el3_ifc.c, the
stacks of xlat_helper.S and the layout of xlat_high_va.h.
-/

namespace Verif.Boot

open Verif.Mem (Addr)

/-- Build options: MAX_CPUS and RMM_NUM_PAGES_PER_STACK (cmake/CommonConfigs.cmake:10-38). -/
structure Cfg where
  cpus : Nat
  pages : Nat

/-- linker.lds:85-92: RMM_NUM_PAGES_PER_STACK granules for each CPU. -/
def Cfg.stackBytes (c : Cfg) : Nat := c.pages * 4096 * c.cpus

/-- xlat_helper.S:43-53 (rmm_get_my_stack), with UMSUBL: the low halves are multiplied.
xlat_high_va.h:19 (RMM_CPU_STACK_SIZE). -/
def myStack (c : Cfg) (stackEnd : Addr) (x0 : BitVec 64) : Addr :=
  let x2 := BitVec.ofNat 64 (c.pages * 4096)
  stackEnd - (x0.setWidth 32).setWidth 64 * (x2.setWidth 32).setWidth 64

/-- xlat_helper.S:22-32 (rmm_get_my_eh_stack). xlat_high_va.h:20. -/
def myEhStack (ehEnd : Addr) (x0 : BitVec 64) : Addr :=
  let x2 : BitVec 64 := 4096
  ehEnd - (x0.setWidth 32).setWidth 64 * (x2.setWidth 32).setWidth 64

/-- The codes reported to EL3 (rmm_el3_ifc.h:55-62). -/
inductive Err where
  | unknown | version | cpus | cpuId | sharedBuf
  deriving DecidableEq, Repr

/-- rmm_el3_ifc.h:82-85, 94-108 (IS_RMM_EL3_IFC_COMPATIBLE): version 0.3 or a later 0.x. -/
def compatible (v : BitVec 64) : Bool := (v >>> 16) &&& 0x7fff == 0 && decide (v &&& 0xffff ≥ 3)

structure Args where
  x0 : BitVec 64
  x1 : BitVec 64
  x2 : BitVec 64
  x3 : BitVec 64

/-- rmm_el3_ifc.c:54-93: the checks of rmm_el3_ifc_init. -/
def checkArgs (c : Cfg) (a : Args) : Option Err :=
  if !compatible a.x1 then some .version
  else if a.x2 > BitVec.ofNat 64 c.cpus then some .cpus
  else if a.x0 ≥ a.x2 then some .cpuId
  else if a.x3 = 0 ∨ a.x3 &&& 0xfff ≠ 0 then some .sharedBuf
  else none

/-- What survives from one CPU's start to the next. -/
structure Sys where
  /-- cold_boot_flag (head.S:172-175) -/
  cold : Bool := true
  /-- how often fixup_gdt_reloc ran -/
  relocs : Nat := 0
  /-- how often BSS was cleared -/
  clears : Nat := 0
  /-- interface version and address of the shared buffer (rmm_el3_ifc.c:92-93); zero in BSS -/
  ifc : Option (BitVec 64 × BitVec 64) := none
  /-- plat_setup finished: the translation context of the runtime exists -/
  ready : Bool := false

inductive Res where
  /-- runs with this stack pointer and this number in TPIDR_EL2 -/
  | up (sp : Addr) (id : BitVec 64)
  /-- SMC_RMM_BOOT_COMPLETE with an error -/
  | fail (e : Err)
  | panic

/-- head.S:14-167 (rmm_entry). Cold boot is over before EL3 starts another CPU, so a start is one
step. `rest` says whether what plat_setup does after the argument checks succeeds (the boot
manifest is C44, the translation tables are C46). The warm path needs the context that plat_setup
made (plat_common_init.c:190-227 and the assertions of xlat_tables_arch.c:144-161). -/
def entry (c : Cfg) (stackEnd : Addr) (rest : Bool) (s : Sys) (a : Args) : Sys × Res :=
  let s := if s.cold then { s with relocs := s.relocs + 1 } else s
  -- rmm_el3_ifc_helpers.S:22-41
  if a.x0 ≥ BitVec.ofNat 64 c.cpus then (s, .fail .cpuId)
  else
    let sp := myStack c stackEnd a.x0
    if s.cold then
      let s := { s with cold := false, clears := s.clears + 1, ifc := none, ready := false }
      match checkArgs c a with
      | some e => (s, .fail e)
      | none =>
        let s := { s with ifc := some (a.x1, a.x3) }
        if rest then ({ s with ready := true }, .up sp a.x0) else (s, .fail .unknown)
    else if s.ready then (s, .up sp a.x0) else (s, .panic)

/-- Starts one after the other. -/
def starts (c : Cfg) (stackEnd : Addr) (rest : Bool) : Sys → List Args → Sys × List Res
  | s, [] => (s, [])
  | s, a :: as =>
    let r := entry c stackEnd rest s a
    let t := starts c stackEnd rest r.1 as
    (t.1, r.2 :: t.2)

/-! The per-CPU virtual layout (xlat_high_va.h:12-30), in pages below the top of the address space. -/

/-- First page of the slot buffers: XLAT_HIGH_VA_SLOT_NUM of them. -/
def slotVirt : Addr := 0xffffffffffffffff - 108 * 4096 + 1

def stackEndVa : Addr := slotVirt - 4096

def stackVirt (c : Cfg) : Addr := stackEndVa - BitVec.ofNat 64 (c.pages * 4096)

def ehEndVa (c : Cfg) : Addr := stackVirt c - 4096

def ehVirt (c : Cfg) : Addr := ehEndVa c - 4096

/-- Start of the high region: XLAT_HIGH_VA_SIZE is one level 3 table (xlat_high_va.h:35). -/
def highBase : Addr := 0 - 512 * 4096

/-- xlat_high_va.c:50-51 (COMPILER_ASSERT). -/
def layoutAssert (c : Cfg) : Bool := decide (c.pages + 1 + 108 ≤ 512)

/-! The `mov_imm` macro. -/

/-- asm_macros.S:110-118: MOVK keeps the other bits, MOV clears them, nothing is emitted for zero. -/
def movImm16 (r v : BitVec 64) (shift : Nat) : BitVec 64 :=
  let mask : BitVec 64 := (0xffff : BitVec 64) <<< shift
  if (v >>> shift) &&& 0xffff ≠ 0 then
    if v &&& (((1 : BitVec 64) <<< shift) - 1) ≠ 0 then
      (r &&& ~~~ mask) ||| (((v >>> shift) &&& 0xffff) <<< shift)
    else v &&& mask
  else r

/-- asm_macros.S:126-135. -/
def movImm (r v : BitVec 64) : BitVec 64 :=
  if v = 0 then 0
  else movImm16 (movImm16 (movImm16 (movImm16 r v 0) v 16) v 32) v 48

end Verif.Boot
