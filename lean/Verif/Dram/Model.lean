import Verif.Basic

/-!
# DRAM layout: boot manifest validation and granule numbering

Model of `rmm_el3_ifc_get_dram_data_validated_pa`
(/repo/lib/rmm_el3_ifc/src/rmm_el3_ifc_manifest.c:75-191),
`arm_set_dram_layout` (/repo/plat/arm/src/arm_memory.c:11-49) and the two look-ups
of /repo/plat/arm/src/arm_granule.c:18-102.  A `uint64_t` is a natural number
below `2^64`; additions that can wrap are reduced modulo `2^64`.
-/

namespace Verif.Dram

/-- `struct ns_dram_bank`: /repo/lib/rmm_el3_ifc/include/rmm_el3_ifc.h:270-273. -/
structure Bank where
  base : Nat
  size : Nat
  deriving DecidableEq, Repr

/-- The part of the boot manifest that is validated: rmm_el3_ifc.h:276-289.  The
array `banks` points to is given as a list; that it has `num_banks` elements is
EL3's promise and is not checked by the code. -/
structure Manifest where
  version : Nat
  banksPtr : Nat
  banks : List Bank
  checksum : Nat

/-- `2^64`, the modulus of `uint64_t` arithmetic. -/
def two64 : Nat := 18446744073709551616

/-- `checksum_calc` over the bank array: rmm_el3_ifc_manifest.c:77-89; each bank is two words. -/
def checksumCalc : List Bank → Nat → Nat
  | [], sum => sum
  | b :: bs, sum => checksumCalc bs (((sum + b.base) % two64 + b.size) % two64)

/-- The loop over the banks: rmm_el3_ifc_manifest.c:132-166.  Carries `end` and
`num_granules`; `none` is a return of `E_RMM_BOOT_MANIFEST_DATA_ERROR`. -/
def bankLoop (paWidth : Nat) : List Bank → Nat → Nat → Option Nat
  | [], _, granules => some granules
  | b :: bs, e, granules =>
    if b.base = 0 ∨ b.size = 0 ∨ (b.base ||| b.size) &&& 4095 ≠ 0 then none
    else if b.base < e then none
    else
      let e' := (b.base + b.size - 1) % two64
      if 2 ^ paWidth ≤ e' then none
      else bankLoop paWidth bs e' ((granules + b.size / 4096) % two64)

/-- `rmm_el3_ifc_get_dram_data_validated_pa`: rmm_el3_ifc_manifest.c:96-191; true is
`E_RMM_BOOT_SUCCESS`. -/
def validate (maxBanks maxGranules paWidth : Nat) (m : Manifest) : Bool :=
  if m.version < 2 then false
  else if m.banks.length = 0 ∨ maxBanks < m.banks.length ∨ m.banksPtr = 0 then false
  else
    match bankLoop paWidth m.banks 0 0 with
    | none => false
    | some granules =>
      let sum := ((m.banks.length + m.banksPtr) % two64 + m.checksum) % two64
      if (sum + checksumCalc m.banks 0) % two64 ≠ 0 then false
      else if maxGranules < granules then false
      else true

/-- `struct arm_dram_layout`: /repo/plat/arm/src/include/arm_dram.h:14-26. -/
structure Layout where
  numBanks : Nat
  numGranules : Nat
  base : Nat → Nat
  size : Nat → Nat
  startIdx : Nat → Nat

/-- Cumulative granule count of the banks before the `k`-th: arm_memory.c:27-39. -/
def granulesBefore (bs : List Bank) (k : Nat) : Nat :=
  ((bs.take k).map (fun b => b.size / 4096)).sum

/-- `arm_set_dram_layout`: arm_memory.c:11-49.  The loop fills
`start_gran_idx` with the running sum, written here in closed form; the running
sum cannot wrap because the validated total is at most RMM_MAX_GRANULES. -/
def setLayout (bs : List Bank) : Layout where
  numBanks := bs.length
  numGranules := granulesBefore bs bs.length
  base k := ((bs[k]?).getD ⟨0, 0⟩).base
  size k := ((bs[k]?).getD ⟨0, 0⟩).size
  startIdx k := granulesBefore bs k

def UINT64_MAX : Nat := two64 - 1

/-- Binary search of `plat_granule_addr_to_idx`: arm_granule.c:36-58. -/
def searchAddr (L : Layout) (addr l r : Nat) : Nat :=
  if l ≤ r then
    let i := l + (r - l) / 2
    if addr < L.base i then
      if i = 0 then UINT64_MAX else searchAddr L addr l (i - 1)
    else if (L.base i + L.size i - 1) % two64 < addr then searchAddr L addr (i + 1) r
    else L.startIdx i + (addr - L.base i) / 4096
  else UINT64_MAX
termination_by r + 1 - l

/-- `plat_granule_addr_to_idx`: arm_granule.c:18-59; `none` is a failed assertion. -/
def addrToIdx (maxBanks : Nat) (L : Layout) (addr : Nat) : Option Nat :=
  if addr % 4096 ≠ 0 then some UINT64_MAX
  else if 0 < L.numBanks ∧ L.numBanks ≤ maxBanks then some (searchAddr L addr 0 (L.numBanks - 1))
  else none

/-- Binary search of `plat_granule_idx_to_addr`: arm_granule.c:76-101; `none` is a
failed assertion (`i != 0`, or search unsuccessful). -/
def searchIdx (L : Layout) (idx l r : Nat) : Option Nat :=
  if l ≤ r then
    let i := l + (r - l) / 2
    let idxStart := L.startIdx i
    let idxEnd := idxStart + L.size i / 4096 - 1
    if idx < idxStart then
      if i = 0 then none else searchIdx L idx l (i - 1)
    else if idxEnd < idx then searchIdx L idx (i + 1) r
    else some (L.base i + (idx - idxStart) * 4096)
  else none
termination_by r + 1 - l

/-- `plat_granule_idx_to_addr`: arm_granule.c:61-102. -/
def idxToAddr (L : Layout) (idx : Nat) : Option Nat :=
  if 0 < L.numBanks ∧ idx < L.numGranules then searchIdx L idx 0 (L.numBanks - 1) else none

/-- `find_granule`: /repo/lib/granule/src/granule.c:83-98, as the index it returns. -/
def findGranule (maxBanks maxGranules : Nat) (L : Layout) (addr : Nat) : Option (Option Nat) :=
  if addr % 4096 ≠ 0 then some none
  else match addrToIdx maxBanks L addr with
    | none => none
    | some idx => if maxGranules ≤ idx then some none else some (some idx)

end Verif.Dram
