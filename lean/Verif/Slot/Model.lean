import Verif.Xlat.PropTable

/-!
# The buffer slots: one translation table and one TLB per CPU

Files are relative to /repo.  Each CPU has its own level 3 table for the top 2 MB of the
address space (lib/xlat/src/xlat_high_va.c:55-60, 93-137), which holds its stacks and, in
the last 108 entries, the buffer slots.  `TTBR1_EL2.CnP` is clear for it
(lib/xlat/src/xlat_tables_arch.c:217-225), so no other CPU may use the cached translations.

Not modelled: the data-cache side of the tables, and the moments inside `map` and `unmap`
(the CPU does not touch the slot's addresses between the write to the table and the
completion of the TLB invalidation).
-/

namespace Verif.Slot

open Verif.Xlat

/-- Number of slots: `XLAT_HIGH_VA_SLOT_NUM`, lib/xlat/include/xlat_high_va.h:13;
`NR_CPU_SLOTS` is the same number (lib/slot_buf/include/buffer.h:14-43). -/
def NR_SLOTS : Nat := 108

/-- `SLOT_NS`: lib/slot_buf/include/buffer.h:19. -/
def SLOT_NS : Nat := 0

/-- `SLOT_VIRT`: lib/xlat/include/xlat_high_va.h:16-17. -/
def SLOT_VIRT : Nat := 2 ^ 64 - 1 - NR_SLOTS * 4096 + 1

/-- First address of the high region: `XLAT_HIGH_VA_SIZE` is 2 MB
(lib/xlat/include/xlat_high_va.h:35). -/
def HIGH_BASE : Nat := ctxBaseVa true (512 * 4096)

/-- `slot_to_va`: lib/slot_buf/src/buffer.c:28-33. -/
def slotToVa (s : Nat) : Except Err Nat :=
  if s < NR_SLOTS then .ok ((SLOT_VIRT + 4096 * s) % 2 ^ 64) else .error .assertion

/-- What one CPU has: its level 3 table, and the translations it has cached, by bits 55:12
of the address. -/
structure Core where
  tab : Nat → BitVec 64
  tlb : Nat → Option (BitVec 64)

/-- The bits of an address by which cached translations are found and invalidated:
`TLBI_ADDR`, lib/arch/include/arch.h:1097-1099. -/
def tlbKey (va : Nat) : Nat := va / 4096 % 2 ^ 44

/-- `xlat_get_tte_ptr` for the cached level 3 table of the CPU
(lib/xlat/src/xlat_tables_utils.c:498-518; the cache is filled by
`slot_buf_finish_warmboot_init`, lib/slot_buf/src/buffer.c:61-80). -/
def ttePtr (va : Nat) : Option Nat :=
  if va < HIGH_BASE then none
  else if (va - HIGH_BASE) / 4096 < 512 then some ((va - HIGH_BASE) / 4096) else none

def setTab (k : Core) (i : Nat) (v : BitVec 64) : Core :=
  { k with tab := fun j => if j = i then v else k.tab j }

/-- `xlat_map_memory_page_with_attrs`: lib/xlat/src/xlat_tables_utils.c:410-446. -/
def mapPage (c : Cpu) (k : Core) (va pa : Nat) (attr : BitVec 64) : Except Err Core :=
  match ttePtr va with
  | none => .error .efault
  | some i =>
    if k.tab i ≠ TRANSIENT_DESC then .error .efault
    else if maxPa c < pa then .error .efault
    else do
      let d ← xlatDesc c attr (pa / 4096 * 4096) 0
      return setTab k i (d ||| TRANSIENT_DESC)

/-- `xlat_unmap_memory_page`: lib/xlat/src/xlat_tables_utils.c:363-393, with the TLB
invalidation of lib/xlat/src/xlat_tables_arch.c:241-277. -/
def unmapPage (k : Core) (va : Nat) : Except Err Core :=
  match ttePtr va with
  | none => .error .efault
  | some i =>
    if k.tab i &&& (TRANSIENT_DESC ||| VALID_DESC) ≠ TRANSIENT_DESC ||| VALID_DESC then
      .error .efault
    else
      let k' := setTab k i TRANSIENT_DESC
      .ok { k' with tlb := fun j => if j = tlbKey va then none else k'.tlb j }

/-- `buffer_map_internal`: lib/slot_buf/src/buffer.c:319-342.  An error of the library
becomes a NULL pointer, which every caller asserts not to be (or, in `ns_buffer_read` and
`ns_buffer_write`, dereferences): no further behaviour is modelled. -/
def map (c : Cpu) (k : Core) (s addr : Nat) : Except Err (Nat × Core) := do
  let va ← slotToVa s
  if addr % 4096 ≠ 0 then .error .assertion
  else
    let k' ← mapPage c k va addr (NG_DATA_ATTR ||| (if s = SLOT_NS then MT_NS else 0#64))
    return (va, k')

/-- `buffer_unmap_internal`: lib/slot_buf/src/buffer.c:345-351; the caller passes the
address that `map` returned. -/
def unmap (k : Core) (s : Nat) : Except Err Core := do
  let va ← slotToVa s
  unmapPage k va

/-! ### The processor -/

/-- The CPU may keep a valid translation of its table, at any time. -/
def fill (k : Core) (va : Nat) : Core :=
  match ttePtr va with
  | none => k
  | some i =>
    if (k.tab i).toNat % 4 = 3 then
      { k with tlb := fun j => if j = tlbKey va then some (k.tab i) else k.tlb j }
    else k

/-- The CPU may drop a cached translation at any time. -/
def evict (k : Core) (va : Nat) : Core :=
  { k with tlb := fun j => if j = tlbKey va then none else k.tlb j }

/-- The descriptors a memory access to `va` may use: a cached one, or the one in the
table. -/
def Uses (k : Core) (va : Nat) (d : BitVec 64) : Prop :=
  k.tlb (tlbKey va) = some d ∨ (∃ i, ttePtr va = some i ∧ k.tab i = d ∧ d.toNat % 4 = 3)

/-! ### The system -/

inductive Op where
  | map (cpu s addr : Nat)
  | unmap (cpu s : Nat)
  | fill (cpu va : Nat)
  | evict (cpu va : Nat)
deriving Repr, DecidableEq

def setCore (σ : Nat → Core) (i : Nat) (k : Core) : Nat → Core := fun j => if j = i then k else σ j

def step (c : Cpu) (σ : Nat → Core) : Op → Except Err (Nat → Core)
  | .map i s a => do
    let r ← map c (σ i) s a
    return setCore σ i r.2
  | .unmap i s => do
    let k ← unmap (σ i) s
    return setCore σ i k
  | .fill i va => .ok (setCore σ i (fill (σ i) va))
  | .evict i va => .ok (setCore σ i (evict (σ i) va))

def run (c : Cpu) (σ : Nat → Core) : List Op → Except Err (Nat → Core)
  | [] => .ok σ
  | o :: l => do
    let σ' ← step c σ o
    run c σ' l

/-- All slots unmapped and nothing cached for them: the state after start-up
(`C47_start`) and, by `C47_slots_balanced`, between commands. -/
def Fresh (k : Core) : Prop :=
  ∀ s, s < NR_SLOTS → k.tab (404 + s) = TRANSIENT_DESC ∧ k.tlb (tlbKey (SLOT_VIRT + 4096 * s)) = none

/-- `check_cpu_slots_empty`: lib/slot_buf/src/buffer.c:86-95. -/
def slotsEmpty (k : Core) : Bool :=
  (List.range NR_SLOTS).all fun s =>
    match ttePtr ((SLOT_VIRT + 4096 * s) % 2 ^ 64) with
    | none => false
    | some i => k.tab i == TRANSIENT_DESC

/-! ### Access to Non-secure memory -/

/-- One 8-byte access: what the bus sees. -/
structure Acc where
  pa : Nat
  nonSecure : Bool
deriving Repr, DecidableEq

/-- The address and world of an access, from the cached or, if there is none, the stored
descriptor (the choice does not matter, `C47_slot_view`). -/
def access (c : Cpu) (k : Core) (va : Nat) : Option Acc :=
  let conv (d : BitVec 64) : Acc := ⟨Spec.outAddr c.lpa2 d + va % 4096, (Spec.decode d).nonSecure⟩
  match k.tlb (tlbKey va) with
  | some d => some (conv d)
  | none =>
    match ttePtr va with
    | none => none
    | some i => if (k.tab i).toNat % 4 = 3 then some (conv (k.tab i)) else none

/-- `memcpy_ns_read`: lib/slot_buf/src/aarch64/ns_access.S:33-46 (loop from the `i`-th of the words on).
`bus i` is what the `i`-th load gets from memory, `none` for a granule protection fault,
which makes the function return 0.  A translation fault is not recovered from.  The result
is the return value, the words stored to the destination and the accesses that reached
memory. -/
def copyIn (c : Cpu) (k : Core) (va : Nat) (bus : Nat → Acc → Option (BitVec 64)) :
    Nat → Nat → Except Err (Bool × List (BitVec 64) × List Acc)
  | 0, _ => .ok (true, [], [])
  | n + 1, i =>
    match access c k (va + 8 * i) with
    | none => .error .undef
    | some a =>
      match bus i a with
      | none => .ok (false, [], [])
      | some v => do
        let r ← copyIn c k va bus n (i + 1)
        return (r.1, v :: r.2.1, a :: r.2.2)

/-- `memcpy_ns_write`: lib/slot_buf/src/aarch64/ns_access.S:61-74.  `bus i` tells whether the `i`-th
store is let through.  The result is the return value and the stores done. -/
def copyOut (c : Cpu) (k : Core) (va : Nat) (bus : Nat → Acc → Bool) (src : Nat → BitVec 64) :
    Nat → Nat → Except Err (Bool × List (Acc × BitVec 64))
  | 0, _ => .ok (true, [])
  | n + 1, i =>
    match access c k (va + 8 * i) with
    | none => .error .undef
    | some a =>
      if bus i a then do
        let r ← copyOut c k va bus src n (i + 1)
        return (r.1, (a, src i) :: r.2)
      else .ok (false, [])

/-- The assertions at the head of `ns_buffer_read` and `ns_buffer_write`. -/
def nsArgs (s off size : Nat) : Except Err Unit :=
  if s ≠ SLOT_NS then .error .assertion
  else if size % 8 ≠ 0 ∨ off % 8 ≠ 0 then .error .assertion
  else if 4096 < off % 4096 + size then .error .assertion
  else .ok ()

/-- `ns_buffer_read`: lib/slot_buf/src/buffer.c:148-178. -/
def nsRead (c : Cpu) (k : Core) (s addr off size : Nat) (bus : Nat → Acc → Option (BitVec 64)) :
    Except Err ((Bool × List (BitVec 64) × List Acc) × Core) := do
  nsArgs s off size
  let (va, k1) ← map c k s addr
  let r ← copyIn c k1 (va + off % 4096) bus (size / 8) 0
  let k2 ← unmap k1 s
  return (r, k2)

/-- `ns_buffer_write`: lib/slot_buf/src/buffer.c:188-218. -/
def nsWrite (c : Cpu) (k : Core) (s addr off size : Nat) (bus : Nat → Acc → Bool)
    (src : Nat → BitVec 64) : Except Err ((Bool × List (Acc × BitVec 64)) × Core) := do
  nsArgs s off size
  let (va, k1) ← map c k s addr
  let r ← copyOut c k1 (va + off % 4096) bus src (size / 8) 0
  let k2 ← unmap k1 s
  return (r, k2)

end Verif.Slot
