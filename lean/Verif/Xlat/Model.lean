/-
Model of the stage 1 translation table library that builds the RMM's own
address space (`lib/xlat`): checking of the memory map, construction of the
tables, descriptors, and the run time mapping of single pages.

Addresses are natural numbers below `2^64`; where the C code computes with
`uintptr_t` the model wraps with `wadd` / `wsub`.  A translation table is
identified by its position in the array `ctx->tbls->tables`, and memory is the
function from table number and index to the 64-bit word stored there.  A
table level `l` of the C code (-1 .. 3) is written as the depth `d = 3 - l`.
-/
namespace Verif.Xlat

/-- `uintptr_t` addition. -/
def wadd (a b : Nat) : Nat := (a + b) % 2 ^ 64

/-- `uintptr_t` subtraction. -/
def wsub (a b : Nat) : Nat := (a + (2 ^ 64 - b % 2 ^ 64)) % 2 ^ 64

/-- `XLAT_BLOCK_SIZE(level)` for `d = 3 - level`
(lib/xlat/include/xlat_defs.h:68-72). -/
def bsz (d : Nat) : Nat := 4096 * 512 ^ d

/-- `XLAT_TABLE_ENTRIES` (xlat_defs.h:36). -/
def TABLE_ENTRIES : Nat := 512

/-- `XLAT_GET_TABLE_ENTRIES(level)`: 16 at level -1 (xlat_defs.h:49-51). -/
def tableEntries (d : Nat) : Nat := if d = 4 then 16 else TABLE_ENTRIES

/-- `GET_XLAT_TABLE_LEVEL_BASE` (xlat_defs.h:151-159), as a depth. -/
def baseDepth (vaSize : Nat) : Nat :=
  if vaSize > bsz 4 then 4
  else if vaSize > bsz 3 then 3
  else if vaSize > bsz 2 then 2
  else if vaSize > bsz 1 then 1
  else 0

/-- The processor features the library looks at: whether FEAT_LPA2 is present
for 4 KB granules (`is_feat_lpa2_4k_present`) and the width of physical
addresses (`arch_feat_get_pa_width`). -/
structure Cpu where
  lpa2 : Bool
  paWidth : Nat
deriving Repr, DecidableEq

/-- `xlat_arch_get_max_supported_pa`
(lib/xlat/src/xlat_tables_arch.c:236-239). -/
def maxPa (c : Cpu) : Nat := 2 ^ c.paWidth - 1

/-- `XLAT_MIN_BLOCK_LVL()` as a depth: blocks are allowed at depths up to this
one (lib/xlat/include/xlat_tables.h:31-33). -/
def maxBlockDepth (c : Cpu) : Nat := if c.lpa2 then 3 else 2

/-- `struct xlat_mmap_region` (xlat_tables.h:210-216). -/
structure Region where
  basePa : Nat
  baseVa : Nat
  size : Nat
  attr : BitVec 64
  gran : Nat
deriving Repr, DecidableEq

/-! ### Attribute words and descriptors -/

/-- `MT_TYPE(attr)`: bits 3:0 (xlat_tables.h:102-105). -/
def mtType (attr : BitVec 64) : BitVec 64 := attr &&& 0xF#64

/-- Memory types (xlat_tables.h:141-143). -/
def MT_DEVICE : BitVec 64 := 0#64
@[inherit_doc MT_DEVICE] def MT_MEMORY : BitVec 64 := 2#64
@[inherit_doc MT_DEVICE] def MT_TRANSIENT : BitVec 64 := 3#64

/-- Attribute flags (xlat_tables.h:106-127, 146-173): read-write bit 4,
execute-never bit 5, (bit 6 is the unused contiguous flag), not-global bit 7,
Non-secure bit 8, unprivileged access bit 9, unprivileged execution bit 10. -/
def MT_RW : BitVec 64 := 0x10#64
@[inherit_doc MT_RW] def MT_EXECUTE_NEVER : BitVec 64 := 0x20#64
@[inherit_doc MT_RW] def MT_NG : BitVec 64 := 0x80#64
@[inherit_doc MT_RW] def MT_NS : BitVec 64 := 0x100#64
@[inherit_doc MT_RW] def MT_AP_UNPRIV : BitVec 64 := 0x200#64
@[inherit_doc MT_RW] def MT_EXEC_UNPRIV : BitVec 64 := 0x400#64

/-- Compound attributes (xlat_tables.h:165-167, xlat_high_va.h `XLAT_NG_DATA_ATTR`). -/
def MT_CODE : BitVec 64 := MT_MEMORY
@[inherit_doc MT_CODE] def MT_RO_DATA : BitVec 64 := MT_MEMORY ||| MT_EXECUTE_NEVER
@[inherit_doc MT_CODE] def MT_RW_DATA : BitVec 64 := MT_MEMORY ||| MT_RW ||| MT_EXECUTE_NEVER
@[inherit_doc MT_CODE] def NG_DATA_ATTR : BitVec 64 := MT_RW_DATA ||| MT_NG

/-- Descriptor types (lib/xlat/src/xlat_defs_private.h:23-35). -/
def INVALID_DESC : BitVec 64 := 0#64
@[inherit_doc INVALID_DESC] def BLOCK_DESC : BitVec 64 := 1#64
@[inherit_doc INVALID_DESC] def TABLE_DESC : BitVec 64 := 3#64
@[inherit_doc INVALID_DESC] def PAGE_DESC : BitVec 64 := 3#64
@[inherit_doc INVALID_DESC] def VALID_DESC : BitVec 64 := 1#64
@[inherit_doc INVALID_DESC] def DESC_MASK : BitVec 64 := 3#64

/-- `TRANSIENT_DESC`: software bit 55 (xlat_tables.h:89-97). -/
def TRANSIENT_DESC : BitVec 64 := 1#64 <<< 55

/-- `set_oa_to_tte` (xlat_defs_private.h:113-130). -/
def setOa (lpa2 : Bool) (pa : BitVec 64) : BitVec 64 :=
  if lpa2 then
    (pa &&& 0x3FFFFFFFFF000#64) ||| (((pa >>> 50) &&& 3#64) <<< 8)
  else pa &&& 0xFFFFFFFFF000#64

/-- `xlat_get_oa_from_tte` (xlat_tables.h:347-358). -/
def getOa (lpa2 : Bool) (tte : BitVec 64) : BitVec 64 :=
  if lpa2 then
    (tte &&& 0x3FFFFFFFFF000#64) ||| (((tte >>> 8) &&& 3#64) <<< 50)
  else tte &&& 0xFFFFFFFFF000#64

/-- Ways in which the library gives up: a returned error code, running out of
tables (`assert` in `xlat_table_get_empty`; with assertions compiled out the
code hands out memory behind the array), `panic()`, any other failing
assertion, or following a descriptor that points outside the table array. -/
inductive Err
  | einval | efault | erange | eperm | enomem
  | noTable | panic | assertion | undef
deriving Repr, DecidableEq

/-- `xlat_desc`: the page or block descriptor for an address, or the marker of
a transient page (lib/xlat/src/xlat_tables_core.c:356-470, with
`xlat_arch_get_pas`, xlat_tables_arch.c:282-285). -/
def xlatDesc (c : Cpu) (attr : BitVec 64) (pa : Nat) (d : Nat) : Except Err (BitVec 64) :=
  if mtType attr = MT_TRANSIENT then .ok TRANSIENT_DESC
  else if pa % bsz d ≠ 0 then .error .assertion
  else if mtType attr ≠ MT_DEVICE ∧ mtType attr ≠ MT_MEMORY then .error .assertion
  else .ok (
    setOa c.lpa2 (BitVec.ofNat 64 pa)
    ||| (if d = 0 then PAGE_DESC else BLOCK_DESC)
    ||| 0x400#64                                             -- access flag
    ||| (if attr &&& MT_NS = 0#64 then 0#64 else 0x20#64)      -- NS
    ||| (if attr &&& MT_RW ≠ 0#64 then 0#64 else 0x80#64)      -- AP[2]: read only
    ||| (if attr &&& MT_NG ≠ 0#64 then 0x800#64 else 0#64)     -- nG
    ||| (if attr &&& MT_EXEC_UNPRIV = 0#64 then 0x40000000000000#64 else 0#64)  -- UXN, bit 54
    ||| (if attr &&& MT_AP_UNPRIV ≠ 0#64 then 0x40#64 else 0#64) -- AP[1]
    ||| (if mtType attr = MT_DEVICE then
           0x4#64 ||| 0x20000000000000#64                      -- AttrIndx 1, PXN, bit 53
         else
           (if attr &&& MT_RW ≠ 0#64 ∨ attr &&& MT_EXECUTE_NEVER ≠ 0#64 then
              0x20000000000000#64                              -- PXN
            else 0x4000000000000#64)                           -- GP, bit 50
           ||| (if c.lpa2 then 0#64 else 0x300#64)))           -- SH: inner shareable

/-! ### Building the tables -/

/-- The table array of a context (`struct xlat_ctx_tbls`, xlat_contexts.h):
its address, the number of tables in it, the words stored and the next unused
table. -/
structure Tabs where
  addr : Nat
  num : Nat
  mem : Nat → Nat → BitVec 64
  next : Nat

/-- Write one entry of one table. -/
def Tabs.write (s : Tabs) (t i : Nat) (v : BitVec 64) : Tabs :=
  { s with mem := fun t' i' => if t' = t ∧ i' = i then v else s.mem t' i' }

/-- Address of table number `t`. -/
def Tabs.addrOf (s : Tabs) (t : Nat) : Nat := s.addr + 4096 * t

/-- The table a descriptor points to: the C code casts the output address of
the descriptor to a pointer; `none` when that pointer is not one of the tables
of the array. -/
def Tabs.sub (c : Cpu) (s : Tabs) (desc : BitVec 64) : Option Nat :=
  let a := (getOa c.lpa2 desc).toNat
  if s.addr ≤ a ∧ (a - s.addr) % 4096 = 0 ∧ (a - s.addr) / 4096 < s.num then
    some ((a - s.addr) / 4096)
  else none

/-- `action_t` (xlat_tables_core.c:27-47). -/
inductive Action | none | write | create | recurse
deriving Repr, DecidableEq

/-- `xlat_tables_map_region_action` (xlat_tables_core.c:93-235). -/
def action (c : Cpu) (mm : Region) (ty : BitVec 64) (pa va d : Nat) : Except Err Action :=
  let mmEnd := wsub (wadd mm.baseVa mm.size) 1
  let entryEnd := wsub (wadd va (bsz d)) 1
  if mm.baseVa ≤ va ∧ mmEnd ≥ entryEnd then
    if d = 0 then
      if ty = PAGE_DESC then .ok .none
      else if ty ≠ INVALID_DESC then .error .panic
      else .ok .write
    else if ty = TABLE_DESC then .ok .recurse
    else if ty = INVALID_DESC then
      if pa % bsz d ≠ 0 ∨ d > maxBlockDepth c ∨ mm.gran < bsz d then .ok .create
      else .ok .write
    else if ty ≠ BLOCK_DESC then .error .panic
    else .ok .none
  else if mm.baseVa ≤ entryEnd ∨ mmEnd ≥ va then
    if d = 0 then .error .panic
    else if ty = INVALID_DESC then .ok .create
    else if ty ≠ TABLE_DESC then .error .panic
    else .ok .recurse
  else .ok .none

/-- `xlat_tables_find_start_va` (xlat_tables_core.c:61-77). -/
def startVa (mm : Region) (tableVa d : Nat) : Nat :=
  if mm.baseVa > tableVa then mm.baseVa / bsz d * bsz d else tableVa

/-- What one turn of the loop does to its entry, before the index moves on.
The result says whether the loop goes on (`none`) or the function returns with
the given end address (xlat_tables_core.c:279-336). -/
def entryStep (c : Cpu) (mm : Region) (d : Nat)
    (into : Nat → Nat → Tabs → Except Err (Tabs × Nat))
    (t idx va : Nat) (s : Tabs) : Except Err (Tabs × Option Nat) := do
  let desc := s.mem t idx
  let pa := wsub (wadd mm.basePa va) mm.baseVa
  let act ← action c mm (desc &&& DESC_MASK) pa va d
  match act with
  | .write => do
    let v ← xlatDesc c mm.attr pa d
    pure (s.write t idx v, none)
  | .create =>
    if s.next < s.num then do
      let sub := s.next
      let s1 := { s with next := s.next + 1 }
      let s2 := s1.write t idx (TABLE_DESC ||| BitVec.ofNat 64 (s.addrOf sub))
      let (s3, e) ← into va sub s2
      pure (s3, if e ≠ wsub (wadd va (bsz d)) 1 then some e else none)
    else .error .noTable
  | .recurse =>
    match s.sub c desc with
    | none => .error .undef
    | some sub => do
      let (s3, e) ← into va sub s
      pure (s3, if e ≠ wsub (wadd va (bsz d)) 1 then some e else none)
  | .none => pure (s, none)

/-- The loop over the entries of one table, `n` being the entries left
(xlat_tables_core.c:279-350). -/
def entryLoop (c : Cpu) (mm : Region) (d : Nat)
    (into : Nat → Nat → Tabs → Except Err (Tabs × Nat)) (t : Nat) :
    (n idx va : Nat) → Tabs → Except Err (Tabs × Nat)
  | 0, _, va, s => .ok (s, wsub va 1)
  | n + 1, idx, va, s => do
    let (s1, ret) ← entryStep c mm d into t idx va s
    match ret with
    | some e => pure (s1, e)
    | none =>
      let va1 := wadd va (bsz d)
      if wsub (wadd mm.baseVa mm.size) 1 ≤ va1 then pure (s1, wsub va1 1)
      else entryLoop c mm d into t n (idx + 1) va1 s1

/-- `xlat_tables_map_region` (xlat_tables_core.c:246-351).  The recursion goes
one level down each time, so at level 3 the recursive call would fail the
level check (lines 262-277). -/
def mapRegion (c : Cpu) (mm : Region) :
    (d tableVa t entries : Nat) → Tabs → Except Err (Tabs × Nat)
  | 0, tableVa, t, entries, s =>
    let va := startVa mm tableVa 0
    let idx := wsub va tableVa / bsz 0
    entryLoop c mm 0 (fun _ _ _ => .error .assertion) t (entries - idx) idx va s
  | d + 1, tableVa, t, entries, s =>
    let va := startVa mm tableVa (d + 1)
    let idx := wsub va tableVa / bsz (d + 1)
    entryLoop c mm (d + 1) (fun va' t' s' => mapRegion c mm d va' t' TABLE_ENTRIES s')
      t (entries - idx) idx va s

/-- The loop of `xlat_init_tables_ctx` over the regions
(xlat_tables_core.c:500-516). -/
def mapAll (c : Cpu) (d : Nat) : List Region → Tabs → Except Err Tabs
  | [], s => .ok s
  | mm :: rest, s => do
    let (s1, e) ← mapRegion c mm d 0 0 (tableEntries d) s
    if e ≠ wsub (wadd mm.baseVa mm.size) 1 then .error .enomem
    else mapAll c d rest s1

/-- `xlat_init_tables_ctx` (xlat_tables_core.c:472-533): clear all tables, use
the first as the root, map the regions.  `old` is what the array contained. -/
def initTables (c : Cpu) (d : Nat) (mms : List Region) (addr num : Nat)
    (old : Nat → Nat → BitVec 64) : Except Err Tabs :=
  mapAll c d mms
    { addr := addr, num := num, next := 1
      mem := fun t i => if t < num ∧ i < TABLE_ENTRIES then INVALID_DESC else old t i }

/-! ### Checking the memory map -/

/-- The comparison of a region with an earlier one in physical space
(lib/xlat/src/xlat_contexts.c:147-162). -/
def paClash (basePa endPa : Nat) (m : Region) : Bool :=
  if mtType m.attr = MT_TRANSIENT then false
  else
    let mEnd := wsub (wadd m.basePa m.size) 1
    decide (endPa ≥ m.basePa ∧ endPa ≤ mEnd) || decide (basePa ≥ m.basePa ∧ basePa ≤ mEnd)

/-- One turn of the loop of `validate_mmap_regions`: `done` are the regions
already accepted, as adjusted, last one first.  Returns the adjusted region
(xlat_contexts.c:46-164). -/
def validateOne (c : Cpu) (high : Bool) (ctxBase vaSize : Nat)
    (done : List Region) (m : Region) : Except Err Region :=
  let endPa := wsub (wadd m.basePa m.size) 1
  if !high ∧ (m.baseVa ≥ 2 ^ 52 ∨ wadd m.baseVa m.size ≥ 2 ^ 52) then .error .einval
  else if high ∧ m.baseVa < ctxBase then .error .einval
  else
    let baseVa := if high then wsub m.baseVa ctxBase else m.baseVa
    let endVa := if high then wadd baseVa m.size else wsub (wadd m.baseVa m.size) 1
    let m' := { m with baseVa := baseVa }
    if m.basePa % 4096 ≠ 0 ∨ baseVa % 4096 ≠ 0 ∨ m.size % 4096 ≠ 0 then .error .efault
    else if m.gran ≠ bsz 3 ∧ m.gran ≠ bsz 2 ∧ m.gran ≠ bsz 1 ∧ m.gran ≠ bsz 0 then .error .einval
    else if m.basePa > endPa ∨ baseVa > endVa then .error .erange
    else if endVa > vaSize then .error .erange
    else if endPa > maxPa c then .error .erange
    else match done with
      | [] => .ok m'
      | p :: _ =>
        if baseVa < p.baseVa then .error .eperm
        else if baseVa ≤ wsub (wadd p.baseVa p.size) 1 then .error .eperm
        else if mtType m.attr = MT_TRANSIENT then .ok m'
        else if done.any (paClash m.basePa endPa) then .error .eperm
        else .ok m'

/-- The loop of `validate_mmap_regions` (xlat_contexts.c:46-166). -/
def validateLoop (c : Cpu) (high : Bool) (ctxBase vaSize : Nat) :
    List Region → List Region → Except Err (List Region)
  | done, [] => .ok done.reverse
  | done, m :: rest => do
    let m' ← validateOne c high ctxBase vaSize done m
    validateLoop c high ctxBase vaSize (m' :: done) rest

/-- `validate_mmap_regions` (xlat_contexts.c:30-167), returning the regions as
left in the array.  The array pointer is taken to be non-NULL. -/
def validate (c : Cpu) (high : Bool) (ctxBase vaSize : Nat) (mms : List Region) :
    Except Err (List Region) :=
  if mms = [] then .error .einval
  else validateLoop c high ctxBase vaSize [] mms

/-- `cfg->base_va` as computed by `add_mmap_to_ctx_cfg`
(xlat_contexts.c:177-202). -/
def ctxBaseVa (high : Bool) (vaSize : Nat) : Nat :=
  if high then wadd (wsub (2 ^ 64 - 1) vaSize) 1 else 0

/-- `xlat_ctx_cfg_init` (xlat_contexts.c:230-284) on a configuration that was
not initialised before: the adjusted regions.  Pointers are taken to be
non-NULL; the maximum mapped addresses (213-223), which are only printed, are
left out. -/
def cfgInit (c : Cpu) (high : Bool) (mms : List Region) (vaSize : Nat) :
    Except Err (List Region) :=
  if vaSize % 4096 ≠ 0 then .error .einval
  else if vaSize > (if c.lpa2 then 2 ^ 52 else 2 ^ 48) ∨ vaSize < 2 ^ 16 then .error .einval
  else validate c high (ctxBaseVa high vaSize) vaSize mms

/-- `xlat_ctx_init` (xlat_contexts.c:286-327) after `xlat_ctx_cfg_init`: build
the tables in the array at `addr`.  Cache maintenance is left out. -/
def ctxInit (c : Cpu) (mms : List Region) (vaSize addr num : Nat)
    (old : Nat → Nat → BitVec 64) : Except Err Tabs :=
  if addr = 0 ∨ num = 0 then .error .einval
  else if addr % 4096 ≠ 0 then .error .einval
  else initTables c (baseDepth vaSize) mms addr num old

/-- The two steps as done at start-up: `xlat_ctx_cfg_init` and then
`xlat_ctx_init` (plat/common/src/plat_common_init.c:161-180,
lib/xlat/src/xlat_high_va.c:121-137). -/
def setup (c : Cpu) (high : Bool) (mms : List Region) (vaSize addr num : Nat)
    (old : Nat → Nat → BitVec 64) : Except Err Tabs := do
  let mms' ← cfgInit c high mms vaSize
  ctxInit c mms' vaSize addr num old

/-- The number of trailing zero bits (`__builtin_ctzll`) of a non-zero
number. -/
def ctz (n : Nat) : Nat := go 64 n
where
  /-- Count over at most `k` bits. -/
  go : Nat → Nat → Nat
    | 0, _ => 0
    | k + 1, n => if n % 2 = 1 then 0 else go k (n / 2) + 1

/-- The `TxSZ` value programmed for a context
(lib/xlat/src/xlat_tables_arch.c:172). -/
def txsz (vaSize : Nat) : Nat := 64 - ctz vaSize

end Verif.Xlat
