import Verif.Basic

/-!
# The crypto heap allocator

Model of /repo/lib/allocator/src/memory_alloc.c for one heap (`struct
buffer_alloc_ctx`, memory_alloc.h:13-19).

* Addresses are natural numbers; NULL is 0.  Where the C code adds to an address or
  a size the sum is taken modulo 2^64.
* `hdr p` is the `struct memory_header_s` at address `p`; `dom p` says that a header
  has been written at `p` and not erased by `memset`.  Reading or writing a header
  through a pointer for which `dom` is false (NULL included) is the outcome `none`,
  and so is a failed `assert`.
* `mem` holds the bytes of the buffer.  Writing any field of the header at `p` puts
  the marker 256, which is not a byte value, in the 64 bytes from `p`, so that a
  header write which hits memory owned by a client is visible as a change of the
  contents of that memory.
* The choice of the heap by CPU (`get_heap_ctx`, lines 66-80) is not modelled here:
  every function below takes the heap it works on.
-/

namespace Verif.Heap

/-- 2^64. -/
abbrev W64 : Nat := 18446744073709551616

/-- `sizeof(struct memory_header_s)`: eight 8-byte fields, memory_alloc.h:21-30. -/
abbrev hsize : Nat := 64

/-- `MBEDTLS_MEMORY_ALIGN_MULTIPLE`: /repo/configs/mbedtls/rmm_mbedtls_config.h:86. -/
abbrev alignMult : Nat := 8

/-- memory_alloc.c:30-31. -/
abbrev MAGIC1 : Nat := 0xFF00AA55
abbrev MAGIC2 : Nat := 0xEE119966

/-- `struct memory_header_s`: memory_alloc.h:21-30. -/
structure Hdr where
  magic1 : Nat := 0
  size : Nat := 0
  alloc : Nat := 0
  prev : Nat := 0
  next : Nat := 0
  prevFree : Nat := 0
  nextFree : Nat := 0
  magic2 : Nat := 0
  deriving DecidableEq, Repr, Inhabited

/-- `struct buffer_alloc_ctx` (memory_alloc.h:13-19) together with the memory it
manages.  `verify` is split into its two flags (`MBEDTLS_MEMORY_VERIFY_ALLOC` and
`MBEDTLS_MEMORY_VERIFY_FREE`). -/
structure Heap where
  buf : Nat := 0
  len : Nat := 0
  first : Nat := 0
  firstFree : Nat := 0
  verifyAlloc : Bool := false
  verifyFree : Bool := false
  hdr : Nat → Hdr := fun _ => {}
  dom : Nat → Bool := fun _ => false
  mem : Nat → Nat := fun _ => 0

def upd {α : Type} (f : Nat → α) (a : Nat) (v : α) : Nat → α := fun k => if k = a then v else f k

/-- `memset(p, v, n)` on the bytes. -/
def fill (m : Nat → Nat) (p n v : Nat) : Nat → Nat := fun b => if p ≤ b ∧ b < p + n then v else m b

namespace Heap

/-- Writes to the header at `p`. -/
def wr (h : Heap) (p : Nat) (f : Hdr → Hdr) : Heap :=
  { h with hdr := upd h.hdr p (f (h.hdr p)), mem := fill h.mem p hsize 256 }

/-- `if (p != NULL) p->next_free = v; else heap->first_free = v;` -/
def setNf (h : Heap) (p v : Nat) : Heap :=
  if p ≠ 0 then h.wr p fun x => { x with nextFree := v } else { h with firstFree := v }

/-- `if (p != NULL) p->prev_free = v;` -/
def setPf (h : Heap) (p v : Nat) : Heap :=
  if p ≠ 0 then h.wr p fun x => { x with prevFree := v } else h

/-- `if (p != NULL) p->prev = v;` -/
def setPrev (h : Heap) (p v : Nat) : Heap :=
  if p ≠ 0 then h.wr p fun x => { x with prev := v } else h

/-- `memset(p, 0, sizeof(struct memory_header_s))`. -/
def erase (h : Heap) (p : Nat) : Heap :=
  { h with hdr := upd h.hdr p {}, dom := upd h.dom p false, mem := fill h.mem p hsize 0 }

end Heap

/-- `assert`, and the requirement that a pointer is good before it is followed. -/
def need (b : Bool) : Option Unit := if b then some () else none

/-- A pointer that is followed only when it is not NULL. -/
def okPtr (h : Heap) (p : Nat) : Bool := p == 0 || h.dom p

/-- `verify_header`: memory_alloc.c:82-105 (`true` is the result 0). -/
def verifyHeader (x : Hdr) : Bool :=
  x.magic1 == MAGIC1 && x.magic2 == MAGIC2 && decide (x.alloc ≤ 1)
    && !(x.prev != 0 && x.prev == x.next)
    && !(x.prevFree != 0 && x.prevFree == x.nextFree)

/-- The loop of `verify_chain`: memory_alloc.c:120-133.  Running out of `fuel` is an
endless loop and is the outcome `none`. -/
def verifyLoop (h : Heap) : Nat → Nat → Nat → Option Bool
  | 0, _, _ => none
  | fuel + 1, prv, cur =>
    if cur = 0 then some true
    else do
      need (h.dom cur)
      if verifyHeader (h.hdr cur) then
        if (h.hdr cur).prev = prv then verifyLoop h fuel cur (h.hdr cur).next
        else some false
      else some false

/-- `verify_chain`: memory_alloc.c:107-136 (`true` is the result 0). -/
def verifyChain (h : Heap) : Option Bool :=
  if h.first = 0 then some false
  else do
    need (h.dom h.first)
    if verifyHeader (h.hdr h.first) then
      if (h.hdr h.first).prev ≠ 0 then some false
      else verifyLoop h (h.len + 1) h.first (h.hdr h.first).next
    else some false

/-- The search for a block that fits: memory_alloc.c:167-173. -/
def search (h : Heap) (len : Nat) : Nat → Nat → Option Nat
  | 0, _ => none
  | fuel + 1, cur =>
    if cur = 0 then some 0
    else do
      need (h.dom cur)
      if (h.hdr cur).size ≥ len then some cur
      else search h len fuel (h.hdr cur).nextFree

/-- Rounding a length up: memory_alloc.c:162-165. -/
def roundUp (len : Nat) : Nat :=
  if len % alignMult ≠ 0 then len - len % alignMult + alignMult else len

/-- The block is used whole: memory_alloc.c:187-212. -/
def takeWhole (h : Heap) (cur orig : Nat) : Option (Heap × Nat) := do
  need (h.dom cur)
  let h := h.wr cur fun x => { x with alloc := 1 }
  let pf := (h.hdr cur).prevFree
  need (okPtr h pf)
  let h := h.setNf pf (h.hdr cur).nextFree
  let nf := (h.hdr cur).nextFree
  need (okPtr h nf)
  let h := h.setPf nf (h.hdr cur).prevFree
  let h := h.wr cur fun x => { x with prevFree := 0, nextFree := 0 }
  if h.verifyAlloc then
    let v ← verifyChain h
    need v
  let ret := (cur + hsize) % W64
  some ({ h with mem := fill h.mem ret orig 0 }, ret)

/-- The block is split: memory_alloc.c:214-254. -/
def takeSplit (h : Heap) (cur len orig : Nat) : Option (Heap × Nat) := do
  need (h.dom cur)
  let new := (cur + hsize + len) % W64
  need (new != 0)
  let h := { h with dom := upd h.dom new true }
  let h := h.wr new fun x =>
    { x with size := (h.hdr cur).size - len - hsize, alloc := 0, prev := cur,
             next := (h.hdr cur).next, magic1 := MAGIC1, magic2 := MAGIC2 }
  let nx := (h.hdr new).next
  need (okPtr h nx)
  let h := h.setPrev nx new
  let h := h.wr new fun x =>
    { x with prevFree := (h.hdr cur).prevFree, nextFree := (h.hdr cur).nextFree }
  let pf := (h.hdr new).prevFree
  need (okPtr h pf)
  let h := h.setNf pf new
  let nf := (h.hdr new).nextFree
  need (okPtr h nf)
  let h := h.setPf nf new
  let h := h.wr cur fun x =>
    { x with alloc := 1, size := len, next := new, prevFree := 0, nextFree := 0 }
  if h.verifyAlloc then
    let v ← verifyChain h
    need v
  let ret := (cur + hsize) % W64
  some ({ h with mem := fill h.mem ret orig 0 }, ret)

/-- `buffer_alloc_calloc_with_heap`: memory_alloc.c:138-255.  The number of
iterations of the search is not bounded in the C code; `h.len + 1` iterations are
allowed here and running out of them is the outcome `none`. -/
def calloc (h : Heap) (n size : Nat) : Option (Heap × Nat) :=
  if h.buf = 0 ∨ h.first = 0 then some (h, 0)
  else
    let orig := n * size % W64
    if n = 0 ∨ size = 0 ∨ orig / n ≠ size then some (h, 0)
    else if orig > W64 - alignMult then some (h, 0)
    else do
      let len := roundUp orig
      let cur ← search h len (h.len + 1) h.firstFree
      if cur = 0 then some (h, 0)
      else do
        need ((h.hdr cur).alloc == 0)
        if (h.hdr cur).size - len < hsize + alignMult then takeWhole h cur orig
        else takeSplit h cur len orig

/-- "Regroup with block before": memory_alloc.c:291-303.  The result is the heap,
`hdr` and `old`. -/
def mergePrev (h : Heap) (x : Nat) : Option (Heap × Nat × Nat) := do
  let pv := (h.hdr x).prev
  need (okPtr h pv)
  if pv ≠ 0 ∧ (h.hdr pv).alloc = 0 then do
    let h := h.wr pv fun y =>
      { y with size := (y.size + (hsize + (h.hdr x).size)) % W64, next := (h.hdr x).next }
    let old := x
    let nx := (h.hdr pv).next
    need (okPtr h nx)
    let h := h.setPrev nx pv
    some (h.erase old, pv, old)
  else some (h, x, 0)

/-- Taking `x` out of the free list if it is linked into it: memory_alloc.c:310-319. -/
def unlink (h : Heap) (x : Nat) : Option Heap :=
  if (h.hdr x).prevFree ≠ 0 ∨ (h.hdr x).nextFree ≠ 0 then do
    need (okPtr h (h.hdr x).prevFree)
    let h := h.setNf (h.hdr x).prevFree (h.hdr x).nextFree
    need (okPtr h (h.hdr x).nextFree)
    some (h.setPf (h.hdr x).nextFree (h.hdr x).prevFree)
  else some h

/-- "Regroup with block after": memory_alloc.c:305-340. -/
def mergeNext (h : Heap) (x old : Nat) : Option (Heap × Nat) := do
  let nx := (h.hdr x).next
  need (okPtr h nx)
  if nx ≠ 0 ∧ (h.hdr nx).alloc = 0 then do
    let h := h.wr x fun y =>
      { y with size := (y.size + (hsize + (h.hdr nx).size)) % W64, next := (h.hdr nx).next }
    let old := nx
    let h ← unlink h x
    let h := h.wr x fun y =>
      { y with prevFree := (h.hdr old).prevFree, nextFree := (h.hdr old).nextFree }
    need (okPtr h (h.hdr x).prevFree)
    let h := h.setNf (h.hdr x).prevFree x
    need (okPtr h (h.hdr x).nextFree)
    let h := h.setPf (h.hdr x).nextFree x
    need (okPtr h (h.hdr x).next)
    let h := h.setPrev (h.hdr x).next x
    some (h.erase old, old)
  else some (h, old)

/-- "Prepend to free_list if we have not merged": memory_alloc.c:342-352. -/
def prepend (h : Heap) (x : Nat) : Option Heap := do
  let h := h.wr x fun y => { y with nextFree := h.firstFree }
  need (okPtr h h.firstFree)
  let h := h.setPf h.firstFree x
  some { h with firstFree := x }

/-- memory_alloc.c:346-352. -/
def prependIf (h : Heap) (x old : Nat) : Option Heap := if old = 0 then prepend h x else some h

/-- `buffer_alloc_free_with_heap`: memory_alloc.c:265-358.  The last assertion is
`assert(verify_chain(heap))`, which demands that the verification *fails*. -/
def free (h : Heap) (ptr : Nat) : Option Heap :=
  if ptr = 0 ∨ h.buf = 0 ∨ h.first = 0 then some h
  else do
    need (decide (¬(ptr < h.buf ∨ ptr ≥ h.buf + h.len)))
    let x := ptr - hsize
    need (h.dom x)
    need (verifyHeader (h.hdr x))
    need ((h.hdr x).alloc == 1)
    let h := h.wr x fun y => { y with alloc := 0 }
    let (h, x, old) ← mergePrev h x
    let (h, old) ← mergeNext h x old
    let h ← prependIf h x old
    if h.verifyFree then
      let v ← verifyChain h
      need (!v)
    some h

/-- `mbedtls_memory_buffer_alloc_init`: memory_alloc.c:417-453.  The bytes of the
buffer are zeroed and the first header written. -/
def init (m : Nat → Nat) (buf len : Nat) : Heap :=
  if len < hsize + alignMult then { mem := m }
  else
    let adj := if buf % alignMult ≠ 0 then alignMult - buf % alignMult else 0
    let len := len - adj
    let buf := buf + adj
    { buf := buf, len := len, first := buf, firstFree := buf,
      hdr := upd (fun _ => {}) buf
        { size := len - hsize, magic1 := MAGIC1, magic2 := MAGIC2 },
      dom := upd (fun _ => false) buf true,
      mem := fill (fill m buf len 0) buf hsize 256 }

end Verif.Heap
