import Verif.Basic

/-!
# Faults of RMM on the host's memory

`memcpy_ns_read`, `memcpy_ns_write` and `ns_access_ret_0` (/repo/lib/slot_buf/src/aarch64/ns_access.S), the exception
vectors for RMM's own exceptions (/repo/runtime/core/aarch64/vectors.S:25-45, 71-134) and `handle_rmm_trap`
(/repo/runtime/core/handler.c:386-510), instruction by instruction, next to a host that writes its memory, and takes the
granule away, between any two instructions.

Memory is a map from addresses to 64-bit words: all accesses are to multiples of 8 if the arguments and the
stack pointers are.

Simplifications: instruction fetch, exceptions other than a granule protection fault on the host's granule, interrupts
(masked while RMM runs) and the barrier after `eret` are left out.  `handle_rmm_trap` is a C function; a call to it
is one step that returns what the C code computes and otherwise does whatever the procedure call standard lets it do.
-/

namespace Verif.Trap

abbrev W := BitVec 64

/-- An access to the host's memory. -/
inductive Ev where
  | rd (a : Nat) (v : W)
  | wr (a : Nat) (v : W)

/-- The CPU and the memory RMM has mapped.  `spx` is SP_EL2, `sp0` is SP_EL0, `selX` is PSTATE.SP, `z` is PSTATE.Z,
`spsrZ` and `spsrSel` are the same bits of SPSR_EL2; `ok` says that the granule protection table has the
granule mapped in the Non-secure slot as Non-secure; `log` is the history of accesses to it. -/
structure M where
  x : Nat → W
  spx : Nat
  sp0 : Nat
  selX : Bool
  z : Bool
  pc : Nat
  elr : Nat
  esr : W
  spsrZ : Bool
  spsrSel : Bool
  mem : Nat → W
  ok : Bool
  log : List Ev

/-- Where the linker puts the code (`rd`: `memcpy_ns_read`, `wr`: `memcpy_ns_write`, `r0`: `ns_access_ret_0`,
`vbar`: `el2_vectors`, `vec`: `el2_sync_cel`), which addresses are in the Non-secure slot (`ns`), and the lowest address
of the exception stack (`ehLo`). -/
structure Lay where
  rd : Nat
  wr : Nat
  r0 : Nat
  vbar : Nat
  vec : Nat
  ns : Nat → Bool
  ehLo : Nat

/-- A register of a pair: general or XZR. -/
inductive G where
  | x (n : Nat)
  | xzr
  deriving DecidableEq

/-- The instructions of the code.  Branch targets are relative, in instructions. -/
inductive I where
  | bti
  | wfe
  | b (a : Nat)
  | cbz (n : Nat) (d : Int)
  | bne (d : Int)
  | mov (n : Nat) (v : W)
  /-- `ldr xt, [xn], #8` -/
  | ldr (t n : Nat)
  /-- `str xt, [xn], #8` -/
  | str (t n : Nat)
  | add (d n : Nat) (v : W)
  | cmp (a b : Nat)
  | ret
  /-- `stp a, b, [sp, #-16]!` -/
  | push (a b : G)
  /-- `ldp a, b, [sp], #16` -/
  | pop (a b : G)
  /-- `add xd, sp, #v` -/
  | addSp (d v : Nat)
  | msrSpsel (elx : Bool)
  | msrElr (n : Nat)
  /-- `bl handle_rmm_trap` -/
  | call
  | eret
  deriving DecidableEq

/-- `memcpy_ns_read` (ns_access.S:33-46) and `memcpy_ns_write` (ns_access.S:61-74) are the same
instructions (`func` puts the `bti`: /repo/lib/arch/include/aarch64/asm_macros.S:25-50); they differ in where the label of the registered instruction is. -/
def copy : List I := [
  .bti,
  .cbz 2 7,
  .mov 3 0,
  .ldr 4 1,
  .str 4 0,
  .add 3 3 8,
  .cmp 3 2,
  .bne (-4),
  .mov 0 1,
  .ret]

/-- `ns_access_ret_0`: ns_access.S:76-79. -/
def ret0 : List I := [.bti, .mov 0 0, .ret]

/-- `el2_sync_cel` up to the call: vectors.S:73-102. -/
def enter : List I := [
  .msrSpsel false,
  .push (.x 29) (.x 30),
  .push (.x 27) (.x 28),
  .push (.x 25) (.x 26),
  .push (.x 23) (.x 24),
  .push (.x 21) (.x 22),
  .push (.x 19) (.x 20),
  .push (.x 17) (.x 18),
  .push (.x 15) (.x 16),
  .push (.x 13) (.x 14),
  .push (.x 11) (.x 12),
  .push (.x 9) (.x 10),
  .push (.x 7) (.x 8),
  .push (.x 5) (.x 6),
  .push (.x 3) (.x 4),
  .push (.x 1) (.x 2),
  .push .xzr (.x 0),
  .addSp 0 8]

/-- `el2_sync_cel` after the call, up to the `eret`: vectors.S:109-129. -/
def leave : List I := [
  .msrElr 0,
  .pop .xzr (.x 0),
  .pop (.x 1) (.x 2),
  .pop (.x 3) (.x 4),
  .pop (.x 5) (.x 6),
  .pop (.x 7) (.x 8),
  .pop (.x 9) (.x 10),
  .pop (.x 11) (.x 12),
  .pop (.x 13) (.x 14),
  .pop (.x 15) (.x 16),
  .pop (.x 17) (.x 18),
  .pop (.x 19) (.x 20),
  .pop (.x 21) (.x 22),
  .pop (.x 23) (.x 24),
  .pop (.x 25) (.x 26),
  .pop (.x 27) (.x 28),
  .pop (.x 29) (.x 30),
  .msrSpsel true]

/-- `el2_sync_cel`: vectors.S:71-134. -/
def trap : List I := enter ++ [.call] ++ leave ++ [.eret]

/-- The instruction at `pc`, of code `l` at address `a`. -/
def fetch (a : Nat) (l : List I) (pc : Nat) : Option I :=
  if a ≤ pc ∧ (pc - a) % 4 = 0 then l[(pc - a) / 4]? else none

/-- The instruction at `pc`.  In the vector table (vectors.S:11-45) a synchronous exception of RMM itself goes to
offset 0 if RMM uses SP_EL0 (`wfe; b .-4`), and to offset 0x200 otherwise. -/
def code (L : Lay) (pc : Nat) : Option I :=
  fetch L.rd copy pc <|> fetch L.wr copy pc <|> fetch L.r0 ret0 pc <|> fetch L.vec trap pc <|>
    fetch L.vbar [.wfe, .b L.vbar] pc <|> fetch (L.vbar + 0x200) [.b L.vec] pc

def upd {α : Type} (f : Nat → α) (a : Nat) (v : α) : Nat → α := fun b => if b = a then v else f b

def M.get (m : M) : G → W
  | .x n => m.x n
  | .xzr => 0

def setG (x : Nat → W) (g : G) (v : W) : Nat → W :=
  match g with
  | .x n => upd x n v
  | .xzr => x

/-- The stack pointer in use. -/
def M.sp (m : M) : Nat := if m.selX then m.spx else m.sp0

def M.setSp (m : M) (v : Nat) : M := if m.selX then { m with spx := v } else { m with sp0 := v }

/-- The words an instruction accesses. -/
def touch (m : M) : I → List Nat
  | .ldr _ n | .str _ n => [(m.x n).toNat]
  | .push _ _ => [m.sp - 16, m.sp - 8]
  | .pop _ _ => [m.sp, m.sp + 8]
  | _ => []

def jump (pc : Nat) (d : Int) : Nat := ((pc : Int) + 4 * d).toNat

/-- What an instruction does when it is allowed its accesses (Arm ARM). -/
def sem (L : Lay) (m : M) : I → M
  | .bti | .wfe | .call => { m with pc := m.pc + 4 }
  | .b a => { m with pc := a }
  | .cbz n d => { m with pc := if m.x n = 0 then jump m.pc d else m.pc + 4 }
  | .bne d => { m with pc := if m.z then m.pc + 4 else jump m.pc d }
  | .mov n v => { m with x := upd m.x n v, pc := m.pc + 4 }
  | .ldr t n =>
    let a := (m.x n).toNat
    { m with
      x := upd (upd m.x n (m.x n + 8)) t (m.mem a), pc := m.pc + 4
      log := if L.ns a then m.log ++ [.rd a (m.mem a)] else m.log }
  | .str t n =>
    let a := (m.x n).toNat
    { m with
      x := upd m.x n (m.x n + 8), pc := m.pc + 4, mem := upd m.mem a (m.x t)
      log := if L.ns a then m.log ++ [.wr a (m.x t)] else m.log }
  | .add d n v => { m with x := upd m.x d (m.x n + v), pc := m.pc + 4 }
  | .cmp a b => { m with z := decide (m.x a = m.x b), pc := m.pc + 4 }
  | .ret => { m with pc := (m.x 30).toNat }
  | .push a b =>
    { m.setSp (m.sp - 16) with
      mem := upd (upd m.mem (m.sp - 16) (m.get a)) (m.sp - 8) (m.get b), pc := m.pc + 4 }
  | .pop a b =>
    { m.setSp (m.sp + 16) with x := setG (setG m.x a (m.mem m.sp)) b (m.mem (m.sp + 8)), pc := m.pc + 4 }
  | .addSp d v => { m with x := upd m.x d (BitVec.ofNat 64 (m.sp + v)), pc := m.pc + 4 }
  | .msrSpsel b => { m with selX := b, pc := m.pc + 4 }
  | .msrElr n => { m with elr := (m.x n).toNat, pc := m.pc + 4 }
  | .eret => { m with pc := m.elr, z := m.spsrZ, selX := m.spsrSel }

/-- The instruction takes a granule protection fault: it accesses the Non-secure slot while the granule is not
Non-secure. -/
def faults (L : Lay) (m : M) (i : I) : Bool := !m.ok && (touch m i).any L.ns

/-- The CPU takes a synchronous exception with syndrome `e`, to EL2 from EL2: the instruction has had no effect. -/
def take (L : Lay) (m : M) (e : W) : M :=
  { m with
    elr := m.pc, esr := e, spsrZ := m.z, spsrSel := m.selX, selX := true
    pc := if m.selX then L.vbar + 0x200 else L.vbar }

/-- Syndrome of a data abort from the same exception level with a granule protection fault that is not on a table
walk: EC (bits 31:26) is 0x25, DFSC (bits 5:0) is 0x28.  The other bits depend on the access. -/
def Gpf (e : W) : Prop := e.extractLsb' 26 6 = 0x25 ∧ e.extractLsb' 0 6 = 0x28

/-- `is_el2_data_abort_gpf`: handler.c:471-478. -/
def isGpf (esr : W) : Bool := (esr &&& 0xfc000000) == 0x94000000 && (esr &&& 0x3f) == 0x28

/-- `rmm_trap_list`: handler.c:415-418, with the labels of ns_access.S:37 and :66. -/
def trapList (L : Lay) : List (Nat × Nat) := [(L.rd + 12, L.r0), (L.wr + 16, L.r0)]

/-- `handle_rmm_trap`: handler.c:490-510; `none` when it ends in `fatal_abort`, which does not return. -/
def handle (L : Lay) (esr : W) (elr : Nat) : Option Nat :=
  if isGpf esr then (trapList L).lookup elr else none

/-- What may hold after a call of a C function that returns `r` and takes no action outside its stack frame: the
result is in X0, X19 to X29 and the stack pointers are kept, memory is kept from the stack pointer upwards and
outside the stack.  The host may do anything to its granule in the meantime. -/
structure Called (L : Lay) (m m' : M) (r : W) : Prop where
  x0 : m'.x 0 = r
  xs : ∀ n, 19 ≤ n → n ≤ 29 → m'.x n = m.x n
  spx : m'.spx = m.spx
  sp0 : m'.sp0 = m.sp0
  selX : m'.selX = m.selX
  pc : m'.pc = m.pc + 4
  spsrZ : m'.spsrZ = m.spsrZ
  spsrSel : m'.spsrSel = m.spsrSel
  log : m'.log = m.log
  mem : ∀ a, L.ns a = false → (a < L.ehLo ∨ m.sp ≤ a) → m'.mem a = m.mem a

/-- One step of the CPU; `none` when RMM stops with a fatal error. -/
inductive Cpu (L : Lay) : M → Option M → Prop where
  | run {m i} : code L m.pc = some i → i ≠ .call → faults L m i = false → Cpu L m (some (sem L m i))
  | fault {m i e} : code L m.pc = some i → i ≠ .call → faults L m i = true → Gpf e → Cpu L m (some (take L m e))
  | call {m m' t} : code L m.pc = some .call → handle L m.esr m.elr = some t → Called L m m' (BitVec.ofNat 64 t) →
      Cpu L m (some m')
  | fatal {m} : code L m.pc = some .call → handle L m.esr m.elr = none → Cpu L m none

/-- The host and the firmware act: they write to the host's granule, take it away or give it back. -/
def Env (L : Lay) (m m' : M) : Prop :=
  ∃ mem ok, m' = { m with mem := mem, ok := ok } ∧ ∀ a, L.ns a = false → mem a = m.mem a

/-- An execution with `n` steps of the CPU. -/
inductive Run (L : Lay) (m : M) : Nat → M → Prop where
  | nil : Run L m 0 m
  | cpu {n m1 m2} : Run L m n m1 → Cpu L m1 (some m2) → Run L m (n + 1) m2
  | env {n m1 m2} : Run L m n m1 → Env L m1 m2 → Run L m n m2

end Verif.Trap
