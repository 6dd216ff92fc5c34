import Verif.Basic

/-!
# The assembly that enters and leaves a realm

`run_realm` and `realm_exit` (/repo/runtime/core/aarch64/run-asm.S) with the exception vectors for a
lower exception level (/repo/runtime/core/aarch64/vectors.S:49-71), instruction by instruction.

The machine has the registers X0-X30, the EL2 stack pointer, SP_EL0, PSTATE.DIT and RMM memory seen as 64-bit words.
All addresses the code uses are multiples of 8 when the stack pointer and the REC pointer are, so two words either
are the same word or do not overlap; that is why memory can be a map from addresses to words.

Simplifications: instruction fetch, faults on RMM's own memory, and the barriers (`sb`) are left out.
-/

namespace Verif.Switch.Asm

abbrev W := BitVec 64

/-- The machine state RMM's entry and exit code works on. -/
structure M where
  x : Nat → W
  sp : Nat
  spEl0 : W
  dit : Bool
  mem : Nat → W
  pc : Nat

/-- The registers a transfer can name: a general register or XZR. -/
inductive G
  | x (n : Nat)
  | xzr

/-- The base of an address: the stack pointer or a general register. -/
inductive B
  | sp
  | x (n : Nat)

/-- The instructions that run-asm.S and vectors.S:49-71 use. -/
inductive I
  | subSp (n : Nat)
  | addSp (n : Nat)
  | stp (a b : G) (base : B) (off : Nat)
  /-- `stp a, b, [sp, #-n]!` -/
  | push (a b : G) (n : Nat)
  | ldp (a b : Nat) (base : B) (off : Nat)
  | str (a : Nat) (base : B) (off : Nat)
  | ldr (a : Nat) (base : B) (off : Nat)
  | movImm (a : Nat) (v : W)
  | msrSpEl0 (a : Nat)
  | mrsSpEl0 (a : Nat)
  | msrDitXzr
  | ret

def upd {α : Type} (f : Nat → α) (a : Nat) (v : α) : Nat → α := fun b => if b = a then v else f b

def rd (m : M) : G → W
  | .x n => m.x n
  | .xzr => 0

def addr (m : M) : B → Nat → Nat
  | .sp, off => m.sp + off
  | .x n, off => (m.x n).toNat + off

/-- What one instruction does (Arm ARM; `ldp` reads the base before it writes the two registers). -/
def one (m : M) : I → M
  | .subSp n => { m with sp := m.sp - n }
  | .addSp n => { m with sp := m.sp + n }
  | .stp a b base off => { m with mem := upd (upd m.mem (addr m base off) (rd m a)) (addr m base off + 8) (rd m b) }
  | .push a b n => { m with sp := m.sp - n, mem := upd (upd m.mem (m.sp - n) (rd m a)) (m.sp - n + 8) (rd m b) }
  | .ldp a b base off =>
    { m with x := upd (upd m.x a (m.mem (addr m base off))) b (m.mem (addr m base off + 8)) }
  | .str a base off => { m with mem := upd m.mem (addr m base off) (m.x a) }
  | .ldr a base off => { m with x := upd m.x a (m.mem (addr m base off)) }
  | .movImm a v => { m with x := upd m.x a v }
  | .msrSpEl0 a => { m with spEl0 := m.x a }
  | .mrsSpEl0 a => { m with x := upd m.x a m.spEl0 }
  | .msrDitXzr => { m with dit := false }
  | .ret => { m with pc := (m.x 30).toNat }

def exec (p : List I) (m : M) : M := p.foldl one m

/-- `run_realm`, up to its `eret`: /repo/runtime/core/aarch64/run-asm.S:19-53. -/
def runRealm : List I := [
  .subSp (16 * 6),
  .stp (.x 19) (.x 20) .sp (16 * 0),
  .stp (.x 21) (.x 22) .sp (16 * 1),
  .stp (.x 23) (.x 24) .sp (16 * 2),
  .stp (.x 25) (.x 26) .sp (16 * 3),
  .stp (.x 27) (.x 28) .sp (16 * 4),
  .stp (.x 29) (.x 30) .sp (16 * 5),
  .push (.x 0) .xzr 16,
  .ldp 2 3 (.x 0) (16 * 1),
  .ldp 4 5 (.x 0) (16 * 2),
  .ldp 6 7 (.x 0) (16 * 3),
  .ldp 8 9 (.x 0) (16 * 4),
  .ldp 10 11 (.x 0) (16 * 5),
  .ldp 12 13 (.x 0) (16 * 6),
  .ldp 14 15 (.x 0) (16 * 7),
  .ldp 16 17 (.x 0) (16 * 8),
  .ldp 18 19 (.x 0) (16 * 9),
  .ldp 20 21 (.x 0) (16 * 10),
  .ldp 22 23 (.x 0) (16 * 11),
  .ldp 24 25 (.x 0) (16 * 12),
  .ldp 26 27 (.x 0) (16 * 13),
  .ldp 28 29 (.x 0) (16 * 14),
  .ldr 30 (.x 0) (16 * 15),
  .ldr 1 (.x 0) (16 * 15 + 8),
  .msrSpEl0 1,
  .ldp 0 1 (.x 0) (16 * 0)]

/-- `el2_sync_lel`, `el2_irq_lel`, `el2_fiq_lel`, `el2_serror_lel`: vectors.S:49-71. They differ in the code
they put in X0 only. -/
def vector (code : W) : List I := [.push (.x 0) (.x 1) 16, .movImm 0 code]

/-- `realm_exit`: run-asm.S:56-115. `ehEnd` is RMM_CPU_EH_STACK_END_VA. -/
def realmExit (ehEnd : W) : List I := [
  .ldr 1 .sp 16,
  .stp (.x 2) (.x 3) (.x 1) (16 * 1),
  .stp (.x 4) (.x 5) (.x 1) (16 * 2),
  .stp (.x 6) (.x 7) (.x 1) (16 * 3),
  .stp (.x 8) (.x 9) (.x 1) (16 * 4),
  .stp (.x 10) (.x 11) (.x 1) (16 * 5),
  .stp (.x 12) (.x 13) (.x 1) (16 * 6),
  .stp (.x 14) (.x 15) (.x 1) (16 * 7),
  .stp (.x 16) (.x 17) (.x 1) (16 * 8),
  .stp (.x 18) (.x 19) (.x 1) (16 * 9),
  .stp (.x 20) (.x 21) (.x 1) (16 * 10),
  .stp (.x 22) (.x 23) (.x 1) (16 * 11),
  .stp (.x 24) (.x 25) (.x 1) (16 * 12),
  .stp (.x 26) (.x 27) (.x 1) (16 * 13),
  .stp (.x 28) (.x 29) (.x 1) (16 * 14),
  .str 30 (.x 1) (16 * 15),
  .mrsSpEl0 2,
  .str 2 (.x 1) (16 * 15 + 8),
  .movImm 2 ehEnd,
  .msrSpEl0 2,
  .msrDitXzr,
  .ldp 2 3 .sp 0,
  .stp (.x 2) (.x 3) (.x 1) (16 * 0),
  .addSp 32,
  .ldp 19 20 .sp (16 * 0),
  .ldp 21 22 .sp (16 * 1),
  .ldp 23 24 .sp (16 * 2),
  .ldp 25 26 .sp (16 * 3),
  .ldp 27 28 .sp (16 * 4),
  .ldp 29 30 .sp (16 * 5),
  .addSp (16 * 6),
  .ret]

/-! ## What the code must do, stated without it -/

/-- The realm sees exactly the registers RMM holds for the REC: Xn is word n of the REC's register area for n below
31, SP_EL0 is word 31. -/
def Loaded (recp : Nat) (before after : M) : Prop :=
  (∀ n, n ≤ 30 → after.x n = before.mem (recp + 8 * n)) ∧ after.spEl0 = before.mem (recp + 8 * 31)

/-- The REC's register area holds exactly the registers the realm had when it left. -/
def Stored (recp : Nat) (realm after : M) : Prop :=
  (∀ n, n ≤ 30 → after.mem (recp + 8 * n) = realm.x n) ∧ after.mem (recp + 8 * 31) = realm.spEl0

/-- The caller of `run_realm` finds what the procedure call standard promises it: X19-X30 and the stack pointer are
its own again, and execution goes on after the call. -/
def Returned (call after : M) : Prop :=
  (∀ n, 19 ≤ n → n ≤ 30 → after.x n = call.x n) ∧ after.sp = call.sp ∧ after.pc = (call.x 30).toNat

/-- Memory other than the REC's register area and the stack below the caller's stack pointer is as before. -/
def Elsewhere (recp : Nat) (call after : M) : Prop :=
  ∀ a, (a < recp ∨ recp + 256 ≤ a) → (a + 128 < call.sp ∨ call.sp ≤ a) → a % 8 = 0 → after.mem a = call.mem a

/-- While the realm runs it can change its own registers, and nothing of RMM's memory or stack pointer. -/
def RealmRuns (m m' : M) : Prop := m'.mem = m.mem ∧ m'.sp = m.sp

/-- The register area of the REC (256 bytes from `recp`) and the 128 bytes below the stack pointer are apart. -/
def Apart (m : M) (recp : Nat) : Prop :=
  128 ≤ m.sp ∧ m.sp % 16 = 0 ∧ recp % 8 = 0 ∧ (m.x 0).toNat = recp ∧ (m.sp ≤ recp ∨ recp + 256 ≤ m.sp - 128)

end Verif.Switch.Asm
