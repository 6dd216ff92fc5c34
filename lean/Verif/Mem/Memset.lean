import Verif.Basic

/-!
# memset

/repo/lib/libc/src/aarch64/memset.S:19-63, instruction by instruction.
-/

namespace Verif.Mem

abbrev Addr := BitVec 64
abbrev Byte := BitVec 8

/-- The registers the function uses. -/
inductive R where
  | x0 | x1 | x2 | x3 | x4
  deriving DecidableEq

/-- Of the flags only Z is used. -/
structure Cpu where
  pc : Nat
  x0 : BitVec 64
  x1 : BitVec 64
  x2 : BitVec 64
  x3 : BitVec 64
  x4 : BitVec 64
  z : Bool
  mem : Addr → Byte

def Cpu.get (s : Cpu) : R → BitVec 64
  | .x0 => s.x0 | .x1 => s.x1 | .x2 => s.x2 | .x3 => s.x3 | .x4 => s.x4

def Cpu.set (s : Cpu) (r : R) (v : BitVec 64) : Cpu :=
  match r with
  | .x0 => { s with x0 := v } | .x1 => { s with x1 := v } | .x2 => { s with x2 := v }
  | .x3 => { s with x3 := v } | .x4 => { s with x4 := v }

/-- The instructions; branch targets are positions in the program. -/
inductive Instr where
  | cbz (r : R) (l : Nat)
  | mov (d n : R)
  | tst (r : R) (imm : BitVec 64)
  | beq (l : Nat)
  | bne (l : Nat)
  /-- store of the low `size` bytes of `r`, then add `inc` to the base -/
  | str (size : Nat) (r b : R) (inc : Nat)
  /-- store of `r` twice -/
  | stp (r b : R) (inc : Nat)
  | subs (d n : R) (imm : Nat)
  | bfiW (d n : R) (lsb width : Nat)
  | bfiX (d n : R) (lsb width : Nat)
  | ands (d n : R) (imm : BitVec 64)
  | tbz (r : R) (bit l : Nat)
  | ret

inductive Out where
  | run (s : Cpu)
  | done (s : Cpu)
  /-- an access outside the memory the caller gave, or one that is not aligned -/
  | fault

/-- Byte `i` of a register. -/
def byte (v : BitVec 64) (i : Nat) : Byte := v.extractLsb' (8 * i) 8

/-- Stores the low `n` bytes of `v`, least significant first. -/
def wr (m : Addr → Byte) (a : Addr) (n : Nat) (v : BitVec 64) : Addr → Byte :=
  fun x => if (x - a).toNat < n then byte v (x - a).toNat else m x

/-- The bytes `a` to `a + n - 1` may be written. -/
def may (ok : Addr → Bool) (a : Addr) (n : Nat) : Bool := (List.range n).all fun i => ok (a + BitVec.ofNat 64 i)

/-- BFI for a register of `n` bits. -/
def bfi {n : Nat} (d s : BitVec n) (lsb width : Nat) : BitVec n :=
  let mask := BitVec.ofNat n (2 ^ width - 1)
  (d &&& ~~~ (mask <<< lsb)) ||| ((s &&& mask) <<< lsb)

def Cpu.next (s : Cpu) : Cpu := { s with pc := s.pc + 1 }

def exec (ok : Addr → Bool) (s : Cpu) : Instr → Out
  | .cbz r l => .run (if s.get r = 0 then { s with pc := l } else s.next)
  | .mov d n => .run (s.set d (s.get n)).next
  | .tst r imm => .run { s with z := s.get r &&& imm == 0 }.next
  | .beq l => .run (if s.z then { s with pc := l } else s.next)
  | .bne l => .run (if s.z then s.next else { s with pc := l })
  | .str size r b inc =>
    let a := s.get b
    if a.toNat % size = 0 ∧ may ok a size = true then
      .run ({ s with mem := wr s.mem a size (s.get r) }.set b (a + BitVec.ofNat 64 inc)).next
    else .fault
  | .stp r b inc =>
    let a := s.get b
    if a.toNat % 8 = 0 ∧ may ok a 16 = true then
      .run ({ s with mem := wr (wr s.mem a 8 (s.get r)) (a + 8) 8 (s.get r) }.set b (a + BitVec.ofNat 64 inc)).next
    else .fault
  | .subs d n imm =>
    let v := s.get n - BitVec.ofNat 64 imm
    .run ({ s with z := v == 0 }.set d v).next
  | .bfiW d n lsb width =>
    .run (s.set d ((bfi ((s.get d).setWidth 32) ((s.get n).setWidth 32) lsb width).setWidth 64)).next
  | .bfiX d n lsb width => .run (s.set d (bfi (s.get d) (s.get n) lsb width)).next
  | .ands d n imm =>
    let v := s.get n &&& imm
    .run ({ s with z := v == 0 }.set d v).next
  | .tbz r bit l => .run (if (s.get r).getLsbD bit then s.next else { s with pc := l })
  | .ret => .done s

/-- memset.S:20-61, with the four copies of `.rept 4` written out. -/
def memset : List Instr := [
  .cbz .x2 34,
  .mov .x3 .x0,
  .tst .x0 7,
  .beq 9,
  .str 1 .x1 .x3 1,
  .subs .x2 .x2 1,
  .beq 34,
  .tst .x3 7,
  .bne 4,
  .cbz .x1 13,
  .bfiW .x1 .x1 8 8,
  .bfiW .x1 .x1 16 16,
  .bfiX .x1 .x1 32 32,
  .ands .x4 .x2 (~~~ 0x3f#64),
  .beq 21,
  .stp .x1 .x3 16,
  .stp .x1 .x3 16,
  .stp .x1 .x3 16,
  .stp .x1 .x3 16,
  .subs .x4 .x4 64,
  .bne 15,
  .tbz .x2 5 24,
  .stp .x1 .x3 16,
  .stp .x1 .x3 16,
  .tbz .x2 4 26,
  .stp .x1 .x3 16,
  .tbz .x2 3 28,
  .str 8 .x1 .x3 8,
  .tbz .x2 2 30,
  .str 4 .x1 .x3 4,
  .tbz .x2 1 32,
  .str 2 .x1 .x3 2,
  .tbz .x2 0 34,
  .str 1 .x1 .x3 0,
  .ret]

/-- One instruction. -/
def step (ok : Addr → Bool) (s : Cpu) : Out :=
  match memset[s.pc]? with
  | some i => exec ok s i
  | none => .fault

def run (ok : Addr → Bool) : Nat → Cpu → Out
  | 0, s => .run s
  | n + 1, s => match step ok s with | .run s' => run ok n s' | o => o

end Verif.Mem
