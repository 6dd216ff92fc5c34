import Verif.Mem.MemsetProof

/-!
# Relocation at boot

/repo/runtime/core/aarch64/helpers.S:33-126 (fixup_gdt_reloc). RMM is linked at address 0 and runs at
the address it was loaded to. Memory is a function from addresses to 64-bit words; only addresses
that are multiples of 8 are used, any other access is a fault, as it is with the MMU off.
-/

namespace Verif.Boot

open Verif.Mem (Addr)

abbrev W := Addr → BitVec 64

def wput (m : W) (a : Addr) (v : BitVec 64) : W := fun x => if x = a then v else m x

def al8 (a : Addr) : Bool := a.toNat % 8 == 0

def wld (m : W) (a : Addr) : Option (BitVec 64) := if al8 a then some (m a) else none

def wst (m : W) (a : Addr) (v : BitVec 64) : Option W := if al8 a then some (wput m a v) else none

/-- helpers.S:60-69: one word of the GOT. `x0` is 0, `x1` the size of the image, `x2` its address. -/
def gotOne (x0 x1 x2 : BitVec 64) (m : W) (x6 : Addr) : Option W :=
  (wld m x6).bind fun x3 =>
    if x3 < x0 then some m else if x3 > x1 then some m else wst m x6 (x3 + x2)

/-- helpers.S:60-73, `x7` is the end of the table. `none` is a fault, a failed assertion, or more
iterations than `fuel`. -/
def gotLoop (x0 x1 x2 x7 : BitVec 64) (m : W) (x6 : Addr) : Nat → Option W
  | 0 => none
  | fuel + 1 => (gotOne x0 x1 x2 m x6).bind fun m =>
    if x6 + 8 < x7 then gotLoop x0 x1 x2 x7 m (x6 + 8) fuel else some m

/-- helpers.S:98-119: one relocation, with the assertion of debug builds. -/
def relaOne (x0 x1 x2 : BitVec 64) (m : W) (x6 : Addr) : Option W :=
  (wld m (x6 + 8)).bind fun info =>
    if info = 0 then some m
    else if info ≠ 1027 then none
    else (wld m (x6 + 16)).bind fun x4 =>
      if x4 < x0 then some m
      else if x4 > x1 then some m
      else (wld m x6).bind fun x3 => wst m (x3 + x2) (x4 + x2)

/-- helpers.S:98-123. -/
def relaLoop (x0 x1 x2 x7 : BitVec 64) (m : W) (x6 : Addr) : Nat → Option W
  | 0 => none
  | fuel + 1 => (relaOne x0 x1 x2 m x6).bind fun m =>
    if x6 + 24 < x7 then relaLoop x0 x1 x2 x7 m (x6 + 24) fuel else some m

/-- Where the linker put things (linker.lds:13-97), as addresses at run time. -/
structure Image where
  base : Addr
  fin : Addr
  gotS : Addr
  gotE : Addr
  relS : Addr
  relE : Addr

/-- helpers.S:33-126. -/
def fixup (g : Image) (m : W) (fuel : Nat) : Option W :=
  if g.base = 0 then some m
  else do
    let m ← gotLoop 0 (g.fin - g.base) g.base g.gotE m g.gotS fuel
    relaLoop 0 (g.fin - g.base) g.base g.relE m g.relS fuel

end Verif.Boot
