import Verif.Mem.Memset

/-!
# memcpy, memmove, memcmp, strnlen, strlcpy, scrubbing and cache maintenance

`none` is an access outside the memory the caller gave. Loops that the C code
leaves unbounded take fuel.
-/

namespace Verif.Mem

/-- Which bytes may be read and which may be written. -/
structure Perm where
  r : Addr → Bool
  w : Addr → Bool

abbrev Mem := Addr → Byte

def put (m : Mem) (a : Addr) (b : Byte) : Mem := fun x => if x = a then b else m x

def ld (p : Perm) (m : Mem) (a : Addr) : Option Byte := if p.r a = true then some (m a) else none

def st (p : Perm) (m : Mem) (a : Addr) (b : Byte) : Option Mem := if p.w a = true then some (put m a b) else none

/-- memcpy.c:9-19. The third argument is the remaining length. -/
def memcpy (p : Perm) (m : Mem) (d s : Addr) : Nat → Option Mem
  | 0 => some m
  | len + 1 => do
    let b ← ld p m s
    let m ← st p m d b
    memcpy p m (d + 1) (s + 1) len

/-- memmove.c:26-32: the backward loop, with `len` iterations until `d` equals `end`. -/
def back (p : Perm) (stop : Addr) (m : Mem) (d s : Addr) : Nat → Option Mem
  | 0 => none
  | fuel + 1 =>
    if d = stop then some m
    else do
      let b ← ld p m (s - 1)
      let m ← st p m (d - 1) b
      back p stop m (d - 1) (s - 1) fuel

/-- memmove.c:10-34. -/
def memmove (p : Perm) (m : Mem) (dst src : Addr) (len : BitVec 64) (fuel : Nat) : Option Mem :=
  if dst - src ≥ len then memcpy p m dst src len.toNat
  else back p dst m (dst + len) (src + len) fuel

/-- memcmp.c:9-25. -/
def memcmp (p : Perm) (m : Mem) (s d : Addr) : Nat → Option Int
  | 0 => some 0
  | len + 1 => do
    let sc ← ld p m s
    let dc ← ld p m d
    if (sc.toNat : Int) - dc.toNat ≠ 0 then some ((sc.toNat : Int) - dc.toNat)
    else memcmp p m (s + 1) (d + 1) len

/-- strnlen.c:30-40. -/
def strnlen (p : Perm) (m : Mem) (s : Addr) (maxlen : Nat) (len : Nat) : Nat → Option Nat
  | 0 => none
  | fuel + 1 =>
    if len < maxlen then do
      let b ← ld p m s
      if b = 0 then some len else strnlen p m (s + 1) maxlen (len + 1) fuel
    else some len

/-- strlcpy.c:36-41. `nleft` is the value before the decrement. Returns memory, `dst`, `src` and the new `nleft`. -/
def lcopy (p : Perm) (m : Mem) (dst src : Addr) : Nat → Option (Mem × Addr × Addr × Nat)
  | 0 => some (m, dst, src, 0)
  | nleft + 1 =>
    if nleft ≠ 0 then do
      let b ← ld p m src
      let m ← st p m dst b
      let c ← ld p m dst
      if c = 0 then some (m, dst + 1, src + 1, nleft) else lcopy p m (dst + 1) (src + 1) nleft
    else some (m, dst, src, 0)

/-- strlcpy.c:49-51: to the end of the source. -/
def lskip (p : Perm) (m : Mem) (src : Addr) : Nat → Option Addr
  | 0 => none
  | fuel + 1 => do
    let b ← ld p m src
    if b = 0 then some (src + 1) else lskip p m (src + 1) fuel

/-- strlcpy.c:29-55. -/
def strlcpy (p : Perm) (m : Mem) (dst src : Addr) (dsize : Nat) (fuel : Nat) : Option (Mem × BitVec 64) := do
  let (m, d, s, nleft) ← lcopy p m dst src dsize
  if nleft = 0 then
    let m ← if dsize ≠ 0 then st p m d 0 else some m
    let s ← lskip p m s fuel
    some (m, s - src - 1)
  else some (m, s - src - 1)

/-- DC ZVA: zeroes the naturally aligned block of `2 ^ log` bytes around the address. -/
def zva (p : Perm) (m : Mem) (a : Addr) (log : Nat) : Option Mem :=
  let base := a - BitVec.ofNat 64 (a.toNat % 2 ^ log)
  if may p.w base (2 ^ log) = true then
    some fun x => if x.toNat / 2 ^ log = a.toNat / 2 ^ log then 0 else m x
  else none

/-- granule.c:261-264. -/
def zvaLoop (p : Perm) (log : Nat) (m : Mem) (a : Addr) : Nat → Option Mem
  | 0 => some m
  | cnt + 1 => do
    let m ← zva p m a log
    zvaLoop p log m (a + BitVec.ofNat 64 (2 ^ log)) cnt

/-- granule.c:238-267. `none` also stands for the assertion and for a shift by a negative amount.
arch.h:738-740. -/
def memzero (p : Perm) (m : Mem) (buf : Addr) (dczid : BitVec 64) : Option Mem :=
  if dczid.getLsbD 4 = true then none
  else
    let log := (dczid.extractLsb' 0 4).toNat + 2
    if log ≤ 12 then zvaLoop p log m buf (2 ^ (12 - log)) else none

/-- cache_helpers.S:23-27: the addresses of the DC instructions; `none` when the loop has not ended. -/
def dcLoop (line stop x0 : Addr) : Nat → Option (List Addr)
  | 0 => none
  | fuel + 1 =>
    if x0 + line < stop then (dcLoop line stop (x0 + line) fuel).map (x0 :: ·) else some [x0]

/-- cache_helpers.S:16-31, asm_macros.S:58-64. `line` is 4 bytes shifted by CTR_EL0.DminLine. -/
def dcRange (ctr : BitVec 64) (x0 x1 : Addr) (fuel : Nat) : Option (List Addr) :=
  if x1 = 0 then some []
  else
    let line := (4 : Addr) <<< (ctr.extractLsb' 16 4).toNat
    dcLoop line (x0 + x1) (x0 &&& ~~~ (line - 1)) fuel

end Verif.Mem
