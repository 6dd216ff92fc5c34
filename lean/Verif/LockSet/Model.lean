import Verif.Basic

/-!
# Locking a set of granules by address

Model of `sort_granules`, `find_lock_granule`, `find_lock_granules` and
`find_lock_two_granules`: /repo/lib/granule/src/granule.c:112-236.

* `gs` is the C array, a function from positions to items.
* `find addr` is the granule index `find_granule` gives for an address (see
  `Verif.Dram`); `none` is NULL.
* Other CPUs may change granule states between two lock operations of this CPU:
  `env t g` is the state of granule `g` when this CPU obtains its lock at its
  `t`-th lock operation (waiting for the lock is not modelled here).
* `held g` says that this CPU holds the lock of `g`.  Locking a granule it already
  holds spins forever: that is the outcome `none` of `lockOne`.
-/

namespace Verif.LockSet

/-- `struct granule_set`: granule.c:128-133.  `slot` identifies the `g_ret` pointer. -/
structure Item where
  addr : Nat
  state : Nat
  slot : Nat
  deriving DecidableEq, Repr

abbrev Arr := Nat → Item

def upd (a : Arr) (i : Nat) (x : Item) : Arr := fun k => if k = i then x else a k

/-- Inner loop of `sort_granules`: granule.c:144-147. -/
def shift (temp : Item) : Nat → Arr → Arr × Nat
  | 0, a => (a, 0)
  | j + 1, a =>
    if temp.addr < (a j).addr then shift temp j (upd a (j + 1) (a j)) else (a, j + 1)

/-- Body of the outer loop: granule.c:141-151. -/
def sortStep (a : Arr) (i : Nat) : Arr :=
  let temp := a i
  let r := shift temp i a
  if i ≠ r.2 then upd r.1 r.2 temp else r.1

/-- `sort_granules`: granule.c:138-152. -/
def sortFrom : Nat → Nat → Arr → Arr
  | 0, _, a => a
  | fuel + 1, i, a => sortFrom fuel (i + 1) (sortStep a i)

def sortGranules (a : Arr) (n : Nat) : Arr := sortFrom (n - 1) 1 a

/-- State of the locks held by this CPU. -/
abbrev Held := Nat → Bool

/-- `granule_lock_on_state_match`: /repo/lib/granule/include/granule.h:167-179, with
the bit lock of granule_lock.h.  The result says whether the state matched. -/
def lockOne (env : Nat → Nat → Nat) (t : Nat) (held : Held) (g expected : Nat) :
    Option (Bool × Held) :=
  if held g then none
  else if env t g ≠ expected then some (false, held)
  else some (true, fun k => if k = g then true else held k)

/-- `granule_unlock` -/
def unlock (held : Held) (g : Nat) : Held := fun k => if k = g then false else held k

/-- `find_lock_granule`: granule.c:112-126. -/
def findLock (find : Nat → Option Nat) (env : Nat → Nat → Nat) (t : Nat) (held : Held)
    (addr expected : Nat) : Option (Option Nat × Held) :=
  match find addr with
  | none => some (none, held)
  | some g =>
    match lockOne env t held g expected with
    | none => none
    | some (true, h) => some (some g, h)
    | some (false, h) => some (none, h)

/-- The error path: unlock `g_{i-1} .. g_0`: granule.c:207-210. -/
def unlockAll (gp : Nat → Nat) : Nat → Held → Held
  | 0, h => h
  | i + 1, h => unlockAll gp i (unlock h (gp i))

/-- The locking loop: granule.c:188-199.  `gp` collects the `g` members. The result is
whether all were locked, the position reached, the `g` members and the locks held. -/
def lockLoop (find : Nat → Option Nat) (env : Nat → Nat → Nat) (a : Arr) :
    Nat → Nat → (Nat → Nat) → Held → Option (Bool × Nat × (Nat → Nat) × Held)
  | 0, i, gp, h => some (true, i, gp, h)
  | fuel + 1, i, gp, h =>
    if i ≠ 0 ∧ (a i).addr = (a (i - 1)).addr then some (false, i, gp, h)
    else
      match findLock find env i h (a i).addr (a i).state with
      | none => none
      | some (none, h') => some (false, i, gp, h')
      | some (some g, h') => lockLoop find env a fuel (i + 1) (fun k => if k = i then g else gp k) h'

/-- Final assignments `*gs[i].g_ret = gs[i].g`: granule.c:201-203. -/
def assign (a : Arr) (gp : Nat → Nat) : Nat → Nat → (Nat → Option Nat) → (Nat → Option Nat)
  | 0, _, ret => ret
  | fuel + 1, i, ret => assign a gp fuel (i + 1) (fun s => if s = (a i).slot then some (gp i) else ret s)

/-- `find_lock_granules`: granule.c:182-213.  `ret` are the caller's pointers; `none`
means this CPU spins forever. -/
def findLockGranules (find : Nat → Option Nat) (env : Nat → Nat → Nat) (gs : Arr) (n : Nat)
    (ret : Nat → Option Nat) (held : Held) : Option (Bool × (Nat → Option Nat) × Held) :=
  let a := sortGranules gs n
  match lockLoop find env a n 0 (fun _ => 0) held with
  | none => none
  | some (true, _, gp, h) => some (true, assign a gp n 0 ret, h)
  | some (false, i, gp, h) => some (false, ret, unlockAll gp i h)

end Verif.LockSet
