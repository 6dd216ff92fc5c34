import Verif.Weak.Model

/-!
# The granule that the programmer has in mind

One memory, one lock, one reference: every event happens at once and for all CPUs.
-/

namespace Verif.Weak

variable {T X V : Type} [DecidableEq T] [DecidableEq X] [DecidableEq V]

structure Sc (T X V : Type) where
  mem : X → V
  state : BitVec 5
  holder : Option T
  /-- the holder has found the granule unused -/
  unused : Bool
  /-- who has the reference -/
  ref : Option T
  /-- somebody has had the reference since the lock was taken -/
  busy : Bool

/-- May CPU `t` touch the datum `x`? -/
def Sc.may (k : X → Kind) (a : Sc T X V) (t : T) (x : X) : Bool :=
  match k x with
  | .lock => a.holder = some t
  | .ref => (a.holder = some t && a.unused) || a.ref = some t

/-- `none`: this cannot happen. -/
def Sc.step (k : X → Kind) (a : Sc T X V) : Ev T X V → Option (Sc T X V)
  | .lock t => if a.holder = none ∧ a.ref ≠ some t then some { a with holder := some t, unused := false, busy := a.ref.isSome } else none
  | .unlock t => if a.holder = some t then some { a with holder := none, unused := false } else none
  | .count t zero =>
    if a.holder = some t ∧ a.ref ≠ some t then
      if zero then if a.ref = none then some { a with unused := true } else none
      else if a.busy then some a else none
    else none
  | .get t => if a.holder = some t ∧ a.unused = true ∧ a.ref = none then some { a with ref := some t, busy := true } else none
  | .put t => if a.ref = some t ∧ a.holder ≠ some t then some { a with ref := none } else none
  | .setState t st => if a.holder = some t then some { a with state := st } else none
  | .getState t st => if a.holder = some t ∧ st = a.state then some a else none
  | .write t x v => if a.may k t x then some { a with mem := fun y => if y = x then v else a.mem y } else none
  | .read t x v => if a.may k t x ∧ v = a.mem x then some a else none
  | .tau => some a

def Sc.run (k : X → Kind) (a : Sc T X V) : List (Ev T X V) → Option (Sc T X V)
  | [] => some a
  | e :: es => (a.step k e).bind fun b => b.run k es

def Sc.init (st : BitVec 5) (v : X → V) : Sc T X V :=
  { mem := v, state := st, holder := none, unused := false, ref := none, busy := false }

end Verif.Weak
