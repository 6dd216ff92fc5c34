import Verif.Conc.Word

/-!
# A granule under a weak memory model

One granule with its 16-bit descriptor and the data it protects, on any number of CPUs that do not
see each other's writes in order. The memory model is the usual operational one for acquire and
release: every write leaves a message, every CPU has a view, the oldest message of each location that
it may still read. A release puts the view of the CPU into the message, an acquire takes the view out
of it. Read-modify-write instructions read the newest message of the descriptor and pass on the view
in it.

The descriptor is only written by read-modify-write instructions (atomics.h, granule_lock.h), so its
messages are in the order of execution. A plain write to the data gets a timestamp, any that is newer
than the CPU's view: it need not be the newest of all. Left out: reads that take their value from a
write that comes later in program order on another CPU and depends on them (the instructions
concerned are ordered by acquire, release or data), and other granules, except that a CPU may learn
anything that another one knows (`learn`).
-/

namespace Verif.Weak

open Verif.Conc

/-- Who may touch a datum: whoever holds the lock, or the owner of the object, which is the one that
has locked the granule and seen no reference, or the one that has taken the reference (the REC that
runs). -/
inductive Kind where
  | lock | ref
  deriving DecidableEq

/-- Where a CPU is in its use of the granule. -/
inductive Mode where
  | idle
  /-- has the lock -/
  | locked
  /-- has the lock and has read a reference count of zero -/
  | own
  /-- and has taken a reference -/
  | got
  /-- has released the lock and has the reference -/
  | run
  deriving DecidableEq

def Mode.holds : Mode → Bool
  | .locked | .own | .got => true
  | _ => false

def Mode.owns : Mode → Bool
  | .own | .got | .run => true
  | _ => false

def Mode.refs : Mode → Bool
  | .got | .run => true
  | _ => false

/-- Which instructions order memory: LDSETAH in granule_bitlock_acquire, STCLRLH in
granule_bitlock_release (granule_lock.h:11-46), LDARH in granule_refcount_read_acquire
(granule.h:52-56), LDADDLH in atomic_granule_put_release (granule.h:284-292). -/
structure Order where
  lockAcq : Bool := true
  unlockRel : Bool := true
  countAcq : Bool := true
  putRel : Bool := true

section
variable (T X V : Type)

/-- A message of the descriptor. -/
structure Msg where
  val : Desc
  view : X → Nat

structure St where
  /-- the messages of the descriptor are `d 0` … `d n` -/
  d : Nat → Msg X
  n : Nat
  /-- the messages of a datum: timestamp and value, the one written last first -/
  mem : X → List (Nat × V)
  /-- the views: oldest readable message of the descriptor and of the data -/
  dv : T → Nat
  xv : T → X → Nat
  mode : T → Mode

end

variable {T X V : Type} [DecidableEq T] [DecidableEq X]

def upd {A B : Type} [DecidableEq A] (f : A → B) (a : A) (b : B) : A → B := fun x => if x = a then b else f x

/-- The view `v`, with `w` if `b`. -/
def join (b : Bool) (v w : X → Nat) : X → Nat := fun x => if b then max (v x) (w x) else v x

/-- The newest message. -/
def St.last (s : St T X V) : Msg X := s.d s.n

/-- CPU `t` appends a message to the descriptor. -/
def St.push (s : St T X V) (t : T) (m : Msg X) : St T X V :=
  { s with d := fun j => if j = s.n + 1 then m else s.d j, n := s.n + 1, dv := upd s.dv t (s.n + 1) }

def may (k : X → Kind) (s : St T X V) (t : T) (x : X) : Bool :=
  match k x with
  | .lock => (s.mode t).holds
  | .ref => (s.mode t).owns

/-- What a CPU does, with the choices that the memory makes: `j` is the message of the descriptor that
is read, `ts` the timestamp of a write, `i` the message of the datum that is read. -/
inductive Act (T X V : Type) where
  | lock (t : T) | spin (t : T) | peek (t : T) (j : Nat) | setState (t : T) (j : Nat) (st : BitVec 5)
  | count (t : T) (j : Nat) | get (t : T) | unlock (t : T) | put (t : T)
  | write (t : T) (x : X) (v : V) (ts : Nat) | read (t : T) (x : X) (i : Nat) | learn (t t' : T)

/-- What the program sees. -/
inductive Ev (T X V : Type) where
  | lock (t : T) | unlock (t : T) | count (t : T) (zero : Bool) | get (t : T) | put (t : T)
  | setState (t : T) (st : BitVec 5) | getState (t : T) (st : BitVec 5)
  | write (t : T) (x : X) (v : V) | read (t : T) (x : X) (v : V)
  | tau
  deriving DecidableEq

/-- One step; `none` if it cannot be taken. -/
def step (o : Order) (k : X → Kind) (s : St T X V) : Act T X V → Option (St T X V × Ev T X V)
  /- one LDSETAH of granule_bitlock_acquire (granule_lock.h:18-19) that gets the lock -/
  | .lock t =>
    if s.mode t = .idle ∧ locked s.last.val = false then
      some ({ s.push t ⟨ldset s.last.val, s.last.view⟩ with
        mode := upd s.mode t .locked
        xv := upd s.xv t (join o.lockAcq (s.xv t) s.last.view) }, .lock t)
    else none
  /- one that does not: the CPU tries again, after the LDXRH of lines 20-22 or at once -/
  | .spin t =>
    if (s.mode t).holds = false ∧ locked s.last.val = true then
      some ({ s.push t ⟨ldset s.last.val, s.last.view⟩ with
        xv := upd s.xv t (join o.lockAcq (s.xv t) s.last.view) }, .tau)
    else none
  /- a plain read of the descriptor: granule_get_state and the LOCKED(g) of the assertions by the
  holder of the lock, granule_unlocked_state or LDXRH by others (granule.h:125-141) -/
  | .peek t j =>
    if s.dv t ≤ j ∧ j ≤ s.n then
      some ({ s with dv := upd s.dv t j }, if (s.mode t).holds then .getState t (stateOf (s.d j).val) else .tau)
    else none
  /- granule_set_state (granule.h:144-161): a plain read of message `j`, and LDEORH -/
  | .setState t j st =>
    if (s.mode t).holds = true ∧ s.dv t ≤ j ∧ j ≤ s.n then
      some (s.push t ⟨s.last.val ^^^ eorVal (s.d j).val st, s.last.view⟩, .setState t st)
    else none
  /- granule_refcount_read_acquire (granule.h:52-56) by a CPU that has just locked the granule -/
  | .count t j =>
    if s.mode t = .locked ∧ s.dv t ≤ j ∧ j ≤ s.n then
      some ({ s with
        dv := upd s.dv t j
        xv := upd s.xv t (join o.countAcq (s.xv t) (s.d j).view)
        mode := if countOf (s.d j).val = 0 then upd s.mode t .own else s.mode }, .count t (countOf (s.d j).val = 0))
    else none
  /- atomic_granule_get, LDADDH (granule.h:234-252), by a CPU that has seen a count of zero -/
  | .get t =>
    if s.mode t = .own then
      some ({ s.push t ⟨addCount s.last.val 1, s.last.view⟩ with mode := upd s.mode t .got }, .get t)
    else none
  /- granule_bitlock_release, STCLRLH (granule_lock.h:33-46) -/
  | .unlock t =>
    if (s.mode t).holds = true then
      some ({ s.push t ⟨stclr s.last.val, join o.unlockRel s.last.view (s.xv t)⟩ with
        mode := upd s.mode t (if s.mode t = .got then .run else .idle) }, .unlock t)
    else none
  /- atomic_granule_put_release, LDADDLH (granule.h:284-292) -/
  | .put t =>
    if s.mode t = .run then
      some ({ s.push t ⟨addCount s.last.val (-1), join o.putRel s.last.view (s.xv t)⟩ with
        mode := upd s.mode t .idle }, .put t)
    else none
  /- a plain write, with a timestamp that is newer than the view and not taken -/
  | .write t x v ts =>
    if may k s t x = true ∧ s.xv t x < ts ∧ (∀ m ∈ s.mem x, m.1 ≠ ts) then
      some ({ s with mem := upd s.mem x ((ts, v) :: s.mem x), xv := upd s.xv t (upd (s.xv t) x ts) }, .write t x v)
    else none
  /- a plain read of any message that is not older than the view -/
  | .read t x i =>
    match (s.mem x)[i]? with
    | none => none
    | some m =>
      if may k s t x = true ∧ s.xv t x ≤ m.1 then
        some ({ s with xv := upd s.xv t (upd (s.xv t) x m.1) }, .read t x m.2)
      else none
  /- CPU `t` synchronises with `t'` by any other means -/
  | .learn t t' =>
    some ({ s with dv := upd s.dv t (max (s.dv t) (s.dv t')), xv := upd s.xv t (join true (s.xv t) (s.xv t')) }, .tau)

/-- An execution, and what the programs on the CPUs see of it. -/
def run (o : Order) (k : X → Kind) (s : St T X V) : List (Act T X V) → Option (St T X V × List (Ev T X V))
  | [] => some (s, [])
  | a :: as => (step o k s a).bind fun r => (run o k r.1 as).map fun q => (q.1, r.2 :: q.2)

/-- A granule that is unlocked and has no references, with data that all CPUs know. -/
def init (w : Desc) (v : X → V) : St T X V :=
  { d := fun _ => ⟨w, fun _ => 0⟩, n := 0, mem := fun x => [(0, v x)], dv := fun _ => 0, xv := fun _ _ => 0, mode := fun _ => .idle }

end Verif.Weak
