import Verif.Weak.Spec

/-!
# The spinlock, instruction by instruction

spinlock.h under the memory model of `Verif.Weak.Model`, with what the instructions need besides
memory: every CPU has an exclusive monitor and an event register. A store to the lock by another CPU
opens the monitor, which sets the event register (Arm ARM, "wait for event": the clearing of the
global monitor is one of the events). WFE completes if the event register is set, and clears it.

The lock word itself is coherent and LDAXR, STXR and STLR on it take effect in the order of
execution: a load-exclusive reads the word when it sets the monitor. The data that the lock protects
are read and written as in `Verif.Weak.Model`: a read may return an old message. STXR is not ordered
before the accesses that follow it; an access that is done early reads a message that it could also
read later, so this needs no extra step. A store-exclusive fails if and only if the monitor is open;
the monitor may open at any time (`clear`), also by a store to a neighbouring word. Left out: PRFM (a
hint), the 8-bit variant (byte_spinlock_t, lines 54-97, the same instructions on a byte, not used),
exceptions between the instructions (they open the monitor).
-/

namespace Verif.Spin

open Verif.Weak (upd join Ev Sc Kind)

/-- The next instruction of a CPU. -/
inductive Pc where
  /-- outside of the lock -/
  | idle
  | sevl | wfe | ldaxr
  /-- the first `cbnz`, with the word that was loaded -/
  | test (w : BitVec 32)
  | stxr
  /-- the second `cbnz`, with the status of the store -/
  | check (fail : Bool)
  /-- between spinlock_acquire and spinlock_release -/
  | held
  deriving DecidableEq

/-- What makes the lock work: the acquire of LDAXR, the release of STLR, the SEVL before the loop, and
that the load is exclusive. The code has them all. -/
structure Insn where
  acq : Bool := true
  rel : Bool := true
  sevl : Bool := true
  excl : Bool := true

structure St (T X V : Type) where
  word : BitVec 32
  /-- the view in the newest message of the lock -/
  view : X → Nat
  /-- the exclusive monitor is armed -/
  mon : T → Bool
  /-- the event register -/
  ev : T → Bool
  pc : T → Pc
  /-- the messages of a datum: timestamp and value, the one written last first -/
  mem : X → List (Nat × V)
  /-- the views: the oldest message of each datum that a CPU may still read -/
  xv : T → X → Nat

variable {T X V : Type} [DecidableEq T] [DecidableEq X]

/-- CPU `t` stores to the lock: the monitors of the others open, which is an event for them. (The
monitor of `t` opens too; that this is an event for `t` is not assumed.) -/
def St.store (s : St T X V) (t : T) (w : BitVec 32) (v : X → Nat) : St T X V :=
  { s with
    word := w
    view := v
    ev := fun u => s.ev u || (u ≠ t && s.mon u)
    mon := fun _ => false }

inductive Act (T X V : Type) where
  | call (t : T) | step (t : T) | release (t : T)
  | clear (t : T) | event (t : T)
  | write (t : T) (x : X) (v : V) (ts : Nat) | read (t : T) (x : X) (i : Nat) | learn (t t' : T)

/-- One instruction of spinlock_acquire (spinlock.h:18-39); `none`: the CPU waits. -/
def insn (o : Insn) (s : St T X V) (t : T) : Option (St T X V × Ev T X V) :=
  match s.pc t with
  | .idle | .held => none
  /- line 26 (line 27 is a hint) -/
  | .sevl => some ({ s with ev := if o.sevl then upd s.ev t true else s.ev, pc := upd s.pc t .wfe }, .tau)
  /- line 29 -/
  | .wfe => if s.ev t = true then some ({ s with ev := upd s.ev t false, pc := upd s.pc t .ldaxr }, .tau) else none
  /- line 30 -/
  | .ldaxr => some ({ s with
      mon := if o.excl then upd s.mon t true else s.mon
      xv := upd s.xv t (join o.acq (s.xv t) s.view)
      pc := upd s.pc t (.test s.word) }, .tau)
  /- line 31 -/
  | .test w => some ({ s with pc := upd s.pc t (if w ≠ 0 then .wfe else .stxr) }, .tau)
  /- line 32; the store has no release, but it passes on the view -/
  | .stxr =>
    if s.mon t = true then some ({ s.store t 1 s.view with pc := upd s.pc t (.check false) }, .lock t)
    else some ({ s with pc := upd s.pc t (.check true) }, .tau)
  /- line 33 -/
  | .check b => some ({ s with pc := upd s.pc t (if b then .wfe else .held) }, .tau)

/-- One step; `none` if it cannot be taken. -/
def step (o : Insn) (s : St T X V) : Act T X V → Option (St T X V × Ev T X V)
  /- spinlock_acquire is called -/
  | .call t => if s.pc t = .idle then some ({ s with pc := upd s.pc t .sevl }, .tau) else none
  | .step t => insn o s t
  /- spinlock_release (spinlock.h:41-52), STLR -/
  | .release t =>
    if s.pc t = .held then
      some ({ s.store t 0 (if o.rel then join true s.view (s.xv t) else s.view) with pc := upd s.pc t .idle }, .unlock t)
    else none
  /- the monitor opens for another reason -/
  | .clear t => some ({ s with mon := upd s.mon t false, ev := if s.mon t then upd s.ev t true else s.ev }, .tau)
  /- another event -/
  | .event t => some ({ s with ev := upd s.ev t true }, .tau)
  /- a plain write, with a timestamp that is newer than the view and not taken -/
  | .write t x v ts =>
    if s.pc t = .held ∧ s.xv t x < ts ∧ (∀ m ∈ s.mem x, m.1 ≠ ts) then
      some ({ s with mem := upd s.mem x ((ts, v) :: s.mem x), xv := upd s.xv t (upd (s.xv t) x ts) }, .write t x v)
    else none
  /- a plain read of any message that is not older than the view -/
  | .read t x i =>
    match (s.mem x)[i]? with
    | none => none
    | some m =>
      if s.pc t = .held ∧ s.xv t x ≤ m.1 then
        some ({ s with xv := upd s.xv t (upd (s.xv t) x m.1) }, .read t x m.2)
      else none
  /- CPU `t` synchronises with `t'` by any other means -/
  | .learn t t' => some ({ s with xv := upd s.xv t (join true (s.xv t) (s.xv t')) }, .tau)

/-- An execution, and what the programs on the CPUs see of it. -/
def run (o : Insn) (s : St T X V) : List (Act T X V) → Option (St T X V × List (Ev T X V))
  | [] => some (s, [])
  | a :: as => (step o s a).bind fun r => (run o r.1 as).map fun q => (q.1, r.2 :: q.2)

/-- The lock as it is initialised (rmm_el3_runtime.c:18), with data that all CPUs know; the monitors and
the event registers hold anything. -/
def init (mon ev : T → Bool) (v : X → V) : St T X V :=
  { word := 0, view := fun _ => 0, mon := mon, ev := ev, pc := fun _ => .idle, mem := fun x => [(0, v x)], xv := fun _ _ => 0 }

/-- The CPU waits in WFE and nothing has woken it up. -/
def asleep (s : St T X V) (t : T) : Prop := s.pc t = .wfe ∧ s.ev t = false

/-- The CPU is in spinlock_acquire. -/
def Pc.waits : Pc → Bool
  | .idle | .held => false
  | _ => true

/-- Is this an instruction of spinlock_acquire on CPU `t`? -/
def Act.by (t : T) : Act T X V → Bool
  | .step u => u = t
  | _ => false

end Verif.Spin
