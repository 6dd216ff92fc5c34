import Verif.Atom.Main

/-!
# Creating and destroying realms and RECs in small steps

In `Verif.Atom` the table commands run in small steps and REALM_CREATE, REALM_DESTROY,
REC_CREATE and REC_DESTROY are single steps.  The code does not run them like that: a VMID is
reserved before any lock is taken and given back when the command fails; auxiliary granules
become REC_AUX one after the other, each unlocked at once, and go back when the command
fails; the starting level tables of a realm are counted one by one, each unlocked at once,
then freed one by one; a REC gives up its reference to the realm after everything else.
Here these four commands are programs of several steps, run by any number of CPUs together
with the programs of `Verif.Atom` over one shared `Rmm.State` with granule locks.
-/

namespace Verif.Life

open Rmm
open Atom (two)

/-- Where a CPU is. -/
inductive Pc where
  /-- outside RMM, or in a command of `Verif.Atom` -/
  | walk (p : Atom.Pc)
  /-- REALM_CREATE: the parameters have been read and are valid; the VMID is next -/
  | cReserve (rd pA : Nat) (q : RealmParams)
  /-- REALM_CREATE: taking the locks of the realm descriptor and the root tables -/
  | cLock (rd pA : Nat) (q : RealmParams) (todo done : List Nat)
  /-- REALM_CREATE has failed; the VMID is still to be given back -/
  | cUndo (rd pA : Nat) (q : RealmParams)
  /-- REALM_DESTROY: the reference counts of the first `k` root tables add up to `acc` -/
  | dSum (rd : Nat) (r : Rd) (k acc : Nat)
  /-- REALM_DESTROY: the first `k` root tables have been freed -/
  | dFree (rd : Nat) (r : Rd) (k : Nat)
  /-- REC_CREATE: taking the auxiliary granules -/
  | nTake (rd recA pA : Nat) (q : RecParams) (todo done : List Nat)
  /-- REC_CREATE: taking the locks of the REC and the realm descriptor -/
  | nLock (rd recA pA : Nat) (q : RecParams) (todo done : List (Nat × GSt))
  /-- REC_CREATE has failed; the auxiliary granules `todo` are still to be given back -/
  | nFree (rd recA pA : Nat) (q : RecParams) (ret : Ret) (todo : List Nat)
  /-- REC_DESTROY: the auxiliary granules `todo` and the REC are still to be freed -/
  | kFree (recA rd : Nat) (todo : List Nat)
  /-- REC_DESTROY: the reference to the realm descriptor is still to be dropped -/
  | kPut (recA rd : Nat)

/-- A CPU outside RMM. -/
abbrev Pc.idle : Pc := .walk .idle

/-- The granules a CPU has locked. -/
def held : Pc → List Nat
  | .walk p => Atom.held p
  | .cLock _ _ _ _ done => done
  | .dSum rd _ _ _ | .dFree rd _ _ => [rd]
  | .nLock _ _ _ _ _ done => done.map (·.1)
  | .kFree recA _ _ => [recA]
  | _ => []

/-- The machine: memory and granules, and where each CPU is. -/
structure M where
  s : State
  pc : Nat → Pc

/-- No CPU (of `n`) has granule `x` locked. -/
def free (n : Nat) (m : M) (x : Nat) : Bool := (List.range n).all fun j => decide (x ∉ held (m.pc j))

/-- A CPU as the programs of `Verif.Atom` on other CPUs see it: by the locks it holds. -/
def shown : Pc → Atom.Pc
  | .walk p => p
  | p => .locking (.rttReadEntry 0 0 0) [] ((held p).map fun x => (x, .rd))

/-- The machine as the programs of `Verif.Atom` see it. -/
def M.atom (m : M) : Atom.M := ⟨m.s, fun j => shown (m.pc j)⟩

/-- What is recorded of an execution.  `point`: where a command takes effect, or is found to
fail; `exit`: where it returns. -/
inductive Ev where
  | point (i : Nat) (op : Op) (ret : Ret)
  | exit (i : Nat) (op : Op) (ret : Ret)

/-- Outcome of a step of one CPU. -/
inductive Res where
  /-- waits for a lock -/
  | blocked
  /-- an assertion fails in this operation, or it unlocks a granule that it has not locked -/
  | fail (op : Op)
  /-- a step, with what is recorded, latest first -/
  | ok (m : M) (ev : List Ev)

/-- The CPU moves on inside its command. -/
def M.to (m : M) (i : Nat) (s : State) (p : Pc) (ev : List Ev := []) : Res := .ok ⟨s, upd m.pc i p⟩ ev

/-- A command ends with `ret` in the step that decides about it. -/
def M.fin (m : M) (i : Nat) (s : State) (op : Op) (ret : Ret) : Res :=
  m.to i s .idle [.exit i op ret, .point i op ret]

/-- A step of a program of `Verif.Atom`. -/
def lift (m : M) (i : Nat) : Atom.Res → Res
  | .blocked => .blocked
  | .fail op => .fail op
  | .ok a none => m.to i a.s (.walk (a.pc i))
  | .ok a (some (op, ret)) => m.to i a.s (.walk (a.pc i)) [.exit i op ret, .point i op ret]

/-- The starting level tables named by the parameters. -/
def roots (q : RealmParams) : List Nat := (List.range q.p.rttNumStart).map (q.rttBase + 4096 * ·)

/-- The order in which `find_lock_rd_granules` takes its locks: realm.c:338-377. -/
def order (rd : Nat) (q : RealmParams) : List Nat :=
  if rd < q.rttBase then rd :: roots q else roots q ++ [rd]

/-- A granule is freed: `buffer_granule_memzero` and `granule_unlock_transition` to
DELEGATED. -/
def wipe (s : State) (x : Nat) : State :=
  { s with st := upd s.st x .delegated, mem := upd s.mem x (.page 0) }

/-- The checks of REC_CREATE under the locks of the REC and the realm descriptor: rec.c:313-344.
`none` is a success. -/
def nCheck (s : State) (rd : Nat) (r : Rd) (q : RecParams) : Option Ret :=
  if s.rc rd = 1023 then some (errRealm 0)
  else if r.state ≠ .new then some (errRealm 0)
  else if Mpidr.isValid q.mpidr = false ∨ (Mpidr.toIdx q.mpidr).toNat ≠ r.recCount then some errInput
  else if q.numAux ≠ r.numAux then some errInput
  else none

/-- One step of CPU `i` inside a command.

* REALM_CREATE: `vmid_reserve` (realm.c:300, /repo/lib/arch/src/vmid.c:28-50), the aliasing
  check (412-419), `find_lock_rd_granules` (338-391; when a granule cannot be taken all locks
  are released and the VMID is given back, 421-426), then the descriptor, the tables and
  their states under all the locks (428-474; the locks are released one by one, which no other
  CPU can tell from releasing them together).
* REALM_DESTROY: `total_root_rtt_refcount` (479-498) with only the realm descriptor
  locked; `vmid_free` (539); `free_sl_rtts` (323-336); the realm descriptor (544-546).
* REC_CREATE: rec.c:283-298.  When an auxiliary granule cannot be taken after others were,
  these are unlocked though they are not locked (289-292): the step fails.  Then the locks of
  the REC and the realm descriptor (300-308), the checks and the rest (313-387), or
  `free_rec_aux_granules` (390-397, 178-191).
* REC_DESTROY: `free_rec_aux_granules` (424), the REC (426-429), the reference (440). -/
def go (P : Plat) (n : Nat) (m : M) (i : Nat) : Res :=
  match m.pc i with
  | .walk _ => lift m i (Atom.go P n m.atom i)
  | .cReserve rd pA q =>
    if q.vmid < P.vmidCount ∧ m.s.vmid q.vmid = false then
      let s' := { m.s with vmid := upd m.s.vmid q.vmid true }
      if q.rttBase ≤ rd ∧ rd < q.rttBase + q.p.rttNumStart * 4096 then
        m.to i s' (.cUndo rd pA q) [.point i (.realmCreate rd pA q) errInput]
      else m.to i s' (.cLock rd pA q (order rd q) [])
    else m.fin i m.s (.realmCreate rd pA q) errInput
  | .cLock rd pA q (x :: todo) done =>
    if P.tracked x = false then m.to i m.s (.cUndo rd pA q) [.point i (.realmCreate rd pA q) errInput]
    else if free n m x then
      if m.s.st x = .delegated then m.to i m.s (.cLock rd pA q todo (done ++ [x]))
      else m.to i m.s (.cUndo rd pA q) [.point i (.realmCreate rd pA q) errInput]
    else .blocked
  | .cLock rd pA q [] _ =>
    match Geometry.initStartingLevel q.p.s2sz q.p.rttLevelStart q.p.rttNumStart with
    | none => .fail (.realmCreate rd pA q)
    | some ts => m.fin i (realmCreateSt m.s rd q ts) (.realmCreate rd pA q) {}
  | .cUndo rd pA q =>
    m.to i { m.s with vmid := upd m.s.vmid q.vmid false } .idle [.exit i (.realmCreate rd pA q) errInput]
  | .dSum rd r k acc =>
    if k < r.nroots then
      let x := r.root + 4096 * k
      if free n m x then
        if m.s.st x = .rtt then m.to i m.s (.dSum rd r (k + 1) (acc + m.s.rc x))
        else .fail (.realmDestroy rd)
      else .blocked
    else if acc ≠ 0 then m.fin i m.s (.realmDestroy rd) (errRealm 0)
    else if r.vmid < P.vmidCount then
      m.to i { m.s with vmid := upd m.s.vmid r.vmid false } (.dFree rd r 0) [.point i (.realmDestroy rd) {}]
    else .fail (.realmDestroy rd)
  | .dFree rd r k =>
    if k < r.nroots then
      let x := r.root + 4096 * k
      if free n m x then
        if m.s.st x = .rtt then m.to i (wipe m.s x) (.dFree rd r (k + 1)) else .fail (.realmDestroy rd)
      else .blocked
    else m.to i (wipe m.s rd) .idle [.exit i (.realmDestroy rd) {}]
  | .nTake rd recA pA q (a :: todo) done =>
    let bad := if done = [] then m.fin i m.s (.recCreate rd recA pA q) errInput else .fail (.recCreate rd recA pA q)
    if P.tracked a = false then bad
    else if free n m a then
      if m.s.st a = .delegated then
        m.to i { m.s with st := upd m.s.st a .recAux } (.nTake rd recA pA q todo (done ++ [a]))
      else bad
    else .blocked
  | .nTake rd recA pA q [] _ =>
    m.to i m.s (.nLock rd recA pA q (two (recA, .delegated) (rd, .rd)) [])
  | .nLock rd recA pA q ((x, e) :: todo) done =>
    let bad := m.to i m.s (.nFree rd recA pA q errInput q.auxList) [.point i (.recCreate rd recA pA q) errInput]
    if x ∈ done.map (·.1) ∨ P.tracked x = false then bad
    else if free n m x then
      if m.s.st x = e then m.to i m.s (.nLock rd recA pA q todo (done ++ [(x, e)])) else bad
    else .blocked
  | .nLock rd recA pA q [] _ =>
    match getRd m.s rd with
    | none => .fail (.recCreate rd recA pA q)
    | some r =>
      match nCheck m.s rd r q with
      | some ret => m.to i m.s (.nFree rd recA pA q ret q.auxList) [.point i (.recCreate rd recA pA q) ret]
      | none => m.fin i (recCreateSt m.s rd recA r q q.auxList) (.recCreate rd recA pA q) {}
  | .nFree rd recA pA q ret (a :: todo) =>
    if free n m a then
      if m.s.st a = .recAux then
        m.to i { m.s with st := upd m.s.st a .delegated } (.nFree rd recA pA q ret todo)
      else .fail (.recCreate rd recA pA q)
    else .blocked
  | .nFree rd recA pA q ret [] => m.to i m.s .idle [.exit i (.recCreate rd recA pA q) ret]
  | .kFree recA rd (a :: todo) =>
    if free n m a then
      if m.s.st a = .recAux then m.to i (wipe m.s a) (.kFree recA rd todo) else .fail (.recDestroy recA)
    else .blocked
  | .kFree recA rd [] => m.to i (wipe m.s recA) (.kPut recA rd)
  | .kPut recA rd =>
    if 1 ≤ m.s.rc rd then
      m.to i { m.s with rc := upd m.s.rc rd (m.s.rc rd - 1) } .idle [.exit i (.recDestroy recA) {}]
    else .fail (.recDestroy recA)

/-- A CPU that is outside RMM begins `op`.

* REALM_CREATE: `get_realm_params` (realm.c:52-70, 400) and the checks of
  `validate_realm_params` before `vmid_reserve` (234-297, 405).
* REALM_DESTROY, REC_DESTROY: `find_lock_unused_granule` (realm.c:509-518,
  rec.c:409-418; /repo/lib/granule/include/granule.h).  The fate of REC_DESTROY is sealed
  here.
* REC_CREATE: rec.c:263-281.
* everything else: `Verif.Atom`. -/
def start (P : Plat) (n : Nat) (m : M) (i : Nat) (op : Op) : Res :=
  match m.pc i with
  | .walk .idle =>
    match op with
    | .realmCreate rd pA q =>
      if lk P m.s pA .ns && decide (m.s.pas pA = .ns) then
        match Features.validateRealmParams P.hw q.p with
        | none => .fail op
        | some false => m.fin i m.s op errInput
        | some true => m.to i m.s (.cReserve rd pA q)
      else m.fin i m.s op errInput
    | .realmDestroy rd =>
      if P.tracked rd = false then m.fin i m.s op errInput
      else if free n m rd then
        if m.s.st rd = .rd then
          if m.s.rc rd = 0 then
            match getRd m.s rd with
            | none => .fail op
            | some r => m.to i m.s (.dSum rd r 0 0)
          else m.fin i m.s op (errRealm 0)
        else m.fin i m.s op errInput
      else .blocked
    | .recCreate rd recA pA q =>
      if lk P m.s pA .ns && decide (m.s.pas pA = .ns) then
        if 16 < q.numAux then m.fin i m.s op errInput
        else m.to i m.s (.nTake rd recA pA q q.auxList [])
      else m.fin i m.s op errInput
    | .recDestroy recA =>
      if P.tracked recA = false then m.fin i m.s op errInput
      else if free n m recA then
        if m.s.st recA = .recd then
          if m.s.rc recA = 0 then
            match getRec m.s recA with
            | none => .fail op
            | some c => m.to i m.s (.kFree recA c.rd c.aux) [.point i op {}]
          else m.fin i m.s op errRec
        else m.fin i m.s op errInput
      else .blocked
    | op => lift m i (Atom.start P n m.atom i op)
  | _ => .blocked

/-- One step of CPU `i`. -/
def mstep (P : Plat) (n : Nat) (m : M) (i : Nat) : Atom.Act → Res
  | .start op => start P n m i op
  | .go => go P n m i

/-- A CPU is inside one of the four commands. -/
def Pc.life : Pc → Bool
  | .walk _ => false
  | _ => true

/-- Some CPU other than `i` is inside one of the four commands. -/
def others (n : Nat) (m : M) (i : Nat) : Bool := (List.range n).any fun j => decide (j ≠ i) && (m.pc j).life

/-- The states that `n` CPUs can reach, with the record of the execution, latest first.  Each
entry says whether another CPU was inside one of the four commands at the time. -/
inductive Exec (P : Plat) (n : Nat) : M → List (Ev × Bool) → Prop where
  | init {s} : Init P s → Exec P n ⟨s, fun _ => .idle⟩ []
  | step {m m' l i act ev} : Exec P n m l → i < n → mstep P n m i act = .ok m' ev →
      Exec P n m' (ev.map (fun e => (e, others n m i)) ++ l)

end Verif.Life
