import Verif.Rmm.Step

/-!
# Table commands in small steps

`Verif.Rmm.step` performs a command in one step.  The commands that walk stage 2 tables do
not run like that in the code: they lock the granules they are given, read the realm
descriptor, lock the root table, mostly let go of the realm descriptor, and then walk
hand over hand, holding one table at a time, while other CPUs do the same in the same
realm.  Here these commands are programs of several steps, run by any number of CPUs over
one shared `Rmm.State` with granule locks; the other operations stay single steps that
need the locks they take to be free.
-/

namespace Verif.Atom

open Rmm
open S2tte (hostNsIsValid)

/-- The commands that walk stage 2 tables: /repo/runtime/rmi/rtt.c. -/
def isWalk : Op → Bool
  | .rttCreate .. | .rttFold .. | .rttDestroy .. | .rttMapUnprotected .. | .rttUnmapUnprotected ..
  | .rttReadEntry .. | .dataCreateUnknown .. | .dataCreate .. | .dataDestroy .. | .rttInitRipas ..
  | .rttSetRipas .. => true
  | _ => false

/-- The realm descriptor a walking command names. -/
def rdA : Op → Nat
  | .rttCreate rd _ _ _ | .rttFold rd _ _ | .rttDestroy rd _ _ | .rttMapUnprotected rd _ _ _
  | .rttUnmapUnprotected rd _ _ | .rttReadEntry rd _ _ | .dataCreateUnknown rd _ _
  | .dataCreate rd _ _ _ _ | .dataDestroy rd _ | .rttInitRipas rd _ _ | .rttSetRipas rd _ _ _ => rd
  | _ => 0

/-- Checks made before any lock is taken: rtt.c:746-748 (map), 762-765 (unmap), 1015-1024
(DATA_CREATE, which looks at the state of the source granule without locking it),
1219-1222 (INIT_RIPAS), 1389-1392 (SET_RIPAS). -/
def early (P : Plat) (s : State) : Op → Option Ret
  | .rttMapUnprotected _ _ lvl _ | .rttUnmapUnprotected _ _ lvl =>
    if 1 ≤ lvl ∧ lvl ≤ 3 then none else some errInput
  | .dataCreate _ _ _ src flags =>
    if flags ≠ 0 ∧ flags ≠ 1 then some errInput
    else if lk P s src .ns then none else some errInput
  | .rttInitRipas _ base top | .rttSetRipas _ _ base top => if top ≤ base then some errInput else none
  | _ => none

/-- Two granules in the order of their addresses: `sort_granules`,
/repo/lib/granule/src/granule.c:138-153. -/
def two (a : Nat × GSt) (b : Nat × GSt) : List (Nat × GSt) := if b.1 < a.1 then [b, a] else [a, b]

/-- The granules locked first, in order, with the state expected of them: rtt.c:92-97,
303, 499, 635, 782, 902-907, 1047, 1227, 1396-1401. -/
def first : Op → List (Nat × GSt)
  | .rttCreate rd rtt _ _ => two (rtt, .delegated) (rd, .rd)
  | .dataCreateUnknown rd data _ | .dataCreate rd data _ _ _ => two (data, .delegated) (rd, .rd)
  | .rttSetRipas rd r _ _ => two (rd, .rd) (r, .recd)
  | op => [(rdA op, .rd)]

/-- The granules of `first` whose locks are held until the command ends.  The others (the
realm descriptor) are unlocked once the root table is locked: rtt.c:133, 322, 521, 673,
802, 1070. -/
def kept : Op → List Nat
  | .rttCreate _ rtt _ _ => [rtt]
  | .dataCreateUnknown rd data _ | .dataCreate rd data _ _ _ => [data, rd]
  | .rttInitRipas rd _ _ => [rd]
  | .rttSetRipas rd r _ _ => [rd, r]
  | _ => []

/-- What a command captured under its first locks: the realm descriptor (of which the
commands that unlock it copied `s2_ctx`) and, for SET_RIPAS, the REC. -/
structure Ctx where
  r : Rd
  q : Rec

/-- Outcome of the checks under the first locks. -/
inductive Chk where
  | err (ret : Ret)
  | bad
  | go (q : Rec)

/-- The checks made under the first locks: rtt.c:102-125, 309-317, 506-515, 640-669, 788-797,
857-879 with 911-933, 1053-1064, 1232-1250, 1406-1439.  `bad` is a failed assertion. -/
def pre (s : State) (r : Rd) : Op → Chk
  | .rttCreate _ rtt a lvl =>
    if validateStruct r a lvl then
      if r.lpa2 = false ∧ 2 ^ 48 ≤ rtt then .err errInput else .go rec0
    else .err errInput
  | .rttFold _ a lvl | .rttDestroy _ a lvl => if validateStruct r a lvl then .go rec0 else .err errInput
  | .rttMapUnprotected _ a lvl h =>
    match hostNsIsValid r.lpa2 h lvl with
    | none => .bad
    | some false => .err errInput
    | some true => if validateMap r a lvl then (if r.inPar a then .err errInput else .go rec0) else .err errInput
  | .rttUnmapUnprotected _ a lvl =>
    if validateMap r a lvl then (if r.inPar a then .err errInput else .go rec0) else .err errInput
  | .rttReadEntry _ a lvl => if validateEntry r a lvl then .go rec0 else .err errInput
  | .dataCreateUnknown _ data a =>
    if r.inPar a && validateMapAddr r a 0 then
      (if r.lpa2 = false ∧ 2 ^ 48 ≤ data then .err errInput else .go rec0)
    else .err errInput
  | .dataCreate _ data a _ _ =>
    if r.state ≠ .new then .err (errRealm 0)
    else if r.inPar a && validateMapAddr r a 0 then
      (if r.lpa2 = false ∧ 2 ^ 48 ≤ data then .err errInput else .go rec0)
    else .err errInput
  | .dataDestroy _ a => if r.inPar a && validateMapAddr r a 0 then .go rec0 else .err errInput
  | .rttInitRipas _ base top =>
    if validateMapAddr r base 0 && validateMapAddr r top 0 && r.inPar base && r.inPar (top - 4096) then
      (if r.state ≠ .new then .err (errRealm 0) else .go rec0)
    else .err errInput
  | .rttSetRipas rd recA base top =>
    if s.rc recA ≠ 0 then .err errRec
    else match getRec s recA with
    | none => .bad
    | some c =>
      if c.rd ≠ rd then .err errRec
      else if base ≠ c.sr.addr ∨ c.sr.top < top then .err errInput
      else if validateMapAddr r base 0 then .go c else .bad
  | _ => .bad

/-- The address walked for. -/
def ipa : Op → Nat
  | .rttCreate _ _ a _ | .rttFold _ a _ | .rttDestroy _ a _ | .rttMapUnprotected _ a _ _
  | .rttUnmapUnprotected _ a _ | .rttReadEntry _ a _ | .dataCreateUnknown _ _ a
  | .dataCreate _ _ a _ _ | .dataDestroy _ a | .rttInitRipas _ a _ | .rttSetRipas _ _ a _ => a
  | _ => 0

/-- The depth (`3 - level`) walked to: rtt.c:135, 324, 523, 675, 804, 937, 1072, 1255, 1445. -/
def tgt : Op → Nat
  | .rttCreate _ _ _ lvl | .rttFold _ _ lvl | .rttDestroy _ _ lvl => dOf lvl + 1
  | .rttMapUnprotected _ _ lvl _ | .rttUnmapUnprotected _ _ lvl | .rttReadEntry _ _ lvl => dOf lvl
  | _ => 0

/-- The granule that is locked while the last table of the walk is locked: the child table
(rtt.c:342, 544) or the data granule (1112). -/
def extra (s : State) (w : Walk) : Op → List Nat
  | .rttFold _ _ lvl | .rttDestroy _ _ lvl =>
    if w.d = dOf lvl + 1 then
      match tabOf s w.g w.i with
      | .table c => [c]
      | _ => []
    else []
  | .dataDestroy .. =>
    if w.d = 0 then
      match tabOf s w.g w.i with
      | .assigned _ pa => [pa]
      | _ => []
    else []
  | _ => []

/-- The rest of a command, after its walk ended at `w`: rtt.c:136-285, 325-480, 524-608,
676-735, 805-853, 938-1004, 1073-1122, 1256-1312, 1447-1475. -/
def post (P : Plat) (s : State) (r : Rd) (q : Rec) (w : Walk) : Op → Out
  | .rttCreate _ rtt a lvl =>
    let d := dOf lvl
    if w.d = d + 1 then
      match getTab s w.g with
      | none => none
      | some t =>
        match t w.i with
        | .unassigned rp => some (rttCreateSt s rtt w.g w.i t (.unassigned rp) d 1 0, {})
        | .unassignedNs => some (rttCreateSt s rtt w.g w.i t .unassignedNs d 1 0, {})
        | .assigned rp pa =>
          if d < 2 then
            some (rttCreateSt s rtt w.g w.i t (.assigned rp pa) d 0 512,
              { tlbi := if rp = .ram then [⟨r.vmid, a, 4096⟩] else [] })
          else none
        | .assignedNs at_ pa =>
          if d < 2 then
            some (rttCreateSt s rtt w.g w.i t (.assignedNs at_ pa) d 1 0, { tlbi := [⟨r.vmid, a, 4096⟩] })
          else none
        | .table _ => some (s, errRtt (d + 1))
    else some (s, errRtt w.d)
  | .rttFold _ a lvl =>
    let d := dOf lvl
    if w.d = d + 1 then
      match getTab s w.g with
      | none => none
      | some t =>
        match t w.i with
        | .table c =>
          if lk P s c .rtt then
            match getTab s c with
            | none => none
            | some tt =>
              match foldEntry tt (s.rc c) d with
              | none => none
              | some (.inr ret) => some (s, ret)
              | some (.inl (e, dp, dc)) =>
                if dp ≤ s.rc w.g then
                  some (dropTableSt s c w.g w.i t e dp dc,
                    { x1 := c
                      tlbi := if e.valid then tlbiPages r.vmid a else [⟨r.vmid, a, 4096⟩] })
                else none
          else none
        | _ => some (s, errRtt (d + 1))
    else some (s, errRtt w.d)
  | .rttDestroy _ a lvl =>
    let d := dOf lvl
    match getTab s w.g with
    | none => none
    | some t =>
      if w.d = d + 1 then
        match t w.i with
        | .table c =>
          if lk P s c .rtt then
            if s.rc c = 0 then
              if 1 ≤ s.rc w.g then
                let e := if r.inPar a then .unassigned .destroyed else .unassignedNs
                some (dropTableSt s c w.g w.i t e 1 0,
                  { x1 := c
                    x2 := skipNonLive (upd t w.i e) w a
                    tlbi := if r.inPar a then [⟨r.vmid, a, 4096⟩] else tlbiPages r.vmid a })
              else none
            else some (s, { errRtt d with x2 := a })
          else none
        | _ => some (s, { errRtt w.d with x2 := skipNonLive t w a })
      else some (s, { errRtt w.d with x2 := skipNonLive t w a })
  | .rttMapUnprotected _ _ lvl h =>
    let d := dOf lvl
    if w.d = d then
      match getTab s w.g with
      | none => none
      | some t =>
        match t w.i with
        | .unassignedNs =>
          some ({ s with mem := upd s.mem w.g (.table (upd t w.i (hostEntry r h lvl))) }, {})
        | _ => some (s, errRtt d)
    else some (s, errRtt w.d)
  | .rttUnmapUnprotected _ a lvl =>
    let d := dOf lvl
    match getTab s w.g with
    | none => none
    | some t =>
      if w.d = d then
        match t w.i with
        | .assignedNs _ _ =>
          some ({ s with mem := upd s.mem w.g (.table (upd t w.i .unassignedNs)) },
            { x1 := skipNonLive (upd t w.i .unassignedNs) w a, tlbi := [⟨r.vmid, a, 4096⟩] })
        | _ => some (s, { errRtt w.d with x1 := skipNonLive t w a })
      else some (s, { errRtt w.d with x1 := skipNonLive t w a })
  | .rttReadEntry .. =>
    match getTab s w.g with
    | none => none
    | some t =>
      some (s, {
        x1 := if w.d = 4 then 2 ^ 64 - 1 else 3 - w.d
        x2 := (readRegs r (t w.i)).1
        x3 := (readRegs r (t w.i)).2.1
        x4 := (readRegs r (t w.i)).2.2 })
  | .dataCreateUnknown _ data _ =>
    if w.d = 0 then
      match getTab s w.g with
      | none => none
      | some t =>
        match t w.i with
        | .unassigned rp => some (dataCreateSt s data w.g w.i t rp, {})
        | _ => some (s, errRtt 0)
    else some (s, errRtt w.d)
  | .dataCreate rd data a src flags =>
    if w.d = 0 then
      match getTab s w.g with
      | none => none
      | some t =>
        match t w.i with
        | .unassigned _ =>
          if s.pas src = .ns then
            match s.mem src with
            | .page p =>
              let ev := MeasEv.data a (if flags = 1 then some p else none)
              let s1 := { s with
                mem := upd (upd s.mem data (.page p)) rd (.rd { r with rim := r.rim ++ [ev] }) }
              some (dataCreateSt s1 data w.g w.i t .ram, {})
            | _ => none
          else some ({ s with mem := upd s.mem data (.page 0) }, errInput)
        | _ => some (s, errRtt 0)
    else some (s, errRtt w.d)
  | .dataDestroy _ a =>
    match getTab s w.g with
    | none => none
    | some t =>
      if w.d = 0 then
        match t w.i with
        | .assigned rp pa =>
          let e := Entry.unassigned (if rp = .empty then .empty else .destroyed)
          if 1 ≤ s.rc w.g ∧ lk P s pa .data then
            some ({ s with
              st := upd s.st pa .delegated
              mem := upd (upd s.mem w.g (.table (upd t w.i e))) pa (.page 0)
              rc := upd s.rc w.g (s.rc w.g - 1) },
              { x1 := pa
                x2 := skipNonLive (upd t w.i e) w a
                tlbi := if rp = .ram then [⟨r.vmid, a, 4096⟩] else [] })
          else none
        | _ => some (s, { errRtt 0 with x2 := skipNonLive t w a })
      else some (s, { errRtt w.d with x2 := skipNonLive t w a })
  | .rttInitRipas rd base top =>
    match getTab s w.g with
    | none => none
    | some t =>
      if base / sz w.d * sz w.d ≠ base then some (s, errRtt w.d)
      else
        let res := initLoop w.d top (perTab w.d - w.i) w.i base t r.rim
        let s' := { s with
          mem := upd (upd s.mem w.g (.table res.1)) rd (.rd { r with rim := res.2.2 }) }
        if base < res.2.1 then some (s', { x1 := res.2.1 })
        else some (s', errRtt w.d)
  | .rttSetRipas _ recA base top =>
    if validateMapAddr r base w.d then
      match getTab s w.g with
      | none => none
      | some t =>
        if base / sz w.d * sz w.d ≠ base then some (s, errRtt w.d)
        else
          let res := setLoop r.vmid w.d top q.sr.ripas q.sr.chg (512 - w.i) w.i base t []
          if base < res.2.1 then
            some ({ s with
              mem := upd (upd s.mem w.g (.table res.1)) recA
                (.recd { q with sr := { q.sr with addr := res.2.1 } }) },
              { x1 := res.2.1, tlbi := res.2.2 })
          else
            some ({ s with mem := upd s.mem w.g (.table res.1) },
              { errRtt w.d with tlbi := res.2.2 })
    else some (s, errRtt w.d)
  | _ => none

/-- Where a CPU is in a command. -/
inductive Pc where
  /-- outside RMM, or between commands -/
  | idle
  /-- taking the first locks: those still to take and those taken -/
  | locking (op : Op) (todo done : List (Nat × GSt))
  /-- the checks under the first locks succeeded; the root table is locked next -/
  | checked (op : Op) (c : Ctx)
  /-- holds the first root table -/
  | root (op : Op) (c : Ctx)
  /-- holds table `g` at depth `d` -/
  | walking (op : Op) (c : Ctx) (d g : Nat)

/-- The granules a CPU has locked. -/
def held : Pc → List Nat
  | .idle => []
  | .locking _ _ done => done.map (·.1)
  | .checked op _ => (first op).map (·.1)
  | .root op c => c.r.root :: kept op
  | .walking op _ _ g => g :: kept op

/-- The machine: memory and granules, and where each CPU is. -/
structure M where
  s : State
  pc : Nat → Pc

/-- No CPU (of `n`) has granule `x` locked. -/
def free (n : Nat) (m : M) (x : Nat) : Bool := (List.range n).all fun j => decide (x ∉ held (m.pc j))

/-- Outcome of a step of one CPU. -/
inductive Res where
  /-- waits for a lock -/
  | blocked
  /-- an assertion fails in this operation -/
  | fail (op : Op)
  /-- a step; with the operation that ended and its result, if one ended -/
  | ok (m : M) (done : Option (Op × Ret))

/-- The CPU moves on inside its command. -/
def M.to (m : M) (i : Nat) (p : Pc) : Res := .ok { m with pc := upd m.pc i p } none

/-- The command of the CPU ends; all its locks are released. -/
def M.fin (m : M) (i : Nat) (op : Op) (s : State) (ret : Ret) : Res :=
  .ok { s := s, pc := upd m.pc i .idle } (some (op, ret))

/-- One step of CPU `i` inside a walking command.

* `find_lock_granules`: granule.c:182-213: duplicates are detected one by one; a granule
  that is not in the expected state makes the command fail.
* the root table: rtt.c:130-133 and the like, and s2tt.c:318-347.
* one level of the walk: s2tt.c:351-369 with `find_lock_next_level` (276-302); the entry is
  read and the child locked in one step: the parent is locked.
* the rest of the command under the lock of the last table. -/
def go (P : Plat) (n : Nat) (m : M) (i : Nat) : Res :=
  match m.pc i with
  | .idle => .blocked
  | .locking op ((x, e) :: todo) done =>
    if x ∈ done.map (·.1) ∨ P.tracked x = false then m.fin i op m.s errInput
    else if free n m x then
      if m.s.st x = e then m.to i (.locking op todo (done ++ [(x, e)]))
      else m.fin i op m.s errInput
    else .blocked
  | .locking op [] _ =>
    match getRd m.s (rdA op) with
    | none => .fail op
    | some r =>
      match pre m.s r op with
      | .err ret => m.fin i op m.s ret
      | .bad => .fail op
      | .go q => m.to i (.checked op ⟨r, q⟩)
  | .checked op c =>
    if free n m c.r.root then
      if m.s.st c.r.root = .rtt then m.to i (.root op c) else .fail op
    else .blocked
  | .root op c =>
    if tgt op ≤ c.r.d0 ∧ ipa op < c.r.ipaSize ∧ (rootFor c.r (ipa op)).1 < c.r.nroots then
      if (rootFor c.r (ipa op)).1 = 0 then m.to i (.walking op c c.r.d0 c.r.root)
      else if free n m (rootFor c.r (ipa op)).2 then
        if m.s.st (rootFor c.r (ipa op)).2 = .rtt then
          m.to i (.walking op c c.r.d0 (rootFor c.r (ipa op)).2)
        else .fail op
      else .blocked
    else .fail op
  | .walking op c d g =>
    match getTab m.s g with
    | none => .fail op
    | some t =>
      let fin :=
        if (extra m.s ⟨g, d, idx d (ipa op)⟩ op).all (free n m) then
          match post P m.s c.r c.q ⟨g, d, idx d (ipa op)⟩ op with
          | none => .fail op
          | some (s', ret) => m.fin i op s' ret
        else .blocked
      if d ≤ tgt op then fin
      else
        match t (idx d (ipa op)) with
        | .table x =>
          if free n m x then
            if m.s.st x = .rtt then m.to i (.walking op c (d - 1) x) else .fail op
          else .blocked
        | _ => fin

/-- The granules an operation other than the walking commands locks, which must be free when
it happens: granule.c:18, 43; realm.c:31 (activate), 338-391 (create), 509 and 492, 332
(destroy); rec.c:285, 300 (create), 409, 184 (destroy), 452, 485; run.c:198;
psci.c:231; realm_attest.c:398.  Operations on a running REC take no lock on it. -/
def foot (s : State) : Op → List Nat
  | .granuleDelegate a | .granuleUndelegate a => [a]
  | .realmActivate rd | .recAuxCount rd => [rd]
  | .realmCreate rd _ q => rd :: (List.range q.p.rttNumStart).map (q.rttBase + 4096 * ·)
  | .realmDestroy rd => rd :: (List.range (rdOf s rd).nroots).map ((rdOf s rd).root + 4096 * ·)
  | .recCreate rd r _ q => rd :: r :: q.auxList
  | .recDestroy r => r :: (recOf s r).aux
  | .psciComplete c t _ => [c, t]
  | .recEnter r _ _ _ => [r]
  | .psciSystemOff r | .rsiExtend r _ _ => [(recOf s r).rd]
  | _ => []

/-- A CPU that is idle begins operation `op`. -/
def start (P : Plat) (n : Nat) (m : M) (i : Nat) (op : Op) : Res :=
  match m.pc i with
  | .idle =>
    if isWalk op then
      match early P m.s op with
      | some ret => m.fin i op m.s ret
      | none => m.to i (.locking op (first op) [])
    else if (foot m.s op).all (free n m) then
      match step P m.s op with
      | none => .fail op
      | some (s', ret) => m.fin i op s' ret
    else .blocked
  | _ => .blocked

/-- What CPU `i` does next. -/
inductive Act where
  | start (op : Op)
  | go

/-- One step of CPU `i`. -/
def mstep (P : Plat) (n : Nat) (m : M) (i : Nat) : Act → Res
  | .start op => start P n m i op
  | .go => go P n m i

/-- The states of the machine that `n` CPUs can reach, with the operations that completed
so far, latest first. -/
inductive Exec (P : Plat) (n : Nat) : M → List (Op × Ret) → Prop where
  | init {s} : Init P s → Exec P n ⟨s, fun _ => .idle⟩ []
  | quiet {m m' l i act} : Exec P n m l → i < n → mstep P n m i act = .ok m' none → Exec P n m' l
  | done {m m' l i act x} : Exec P n m l → i < n → mstep P n m i act = .ok m' (some x) → Exec P n m' (x :: l)

end Verif.Atom
