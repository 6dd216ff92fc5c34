import Verif.Atom.Main

/-!
# RSI calls that reach into realm memory, lock by lock

A handler of an RSI call runs on the CPU of the REC that made it.  To read or write realm
memory it walks the stage 2 tables of the realm hand over hand, like the commands of the
host, and then uses the data granule it found while it holds the lock of the last table
only: neither the realm descriptor, nor the REC, nor the data granule is locked.  Meanwhile
other CPUs run commands of the host and other RECs of the realm.
-/

namespace Verif.Atom

open Rmm

/-- An RSI call under way: the REC that made it, its realm, the address, and the physical
address found (`s2_walk_result.pa`, /repo/runtime/include/realm.h:220-225). -/
structure Call where
  recA : Nat
  rd : Nat
  a : Nat
  pa : Option Nat

/-- The machine: memory, granules and positions, and the RSI call each CPU is in. -/
structure R where
  m : M
  call : Nat → Option Call

/-- `s2tt_walk_lock_unlock` to the page level takes the same locks for an RSI call
(/repo/runtime/rsi/realm_ipa_helper.c:53-56, 128-131) as for RTT_READ_ENTRY at level 3, so
positions are those of that command. -/
def rop (c : Call) : Op := .rttReadEntry c.rd c.a 3

/-- The REC on whose CPU an operation happens. -/
def actor : Op → Option Nat
  | .recRun r .. | .psciRequest r | .rsiIpaStateSet r .. | .psciSystemOff r | .rsiExtend r ..
  | .realmWrite r .. | .auxWrite r .. => some r
  | _ => none

/-- Some CPU is in an RSI call of REC `x`. -/
def busy (n : Nat) (r : R) (x : Nat) : Bool := (List.range n).any fun j =>
  match r.call j with
  | some c => decide (c.recA = x)
  | none => false

/-- What is recorded of a step. -/
inductive Ev where
  /-- an operation that ended, with its result -/
  | op (op : Op) (ret : Ret)
  /-- an RSI call of a REC looked address `a` up: the entry and its depth -/
  | look (recA a : Nat) (e : Entry) (d : Nat)
  /-- an RSI call went through the table, at depth `d`, that the walk for `a` ended at -/
  | scan (recA a d : Nat) (t : Nat → Entry)
  /-- an RSI call read the page at `a` -/
  | load (recA a : Nat) (v : Content)
  /-- an RSI call wrote the page at `a` -/
  | store (recA a p : Nat)

inductive RRes where
  | blocked
  | fail
  | ok (r : R) (ev : Option Ev)

/-- What a CPU does next. -/
inductive RAct where
  /-- a step outside RSI calls -/
  | base (act : Act)
  /-- the REC it runs makes an RSI call for address `a` -/
  | call (recA a : Nat)
  /-- the walk of its RSI call goes on -/
  | go
  /-- the walk has ended: `realm_ipa_to_pa` reads the entry -/
  | look
  /-- the walk has ended: `realm_ipa_get_ripas` goes through the table -/
  | scan
  /-- the handler reads the data granule -/
  | load
  /-- the handler writes the data granule -/
  | store (p : Nat)
  /-- the handler unlocks the table and returns -/
  | ret

def R.lift (r : R) : Res → RRes
  | .blocked => .blocked
  | .fail _ => .fail
  | .ok m none => .ok { r with m := m } none
  | .ok m (some (op, ret)) => .ok { r with m := m } (some (.op op ret))

/-- The RSI call of CPU `i` ends and its table is unlocked. -/
def R.drop (r : R) (i : Nat) : R := ⟨{ r.m with pc := upd r.m.pc i .idle }, upd r.call i none⟩

/-- The walk has reached its last table: page level, or an entry that is no table
(/repo/lib/s2tt/src/s2tt.c:351-379). -/
def ended (t : Nat → Entry) (d a : Nat) : Bool :=
  match d, t (idx d a) with
  | 0, _ => true
  | _, .table _ => false
  | _, _ => true

/-- The first part of an RSI call: realm_ipa_helper.c:48-54 (`addr_in_rec_par`:
realm.h:195-198; the handlers of `realm_ipa_get_ripas` made the same checks:
/repo/runtime/rsi/memory.c:49-58).  `rec->realm_info.s2_ctx`, a copy made when the REC was
created (/repo/runtime/rmi/rec.c:355), is read as the realm descriptor itself; the fields
are the ones that never change.  Only a REC that runs makes calls, and one REC runs on one
CPU. -/
def rcall (n : Nat) (r : R) (i recA a : Nat) : RRes :=
  match r.call i, r.m.pc i with
  | none, .idle =>
    if r.m.s.st recA = .recd ∧ r.m.s.rc recA = 1 ∧ busy n r recA = false then
      match getRec r.m.s recA with
      | none => .fail
      | some q =>
        match getRd r.m.s q.rd with
        | none => .fail
        | some x =>
          if a % 4096 = 0 ∧ x.inPar a then
            if free n r.m x.root then
              if r.m.s.st x.root = .rtt then
                .ok ⟨{ r.m with pc := upd r.m.pc i (.root (.rttReadEntry q.rd a 3) ⟨x, rec0⟩) },
                  upd r.call i (some ⟨recA, q.rd, a, none⟩)⟩ none
              else .fail
            else .blocked
          else .ok r none
    else .blocked
  | _, _ => .blocked

/-- The table an RSI call's walk has ended at, with its depth; `none`: not there yet. -/
def atEnd (r : R) (i : Nat) (c : Call) : Option (Nat × Nat) :=
  match r.m.pc i with
  | .walking _ _ d g =>
    match getTab r.m.s g with
    | some t => if ended t d c.a then some (d, g) else none
    | none => none
  | _ => none

/-- One step of CPU `i`.  The accesses of a handler to the data granule
(/repo/runtime/rsi/host_call.c:68-101, config.c:46-71, realm_attest.c:83-131) use the
address found before; the granule is not looked up again.  Granule contents are read and
written as a whole. -/
def rstep (P : Plat) (n : Nat) (r : R) (i : Nat) : RAct → RRes
  | .base act =>
    match r.call i with
    | some _ => .blocked
    | none =>
      match act with
      | .start op =>
        match actor op with
        | some x => if busy n r x then .blocked else r.lift (mstep P n r.m i act)
        | none => r.lift (mstep P n r.m i act)
      | .go => r.lift (mstep P n r.m i act)
  | .call recA a => rcall n r i recA a
  | .go =>
    match r.call i with
    | none => .blocked
    | some c => if (atEnd r i c).isSome then .blocked else r.lift (go P n r.m i)
  | .look =>
    match r.call i with
    | none => .blocked
    | some c =>
      match c.pa, atEnd r i c with
      | none, some (d, g) =>
        match getTab r.m.s g with
        | none => .fail
        | some t =>
          match t (idx d c.a) with
          | .assigned .ram pa =>
            .ok { r with call := upd r.call i (some { c with pa := some (pa + c.a % sz d) }) }
              (some (.look c.recA c.a (.assigned .ram pa) d))
          | e => .ok (r.drop i) (some (.look c.recA c.a e d))
      | _, _ => .blocked
  | .scan =>
    match r.call i with
    | none => .blocked
    | some c =>
      match c.pa, atEnd r i c with
      | none, some (d, g) =>
        match getTab r.m.s g with
        | none => .fail
        | some t => .ok (r.drop i) (some (.scan c.recA c.a d t))
      | _, _ => .blocked
  | .load =>
    match r.call i with
    | some ⟨recA, _, a, some pa⟩ => .ok r (some (.load recA a (r.m.s.mem pa)))
    | _ => .blocked
  | .store p =>
    match r.call i with
    | some ⟨recA, _, a, some pa⟩ =>
      .ok { r with m := { r.m with s := { r.m.s with mem := upd r.m.s.mem pa (.page p) } } }
        (some (.store recA a p))
    | _ => .blocked
  | .ret =>
    match r.call i with
    | some ⟨_, _, _, some _⟩ => .ok (r.drop i) none
    | _ => .blocked

/-- What `n` CPUs can do, with the events so far, latest first. -/
inductive RExec (P : Plat) (n : Nat) : R → List Ev → Prop where
  | init {s} : Init P s → RExec P n ⟨⟨s, fun _ => .idle⟩, fun _ => none⟩ []
  | step {r r' l i act ev} : RExec P n r l → i < n → rstep P n r i act = .ok r' ev →
      RExec P n r' (ev.toList ++ l)

end Verif.Atom
