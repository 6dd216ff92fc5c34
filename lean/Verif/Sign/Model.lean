import Verif.Basic

/-!
# Signing of attestation tokens by EL3

With ATTEST_EL3_TOKEN_SIGN (/repo/cmake/CommonConfigs.cmake:68-73, off by default) RMM sends the hash of a token to EL3 and
whichever CPU asks EL3 for responses next writes the signature to the REC it is for:
/repo/lib/attestation/src/attestation_el3_token_sign.c, /repo/lib/t_cose/src/t_cose_el3_token_sign.c,
/repo/lib/attestation/src/attestation_token.c:127-190, 373-400, /repo/runtime/rsi/realm_attest.c:137-199, 210-375.

Any number of CPUs take turns at the granularity of lock operations and of accesses to shared memory.

Simplifications.  A signature is represented by the hash it signs.  The contents of a token are represented by their hash
(`want`) and by what is at the place of the signature (`buf`).  t_cose and QCBOR are not part of the tree; assumed of
them: the hash passed to the adapter is that of the token's contents, `started` is false on the first call after
`t_cose_signature_sign_restart_init` only, and the signature buffer is in the token buffer of the REC that is running
(attestation_token.c:112 gives them this buffer to encode into).  Tickets do not wrap around (the comment in
attestation_el3_token_sign.c:54-58).  Error paths that depend on failed hashing or encoding are left out.
-/

namespace Verif.Sign

/-- `struct t_cose_el3_token_sign_ctx`: /repo/lib/t_cose/include/t_cose_el3_token_sign.h:12-37.  `lock` is the
spinlock's word; `ptr` says that `sig_buffer` is not null; `hash` is what `hash_buffer` points to. -/
structure Ctx where
  lock : Bool := false
  queued : Bool := false
  valid : Bool := false
  err : Bool := false
  cookie : Nat := 0
  ticket : Nat := 0
  sigLen : Nat := 0
  ptr : Bool := false
  hash : Nat := 0
  deriving DecidableEq

/-- `enum attest_token_gen_state_t`: /repo/lib/attestation/include/attestation_token.h:30-35. -/
inductive Phase where
  | notStarted | init | sign | create
  deriving DecidableEq

/-- The attestation data in the auxiliary granules of a REC. -/
structure Att where
  ctx : Ctx := {}
  phase : Phase := .notStarted
  /-- the hash of the token being made -/
  want : Nat := 0
  started : Bool := false
  /-- what the place of the signature in `rmm_realm_token_buf` holds: a signature of this hash, or something else -/
  buf : Option Nat := none
  deriving DecidableEq

/-- `struct el3_token_sign_request`: /repo/lib/rmm_el3_ifc/include/rmm_el3_ifc.h:162-168. -/
structure Req where
  cookie : Nat
  ticket : Nat
  hash : Nat
  deriving DecidableEq

/-- `struct el3_token_sign_response`: rmm_el3_ifc.h:176-181; the signature is of `hash`. -/
structure Resp where
  cookie : Nat
  ticket : Nat
  hash : Nat
  len : Nat
  deriving DecidableEq

/-- Where a CPU is; `a` is the REC it runs, `b` the REC a response is for. -/
inductive Pc where
  | host
  | run (a : Nat)
  /-- in `t_cose_crypto_el3_ctx_init`, before the lock -/
  | init1 (a h : Nat)
  /-- holding the lock -/
  | init2 (a h : Nat)
  /-- in `attest_realm_token_create` -/
  | init3 (a h : Nat)
  /-- in `t_cose_crypto_el3_token_sign_restart`, before the lock -/
  | sign1 (a : Nat)
  | sign2 (a : Nat)
  /-- in `el3_token_sign_queue_try_enqueue`, before the lock of the shared buffer -/
  | sign3 (a : Nat)
  | sign4 (a : Nat)
  /-- after the request -/
  | sign5 (a : Nat)
  /-- in `attest_el3_token_sign_pull_response_from_el3`, before the lock -/
  | pull1 (a : Nat)
  | pull2 (a : Nat)
  /-- in `write_response_to_rec` -/
  | find (a : Nat) (r : Resp)
  /-- in `attest_el3_token_write_response_to_ctx`, before the lock of the context of `b` -/
  | write1 (a b : Nat) (r : Resp)
  | write2 (a b : Nat) (r : Resp)
  /-- the checks have passed -/
  | write3 (a b : Nat) (r : Resp)
  /-- the signature is copied -/
  | write4 (a b : Nat) (r : Resp)
  /-- about to release the lock -/
  | write5 (a b : Nat)
  deriving DecidableEq

/-- `recs` has the granules that are RECs, with their attestation data; `glock` are the REC granules locked by
`write_response_to_rec`, `refs` those with a reference count of 1; `shared` is the lock of the buffer shared with EL3; `reqs` and `resps` are in EL3; `out`
is a history of the tokens that were completed: REC, hash of the contents, and the place of the signature. -/
structure State where
  pc : Nat → Pc
  recs : Nat → Option Att
  glock : Nat → Bool
  refs : Nat → Bool
  shared : Bool
  ctr : Nat
  reqs : List Req
  resps : List Resp
  out : List (Nat × Nat × Option Nat)

/-- At boot: the tickets start at 1 (attestation_el3_token_sign.c:19). -/
def start : State where
  pc _ := .host
  recs _ := none
  glock _ := false
  refs _ := false
  shared := false
  ctr := 1
  reqs := []
  resps := []
  out := []

/-- What EL3 answers to an SMC. -/
inductive El3 where
  | ok | again | error
  deriving DecidableEq

inductive Op where
  /-- RMI_REC_CREATE and RMI_REC_DESTROY of the granule `a` -/
  | create (a : Nat)
  | destroy (a : Nat)
  /-- RMI_REC_ENTER of `a` on CPU `c`, and the exit -/
  | enter (c a : Nat)
  | exit (c : Nat)
  /-- RSI_ATTESTATION_TOKEN_INIT for a token with hash `h` -/
  | tokenInit (c h : Nat)
  /-- RSI_ATTESTATION_TOKEN_CONTINUE -/
  | tokenContinue (c : Nat)
  /-- the next step of CPU `c`; `e` is used by the steps that call EL3, `flag` where pending interrupts are looked at
  and where the token is prepared, which can fail -/
  | cpu (c : Nat) (e : El3) (flag : Bool)
  /-- EL3 signs one of its requests, and the signature has length `len` -/
  | el3 (i len : Nat)

inductive Res where
  | blocked
  /-- a failed assertion or an access to address 0 -/
  | crash
  | ok (s : State)

def upd {α : Type} (f : Nat → α) (a : Nat) (v : α) : Nat → α := fun b => if b = a then v else f b

def State.go (s : State) (c : Nat) (p : Pc) : State := { s with pc := upd s.pc c p }

/-- Changes the attestation data of REC `a`. -/
def State.att (s : State) (a : Nat) (f : Att → Att) : State := { s with recs := upd s.recs a ((s.recs a).map f) }

/-- Changes the signing context of REC `a`. -/
def State.ctx (s : State) (a : Nat) (f : Ctx → Ctx) : State := s.att a fun t => { t with ctx := f t.ctx }

/-- The REC a CPU runs. -/
def Pc.rec? : Pc → Option Nat
  | .host => none
  | .run a | .init1 a _ | .init2 a _ | .init3 a _ | .sign1 a | .sign2 a | .sign3 a | .sign4 a | .sign5 a
  | .pull1 a | .pull2 a | .find a _ | .write1 a _ _ | .write2 a _ _ | .write3 a _ _ | .write4 a _ _ | .write5 a _ => some a

/-- Length of an ECDSA P-384 signature, and of the signature buffer. -/
def sigMax : Nat := 96

/-- `spinlock_acquire`. -/
def acquire (s : State) (a : Nat) (k : State → Res) : Res :=
  match s.recs a with
  | none => .blocked
  | some t => if t.ctx.lock then .blocked else k (s.ctx a fun x => { x with lock := true })

/-- `spinlock_release`: the word is set to 0, whoever holds the lock. -/
def release (s : State) (a : Nat) : State := s.ctx a fun x => { x with lock := false }

/-- `attest_token_ctx_init` (attestation_token.c:374-400) up to the lock of the new context: the `memset` clears the
context including its lock, here in one step; without it when the context is still new. -/
def tokenInit (s : State) (c a h : Nat) (t : Att) : Res :=
  if t.phase ≠ .init then .ok ((s.att a fun t => { t with ctx := {}, phase := .notStarted }).go c (.init1 a h))
  else .ok (s.go c (.init3 a h))

/-- `t_cose_crypto_el3_ctx_init` with the lock (t_cose_el3_token_sign.c:54-56), and attestation_token.c:396. -/
def init2 (s : State) (c a h : Nat) : Res :=
  .ok (((release (s.ctx a fun x => { lock := x.lock, cookie := a }) a).att a fun t => { t with phase := .init }).go c
    (.init3 a h))

/-- `attest_realm_token_create` (attestation_token.c:268-371): the token gets its contents, or encoding fails. -/
def init3 (s : State) (c a h : Nat) (fail : Bool) : Res :=
  if fail then .ok (s.go c (.run a))
  else .ok ((s.att a fun t => { t with phase := .sign, want := h, started := false }).go c (.run a))

/-- `t_cose_crypto_init_el3_ctx_crypto` (t_cose_el3_token_sign.c:29-40), at the first call, and the test of `is_req_queued`
(t_cose_el3_token_sign.c:94-101). -/
def sign2 (s : State) (c a : Nat) (t : Att) : Res :=
  let s := if t.started then s
    else s.att a fun t =>
      { t with started := true, ctx := { t.ctx with sigLen := sigMax, ptr := true, hash := t.want } }
  .ok (s.go c (if t.ctx.queued then .sign5 a else .sign3 a))

/-- `el3_token_sign_queue_try_enqueue` with the buffer locked (attestation_el3_token_sign.c:45-78) and its result
(t_cose_el3_token_sign.c:110-119).  The checks of algorithm and length hold for the only algorithm used. -/
def sign4 (s : State) (c a : Nat) (t : Att) (e : El3) : Res :=
  let n := s.ctr
  let s := { s with ctr := n + 1, shared := false }
  match e with
  | .ok =>
    .ok (({ s with reqs := s.reqs ++ [Req.mk t.ctx.cookie n t.ctx.hash] }.ctx a fun x =>
      { x with ticket := n, queued := true }).go c (.sign5 a))
  | .again => .ok ((s.ctx a fun x => { x with ticket := n }).go c (.sign5 a))
  | .error => .ok ((release (s.ctx a fun x => { x with ticket := n }) a).go c (.run a))

/-- The end of `t_cose_crypto_el3_token_sign_restart` (t_cose_el3_token_sign.c:125-143), `attest_realm_token_sign`
(attestation_token.c:157-190) and the test for interrupts (realm_attest.c:337-341).  The loop in realm_attest.c:307-372
is left to the realm, which can ask to continue at once. -/
def sign5 (s : State) (c a : Nat) (t : Att) (flag : Bool) : Res :=
  if t.ctx.err then .ok ((release s a).go c (.run a))
  else if t.ctx.valid then
    if t.ctx.queued && t.ctx.sigLen ≤ sigMax then
      .ok (((release { s with out := s.out ++ [(a, t.want, t.buf)] } a).att a fun t => { t with phase := .create }).go c
        (.run a))
    else .crash
  else .ok ((release s a).go c (if flag then .run a else .pull1 a))

/-- The SMC and what follows, with the buffer locked (attestation_el3_token_sign.c:110-128): on an error
the lock is not released. -/
def pull2 (s : State) (c a : Nat) (e : El3) : Res :=
  match e with
  | .again => .ok ({ s with shared := false }.go c (.run a))
  | .error => .ok (s.go c (.run a))
  | .ok =>
    match s.resps with
    | [] => .blocked
    | r :: rs => .ok ({ s with shared := false, resps := rs }.go c (.find a r))

/-- `write_response_to_rec` (realm_attest.c:228-262). -/
def findRec (s : State) (c a : Nat) (r : Resp) : Res :=
  if r.cookie = a then .ok (s.go c (.write1 a a r))
  else
    match s.recs r.cookie with
    | none => .ok (s.go c (.run a))
    | some _ =>
      if s.glock r.cookie then .blocked
      else .ok ({ s with glock := upd s.glock r.cookie true }.go c (.write1 a r.cookie r))

/-- The checks of `attest_el3_token_write_response_to_ctx` (attestation_el3_token_sign.c:168-182). -/
def write2 (s : State) (c a b : Nat) (r : Resp) (x : Ctx) : Res :=
  if x.ticket ≠ r.ticket then
    if x.ticket = 0 ∨ r.ticket ≤ x.ticket then .ok (s.go c (.write5 a b)) else .crash
  else if x.sigLen < r.len then .ok ((s.ctx b fun x => { x with err := true }).go c (.write5 a b))
  else .ok (s.go c (.write3 a b r))

/-- The copy (attestation_el3_token_sign.c:184-186).  `sig_buffer` is an address in the mapping of the auxiliary
granules of the REC that runs on the CPU: here it leads to the memory of `a`, whatever `b` is. -/
def write3 (s : State) (c a b : Nat) (r : Resp) (x : Ctx) : Res :=
  if x.ptr = false ∧ r.len ≠ 0 then .crash
  else
    .ok (((s.ctx b fun x => { x with sigLen := r.len }).att a fun t => { t with buf := some r.hash }).go c
      (.write4 a b r))

/-- One step of a CPU. -/
def cpuStep (s : State) (c : Nat) (e : El3) (flag : Bool) : Res :=
  match s.pc c with
  | .host | .run _ => .blocked
  | .init1 a h => acquire s a fun s => .ok (s.go c (.init2 a h))
  | .init2 a h => init2 s c a h
  | .init3 a h => init3 s c a h flag
  | .sign1 a => acquire s a fun s => .ok (s.go c (.sign2 a))
  | .sign2 a => match s.recs a with | none => .blocked | some t => sign2 s c a t
  | .sign3 a => if s.shared then .blocked else .ok ({ s with shared := true }.go c (.sign4 a))
  | .sign4 a => match s.recs a with | none => .blocked | some t => sign4 s c a t e
  | .sign5 a => match s.recs a with | none => .blocked | some t => sign5 s c a t flag
  | .pull1 a => if s.shared then .blocked else .ok ({ s with shared := true }.go c (.pull2 a))
  | .pull2 a => pull2 s c a e
  | .find a r => findRec s c a r
  | .write1 a b r => acquire s b fun s => .ok (s.go c (.write2 a b r))
  | .write2 a b r => match s.recs b with | none => .blocked | some t => write2 s c a b r t.ctx
  | .write3 a b r => match s.recs b with | none => .blocked | some t => write3 s c a b r t.ctx
  | .write4 a b _ => .ok ((s.ctx b fun x => { x with valid := true }).go c (.write5 a b))
  | .write5 a b =>
    let s := release s b
    .ok ((if b = a then s else { s with glock := upd s.glock b false }).go c (.run a))

def step (s : State) : Op → Res
  /- The auxiliary granules of a new REC are zero (/repo/runtime/rmi/granule.c:33, rec.c:186, and C02). -/
  | .create a => match s.recs a with | some _ => .blocked | none => .ok { s with recs := upd s.recs a (some {}) }
  /- Waits for the granule's lock; fails if a CPU has a reference (rec.c:401-444). -/
  | .destroy a =>
    if s.glock a || s.refs a then .blocked else .ok { s with recs := upd s.recs a none }
  /- Waits for the granule's lock too; fails if a CPU has a reference; takes a reference and releases the lock
  (/repo/runtime/rmi/run.c:196-218). -/
  | .enter c a =>
    match s.pc c, s.recs a with
    | .host, some _ =>
      if s.glock a || s.refs a then .blocked else .ok ({ s with refs := upd s.refs a true }.go c (.run a))
    | _, _ => .blocked
  | .exit c =>
    match s.pc c with
    | .run a => .ok ({ s with refs := upd s.refs a false }.go c .host)
    | _ => .blocked
  | .tokenInit c h =>
    match s.pc c with
    | .run a => match s.recs a with | none => .blocked | some t => tokenInit s c a h t
    | _ => .blocked
  /- Nothing to sign unless the token has been prepared (attestation_token.c:140-142). -/
  | .tokenContinue c =>
    match s.pc c with
    | .run a =>
      match s.recs a with
      | none => .blocked
      | some t => if t.phase = .sign then .ok (s.go c (.sign1 a)) else .ok s
    | _ => .blocked
  | .cpu c e flag => cpuStep s c e flag
  | .el3 i len =>
    match s.reqs[i]? with
    | none => .blocked
    | some q => .ok { s with reqs := s.reqs.eraseIdx i, resps := s.resps ++ [⟨q.cookie, q.ticket, q.hash, len⟩] }

/-- The states reached from `i` when every step satisfies `P`. -/
inductive ReachP (P : State → Op → Prop) (i : State) : State → Prop where
  | start : ReachP P i i
  | step {s s' o} : ReachP P i s → P s o → step s o = .ok s' → ReachP P i s'

/-- The states reached from boot. -/
abbrev Reach : State → Prop := ReachP (fun _ _ => True) start

end Verif.Sign
