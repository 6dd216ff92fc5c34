import Verif.Boot.Start

/-!
# What attestation takes from EL3 at boot

/repo/lib/attestation/src/attestation_key.c (the realm attestation key and the platform token),
attestation_rnd.c (the seeds of the random number generators), attestation_utils.c:52-118 and the
calls of rmm_el3_runtime.c they use. Mbed TLS and t_cose are oracles. Buffers are functions from
offsets to bytes; an access past the end of one is the outcome `overrun`.
-/

namespace Verif.Boot

abbrev Byte := BitVec 8

abbrev Buf := Nat → Byte

/-- rmm_el3_ifc_get_shared_buf_size (rmm_el3_ifc.h:198-201): one page. -/
def sharedSize : Nat := 4096

/-- An answer of EL3: three registers and what the shared buffer holds afterwards. -/
structure Resp where
  x0 : BitVec 64
  x1 : BitVec 64
  x2 : BitVec 64
  buf : Buf

inductive Out where
  | ok | einval | enomem
  | assert
  | overrun
  /-- EL3 has not answered yet -/
  | pending
  deriving DecidableEq, Repr

/-- memcpy(dst + off, src, n). -/
def put (dst : Buf) (off : Nat) (src : Buf) (n : Nat) : Buf :=
  fun i => if off ≤ i ∧ i < off + n then src (i - off) else dst i

/-! The platform token -/

/-- rmm_el3_runtime.c:114-147: the code as an int, and the two lengths, which keep their values when
the call fails. `ver` is the interface version. -/
def getPlatToken (ver : BitVec 64) (r : Resp) (hunk rem : BitVec 64) : BitVec 32 × BitVec 64 × BitVec 64 :=
  if r.x0 ≠ 0 then (r.x0.setWidth 32, hunk, rem)
  else
    let old := (ver >>> 16) &&& 0x7fff = 0 ∧ ver &&& 0xffff < 3
    (r.x0.setWidth 32, r.x1, if old then 0 else r.x2)

/-- The locals of attest_setup_platform_token and what it writes. -/
structure Tok where
  hunk : BitVec 64 := 0
  rem : BitVec 64 := 0
  hashLen : BitVec 64 := 32
  offset : BitVec 64 := 0
  shared : Buf
  buf : Buf
  /-- the calls so far: hash_length and the shared buffer -/
  calls : List (BitVec 64 × Buf) := []

/-- One round of attestation_key.c:286-323. `some out` leaves the loop. E_RMM_AGAIN is -6
(rmm_el3_ifc.h:27): `continue` goes to the condition, which is then true. The check of line 304 is
on 64 bits. -/
def tokenRound (ver : BitVec 64) (size : Nat) (t : Tok) (r : Resp) : Tok × Option Out :=
  let calls := t.calls ++ [(t.hashLen, t.shared)]
  let g := getPlatToken ver r t.hunk t.rem
  let t := { t with calls := calls, shared := r.buf, hunk := g.2.1, rem := g.2.2 }
  if g.1 = -6 then (t, none)
  else if g.1 ≠ 0 then (t, some .einval)
  else if t.hunk = 0 then (t, some .assert)
  else if t.offset + t.hunk + t.rem > BitVec.ofNat 64 size then (t, some .enomem)
  else if t.hunk.toNat > sharedSize ∨ t.offset.toNat + t.hunk.toNat > size then (t, some .overrun)
  else
    let t := { t with
      buf := put t.buf t.offset.toNat r.buf t.hunk.toNat
      offset := t.offset + t.hunk
      hashLen := 0 }
    (t, if t.rem > 0 then none else some .ok)

/-- attestation_key.c:286-323. -/
def tokenLoop (ver : BitVec 64) (size : Nat) : Tok → List Resp → Tok × Out
  | t, [] => (t, .pending)
  | t, r :: rs =>
    let q := tokenRound ver size t r
    match q.2 with
    | some o => (q.1, o)
    | none => tokenLoop ver size q.1 rs

/-- What the attestation library keeps. -/
structure Att where
  /-- attest_key_loaded -/
  loaded : Bool := false
  /-- keys held by the PSA key store -/
  stored : Nat := 0
  /-- imported_key, as the bytes that were imported and their number -/
  key : Option (Buf × Nat) := none
  /-- realm_attest_public_key_hash -/
  hash : Buf := fun _ => 0
  /-- rmm_platform_token_buf, and rmm_platform_token when its pointer is set -/
  tokBuf : Buf := fun _ => 0
  token : Option Nat := none
  /-- the shared buffer and its lock -/
  shared : Buf := fun _ => 0
  locked : Bool := false
  /-- prng_init_done -/
  prng : Bool := false
  /-- attest_initialized -/
  init : Bool := false

/-- attestation_key.c:255-333 (attest_setup_platform_token), `size` is ATTEST_PLAT_TOKEN_SIZE. Also
the calls made. -/
def setupToken (ver : BitVec 64) (size : Nat) (s : Att) (rs : List Resp) : Att × Out × List (BitVec 64 × Buf) :=
  if !s.loaded then (s, .einval, [])
  else
    -- PSA_HASH_LENGTH(PSA_ALG_SHA_256) bytes
    let t : Tok := { shared := put s.shared 0 s.hash 32, buf := s.tokBuf }
    let q := tokenLoop ver size t rs
    let s := { s with shared := q.1.shared, tokBuf := q.1.buf, locked := true }
    match q.2 with
    | .ok => ({ s with locked := false, token := some q.1.offset.toNat }, .ok, q.1.calls)
    | .einval => ({ s with locked := false }, .einval, q.1.calls)
    | .enomem => ({ s with locked := false }, .enomem, q.1.calls)
    | o => (s, o, q.1.calls)

/-! The realm attestation key -/

/-- rmm_el3_runtime.c:74-98: the code as an int; the length is set when x0 is zero, otherwise it
keeps what was on the stack. -/
def getKey (r : Resp) (stale : BitVec 64) : BitVec 32 × BitVec 64 :=
  if r.x0 ≠ 0 then (r.x0.setWidth 32, stale) else (0, r.x1)

/-- What the libraries answer: psa_import_key, t_cose_key_encode (the length of the key, `none` for
an error), psa_hash_compute (the hash). -/
structure Lib where
  imported : Bool
  encoded : Option Nat
  hashed : Option Buf

/-- MAX_REALM_PUBLIC_KEY_SIZE (attestation_key.c:34-35): 97 + 32. -/
def maxPub : Nat := 129

/-- attestation_key.c:77-199 (attest_init_realm_attestation_key). `el3Sign` is
ATTEST_EL3_TOKEN_SIGN. The public key itself is not modelled, only that the copy of line 119 fits. -/
def initKey (el3Sign : Bool) (stale : BitVec 64) (lib : Lib) (s : Att) (r : Resp) : Att × Out :=
  if s.loaded then (s, .einval)
  else
    let s := { s with locked := true, shared := r.buf }
    let g := getKey r stale
    if g.1 ≠ 0 then ({ s with locked := false }, .einval)
    else
      let n := g.2.toNat
      if n > sharedSize ∨ (el3Sign ∧ n > maxPub) then (s, .overrun)
      else
        let k := (s.shared, n)
        let s := if lib.imported then { s with stored := s.stored + 1, key := some k } else s
        let s := if el3Sign then s else { s with shared := put s.shared 0 (fun _ => 0) n }
        let s := { s with locked := false }
        if !lib.imported then (s, .einval)
        else match lib.encoded with
          | none => ({ s with stored := s.stored - 1, key := none }, .einval)
          | some l =>
            if l = 0 then (s, .assert)
            else match lib.hashed with
              | none => ({ s with stored := s.stored - 1, key := none }, .einval)
              | some h => ({ s with hash := h, loaded := true }, .ok)

/-- attestation_key.c:201-217 (attest_get_realm_signing_key). -/
def signingKey (el3Sign : Bool) (s : Att) : Option (Buf × Nat) :=
  if el3Sign then none else if s.loaded then s.key else none

/-- attestation_key.c:335-347 (attest_get_platform_token). -/
def platToken (s : Att) : Option (Buf × Nat) := s.token.map fun n => (s.tokBuf, n)

/-! Random numbers -/

/-- attestation_rnd.c:27-41 (get_random_seed) for `n` words: RNDR is read until it succeeds, and the
value is stored either way (entropy.h:16-35). `none`: no more answers. Gives the words and the
answers left. -/
def seed : Nat → List (Bool × BitVec 64) → Option (List (BitVec 64) × List (Bool × BitVec 64))
  | 0, a => some ([], a)
  | _ + 1, [] => none
  | n + 1, (true, v) :: a => (seed n a).map fun q => (v :: q.1, q.2)
  | n + 1, (false, _) :: a => seed (n + 1) a

/-- A generator of Mbed TLS: seeding and drawing a seed for another one, either of which can fail. -/
structure Drbg (G : Type) where
  start : List (BitVec 64) → Option G
  draw : G → Option (G × List (BitVec 64))

/-- attestation_rnd.c:111-127: the generators of CPUs, from the temporary one. -/
def seedCpus {G : Type} (d : Drbg G) : Nat → G → Option (List G)
  | 0, _ => some []
  | n + 1, g =>
    (d.draw g).bind fun q => (d.start q.2).bind fun c => (seedCpus d n q.1).map (c :: ·)

/-- attestation_rnd.c:73-136 (attest_rnd_prng_init) with a seed of 128 bytes. -/
def prngInit {G : Type} (d : Drbg G) (cpus : Nat) (feat : Bool) (a : List (Bool × BitVec 64)) : Option (List G) :=
  if !feat then none
  else (seed 16 a).bind fun q => (d.start q.1).bind fun g => seedCpus d cpus g

/-- attestation_utils.c:52-118 (attestation_init) after the heap is assigned; whether the generators
were seeded, whether psa_crypto_init and el3_token_sign_queue_init succeed. -/
def attInit (el3Sign : Bool) (ver : BitVec 64) (size : Nat) (prng psa queue : Bool) (stale : BitVec 64) (lib : Lib)
    (s : Att) (rk : Resp) (rs : List Resp) : Att × Out :=
  if !prng then (s, .einval)
  else
    let s := { s with prng := true }
    if !psa then (s, .einval)
    else
      let q := initKey el3Sign stale lib s rk
      if q.2 ≠ .ok then q
      else
        let t := setupToken ver size q.1 rs
        if t.2.1 ≠ .ok then (t.1, t.2.1)
        else if el3Sign && !queue then (t.1, .einval)
        else ({ t.1 with init := true }, .ok)

end Verif.Boot
