import Verif.Attest.Cbor

/-!
# Building the attestation token

attestation_token.c:30-400 and the encoder it calls. QCBOR and t_cose are not in /repo: the encoder
follows the description of QCBOR (heads in the shortest form, the head of a map, array or wrapped byte string
is inserted when it is closed, the first error stays), and of t_cose only what it adds to the encoder is kept.
-/

namespace Verif.Attest

/-! ## QCBOR -/

/-- `n` in `k` bytes, big-endian. -/
def be : Nat → Nat → List Byte
  | 0, _ => []
  | k + 1, n => be k (n / 256) ++ [BitVec.ofNat 8 (n % 256)]

/-- Head of a data item in the shortest form. -/
def head (major n : Nat) : List Byte :=
  if n < 24 then [BitVec.ofNat 8 (32 * major + n)]
  else if n < 2 ^ 8 then BitVec.ofNat 8 (32 * major + 24) :: be 1 n
  else if n < 2 ^ 16 then BitVec.ofNat 8 (32 * major + 25) :: be 2 n
  else if n < 2 ^ 32 then BitVec.ofNat 8 (32 * major + 26) :: be 4 n
  else BitVec.ofNat 8 (32 * major + 27) :: be 8 n

inductive QErr
  | tooSmall
  | format
deriving DecidableEq

/-- An open map, array or byte string: major type, where it starts, number of items so far. -/
structure Nest where
  major : Nat
  start : Nat
  count : Nat

/-- `QCBOREncodeContext`: size of the buffer, bytes written, open items (innermost first), error. -/
structure Enc where
  cap : Nat
  out : List Byte
  nest : List Nest
  err : Option QErr

/-- QCBOREncode_Init. -/
def Enc.init (cap : Nat) : Enc := ⟨cap, [], [], none⟩

/-- UsefulOutBuf_InsertUsefulBuf. -/
def put (pos : Nat) (bs : List Byte) (e : Enc) : Enc :=
  if e.err.isSome then e
  else if e.out.length + bs.length > e.cap then { e with err := some .tooSmall }
  else { e with out := e.out.take pos ++ bs ++ e.out.drop pos }

def app (bs : List Byte) (e : Enc) : Enc := put e.out.length bs e

def incN : List Nest → List Nest
  | [] => []
  | n :: l => { n with count := n.count + 1 } :: l

/-- One more item in the innermost open map or array. -/
def inc (e : Enc) : Enc := if e.err.isSome then e else { e with nest := incN e.nest }

/-- QCBOREncode_AddInt64 of a number that is not negative. -/
def addUint (n : Nat) (e : Enc) : Enc := inc (app (head 0 n) e)
/-- QCBOREncode_AddBytes. -/
def addBytes (b : List Byte) (e : Enc) : Enc := inc (app b (app (head 2 b.length) e))
/-- QCBOREncode_AddText. -/
def addText (b : List Byte) (e : Enc) : Enc := inc (app b (app (head 3 b.length) e))
/-- QCBOREncode_AddTag: no item by itself. -/
def addTag (n : Nat) (e : Enc) : Enc := app (head 6 n) e

/-- QCBOREncode_OpenMap, QCBOREncode_OpenArray, QCBOREncode_BstrWrap. -/
def openItem (major : Nat) (e : Enc) : Enc :=
  if e.err.isSome then e else { inc e with nest := ⟨major, e.out.length, 0⟩ :: incN e.nest }

/-- QCBOREncode_CloseMap, QCBOREncode_CloseArray, QCBOREncode_CloseBstrWrap2. -/
def closeItem (major : Nat) (e : Enc) : Enc :=
  if e.err.isSome then e
  else
    match e.nest with
    | [] => { e with err := some .format }
    | n :: l =>
      if n.major ≠ major then { e with err := some .format }
      else
        put n.start (head major (if major = 2 then e.out.length - n.start else if major = 5 then n.count / 2 else n.count))
          { e with nest := l }

/-- The string that QCBOREncode_CloseBstrWrap2 with `bIncludeCBORHead` false gives back. -/
def wrapped (e : Enc) : List Byte :=
  match e.nest with
  | [] => []
  | n :: _ => e.out.drop n.start

/-- QCBOREncode_Finish. -/
def finish (e : Enc) : Except QErr (List Byte) :=
  match e.err with
  | some x => .error x
  | none => if e.nest.isEmpty then .ok e.out else .error .format

/-- QCBOREncode_AddBytesToMapN. -/
def addBytesN (k : Nat) (b : List Byte) (e : Enc) : Enc := addBytes b (addUint k e)
/-- QCBOREncode_AddTextToMapN. -/
def addTextN (k : Nat) (b : List Byte) (e : Enc) : Enc := addText b (addUint k e)

/-! ## t_cose -/

/-- t_cose_sign_encode_start (called in attestation_token.c:118) for COSE_Sign1: tag 18, an array, the protected header, an
empty unprotected header. -/
def coseStart (hdr : List Byte) (e : Enc) : Enc :=
  closeItem 5 (openItem 5 (addBytes hdr (openItem 4 (addTag 18 e))))

/-- The end of t_cose_sign_encode_finish (called in attestation_token.c:148-152). -/
def coseFinish (sig : List Byte) (e : Enc) : Enc := closeItem 4 (addBytes sig e)

/-! ## attestation_token.c -/

/-- `enum attest_token_gen_state_t` (attestation_token.h:30-36). -/
inductive GenState
  | notStarted
  | init
  | sign
  | create
deriving DecidableEq

/-- `struct token_sign_cntxt`. -/
structure Ctx where
  state : GenState
  enc : Enc
  payload : List Byte

/-- The part of the realm descriptor that goes into the token (realm.h:30-70), and X1-X8. -/
structure Src where
  algo : Nat
  meas : Nat → List Byte
  rpv : List Byte
  regs : Nat → BitVec 64

/-- The bytes of a C string. -/
def str (l : List Char) : List Byte := l.map fun ch => BitVec.ofNat 8 ch.toNat

/-- attest_get_hash_algo_text (attestation_token.c:30-46); `none`: assertion. -/
def algoText : Nat → Option (List Byte)
  | 0 => some (str ['s', 'h', 'a', '-', '2', '5', '6'])
  | 1 => some (str ['s', 'h', 'a', '-', '5', '1', '2'])
  | _ => none

/-- measurement_get_size (measurement.h:74-90). -/
def measSize : Nat → Option Nat
  | 0 => some 32
  | 1 => some 64
  | _ => none

/-- CCA_REALM_PROFILE_STR (attestation_defs_priv.h:27). -/
def profileStr : List Byte := str ['t', 'a', 'g', ':', 'a', 'r', 'm', '.', 'c', 'o', 'm', ',', '2', '0', '2', '3', ':', 'r', 'e', 'a', 'l', 'm', '#', '1', '.', '0', '.', '0']

/-- The 64 bytes at `&rec->regs[1]` (realm_attest.c:180-181). -/
def challenge (regs : Nat → BitVec 64) : List Byte :=
  (List.range 64).map fun i => (regs (1 + i / 8)).extractLsb' (8 * (i % 8)) 8

/-- The loop of attestation_token.c:357-361: `n` measurements from `i`. -/
def addRems (m : Nat → List Byte) (size : Nat) : (n i : Nat) → Enc → Enc
  | 0, _, e => e
  | n + 1, i, e => addRems m size n (i + 1) (addBytes ((m i).take size) e)

/-- attestation_token.c:306-318: up to the personalisation value. -/
def claims1 (s : Src) (e : Enc) : Enc :=
  addBytesN 44235 (s.rpv.take 64) (addBytesN 10 (challenge s.regs) (openItem 5 (openItem 2 e)))

/-- attestation_token.c:325-364: from the public key to the end of the map. -/
def claims2 (s : Src) (key t1 t2 : List Byte) (size : Nat) (e : Enc) : Enc :=
  closeItem 5 <| closeItem 4 <| addRems s.meas size 4 1 <| openItem 4 <| addUint 44239 <|
    addBytesN 44238 ((s.meas 0).take size) <| addTextN 265 profileStr <| addTextN 44240 t2 <| addTextN 44236 t1 <|
      addBytesN 44237 key e

/-- `attest_realm_token_create` (attestation_token.c:268-371). `start`: what t_cose_sign_encode_start puts
in the protected header, `none` if it or getting the signing key fails. `key`: the public key, `none` if it
is not there. The result is 0 or not, and the new context. -/
def realmTokenCreate (start key : Option (List Byte)) (s : Src) (cap : Nat) (c : Ctx) : Option (Bool × Ctx) :=
  if c.state ≠ .init then some (false, c)
  else
    match start with
    | none => some (false, c)
    | some hdr =>
      let e := claims1 s (coseStart hdr (Enc.init cap))
      match key with
      | none => some (false, { c with enc := e })
      | some k =>
        match algoText s.algo, algoText 0, measSize s.algo with
        | some t1, some t2, some size =>
          let e := claims2 s k t1 t2 size e
          some (true, { state := .sign, enc := closeItem 2 e, payload := wrapped e })
        | _, _, _ => none

/-- attest_token_ctx_init (attestation_token.c:374-400); `heap`: result of attestation_heap_ctx_init. -/
def ctxInit (heap : Bool) (c : Ctx) : Bool × Ctx :=
  if c.state ≠ .init then
    let c : Ctx := ⟨.notStarted, Enc.init 0, []⟩
    if heap then (true, { c with state := .init }) else (false, c)
  else (true, c)

/-- handle_rsi_attest_token_init (realm_attest.c:137-199): the result is RSI_SUCCESS or not. The buffer
has 1K (rec.h:28). -/
def tokenInit (heap : Bool) (start key : Option (List Byte)) (s : Src) (c : Ctx) : Option (Bool × Ctx) :=
  match ctxInit heap c with
  | (false, c) => some (false, c)
  | (true, c) => realmTokenCreate start key s 1024 c

/-- What t_cose does with the payload: signing takes longer, fails, or gives a signature. -/
inductive Sig
  | busy
  | fail
  | done (sig : List Byte)

/-- `enum attest_token_err_t`, the values used here. -/
inductive Res
  | success
  | state
  | small
  | formatting
  | cose
  | progress
  | cca
deriving DecidableEq

/-- attest_realm_token_sign (attestation_token.c:127-190), with the token. -/
def tokenSign (signer : List Byte → Sig) (c : Ctx) : Res × Ctx × List Byte :=
  if c.state ≠ .sign then (.state, c, [])
  else
    match signer c.payload with
    | .busy => (.progress, c, [])
    | .fail => (.cose, c, [])
    | .done sig =>
      let e := coseFinish sig c.enc
      match finish e with
      | .error .tooSmall => (.small, { c with enc := e }, [])
      | .error .format => (.formatting, { c with enc := e }, [])
      | .ok tok => (.success, { c with enc := e, state := .create }, tok)

/-- attest_cca_token_create (attestation_token.c:192-252). -/
def ccaCreate (plat : Option (List Byte)) (cap : Nat) (realm : List Byte) (c : Ctx) : Res × Ctx × List Byte :=
  if c.state ≠ .create then (.state, c, [])
  else
    match plat with
    | none => (.cca, c, [])
    | some p =>
      match finish (closeItem 5 (addBytesN 44241 realm (addBytesN 44234 p (openItem 5 (addTag 399 (Enc.init cap)))))) with
      | .error _ => (.cca, c, [])
      | .ok tok => (.success, { c with state := .notStarted }, tok)

end Verif.Attest
