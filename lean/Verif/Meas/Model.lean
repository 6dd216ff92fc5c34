import Verif.Basic
import Verif.Tac

/-!
# C32, C33: measurements

Model of /repo/lib/measurement/src/measurement.c, rim.c and measurement_descs.h.  The hash functions
are a parameter (any function whose output has the right length); PSA calls are taken to succeed.
Memory is a list of bytes.
-/

namespace Verif.Meas

abbrev Byte := BitVec 8
abbrev W := BitVec 64

/-- `enum hash_algo`: measurement.h:15-18. -/
inductive Algo where
  | sha256
  | sha512
  deriving DecidableEq

/-- `measurement_get_size`: measurement.h:74-90. -/
def Algo.size : Algo → Nat
  | .sha256 => 32
  | .sha512 => 64

/-- What `psa_hash_compute` computes for each algorithm. -/
structure Hash where
  f : Algo → List Byte → List Byte
  len : ∀ a x, (f a x).length = a.size

/-- `n` bytes of a little endian value, as it lies in memory. -/
def le {w : Nat} (n : Nat) (v : BitVec w) : List Byte :=
  (List.range n).map fun i => (v >>> (8 * i)).setWidth 8

/-- A zeroed area: `= {0}` or the padding that `SET_MEMBER` inserts. -/
def zeros (n : Nat) : List Byte := List.replicate n 0

/-- `memcpy(dst, src, n)` onto the front of `dst`. -/
def memcpy (dst src : List Byte) (n : Nat) : List Byte := src.take n ++ dst.drop n

/-- `MAX_MEASUREMENT_SIZE`: measurement.h:48. -/
def MAXM : Nat := 64

/-- `do_hash` and `measurement_hash_compute`: measurement.c:44-88; `out` is the buffer written, of
which the bytes beyond the digest stay. -/
def hashCompute (h : Hash) (a : Algo) (data out : List Byte) : List Byte :=
  memcpy out (h.f a data) a.size

/-- `struct measurement_desc_data`: measurement_descs.h:13-29. -/
def descData (rim : List Byte) (ipa flags : W) (content : List Byte) : List Byte :=
  le 1 (0 : Byte) ++ zeros 7 ++ le 8 (0x100 : W) ++ rim ++ le 8 ipa ++ le 8 flags ++ content ++ zeros 0x60

/-- `struct measurement_desc_rec`: measurement_descs.h:40-49. -/
def descRec (rim content : List Byte) : List Byte :=
  le 1 (1 : Byte) ++ zeros 7 ++ le 8 (0x100 : W) ++ rim ++ content ++ zeros 0x70

/-- `struct measurement_desc_ripas`: measurement_descs.h:58-69. -/
def descRipas (rim : List Byte) (base top : W) : List Byte :=
  le 1 (2 : Byte) ++ zeros 7 ++ le 8 (0x100 : W) ++ rim ++ le 8 base ++ le 8 top ++ zeros 0xa0

/-- `RMI_MEASURE_CONTENT`: /repo/lib/smc/include/smc-rmi.h:78. -/
def MEASURE_CONTENT : W := 1

/-- `measurement_data_granule_measure`: rim.c:10-45. -/
def dataGranule (h : Hash) (a : Algo) (slot data : List Byte) (ipa flags : W) : List Byte :=
  let rim := memcpy (zeros MAXM) slot a.size
  let content := if flags = MEASURE_CONTENT then hashCompute h a data (zeros MAXM) else zeros MAXM
  hashCompute h a (descData rim ipa flags content) slot

/-- The measured fields of `struct rmi_realm_params`: smc-rmi.h:644-671. -/
structure Params where
  flags : W
  s2sz : BitVec 32
  sveVl : BitVec 32
  numBps : BitVec 32
  numWps : BitVec 32
  pmuNumCtrs : BitVec 32
  algorithm : BitVec 8
  deriving DecidableEq

/-- The `struct rmi_realm_params` hashed by `measurement_realm_params_measure`: rim.c:55-74. -/
def encParams (p : Params) : List Byte :=
  le 8 p.flags ++ le 4 p.s2sz ++ zeros 4 ++ le 4 p.sveVl ++ zeros 4 ++ le 4 p.numBps ++ zeros 4 ++
    le 4 p.numWps ++ zeros 4 ++ le 4 p.pmuNumCtrs ++ zeros 4 ++ le 1 p.algorithm ++ zeros 0xfcf

/-- `measurement_realm_params_measure`: rim.c:47-81. -/
def realmParams (h : Hash) (a : Algo) (slot : List Byte) (p : Params) : List Byte :=
  hashCompute h a (encParams p) slot

/-- The measured fields of `struct rmi_rec_params`: smc-rmi.h:678-693; eight registers
(`REC_CREATE_NR_GPRS`, smc-rmi.h:88). -/
structure RecParams where
  flags : W
  pc : W
  gprs : Fin 8 → W

/-- The `struct rmi_rec_params` hashed: rim.c:88-100. -/
def encRec (p : RecParams) : List Byte :=
  le 8 p.flags ++ zeros 0xf8 ++ zeros 0x100 ++ le 8 p.pc ++ zeros 0xf8 ++
    (List.finRange 8).flatMap (fun i => le 8 (p.gprs i)) ++ zeros 0xcc0

/-- `measurement_rec_params_measure`: rim.c:83-123. -/
def recParams (h : Hash) (a : Algo) (slot : List Byte) (p : RecParams) : List Byte :=
  let rim := memcpy (zeros MAXM) slot a.size
  let content := hashCompute h a (encRec p) (zeros MAXM)
  hashCompute h a (descRec rim content) slot

/-- `measurement_init_ripas_measure`: rim.c:125-149. -/
def initRipas (h : Hash) (a : Algo) (slot : List Byte) (base top : W) : List Byte :=
  let rim := memcpy (zeros MAXM) slot a.size
  hashCompute h a (descRipas rim base top) slot

/-- `do_extend` and `measurement_extend`: measurement.c:89-163: the digest of the current value
followed by the data goes to `out`. -/
def extend (h : Hash) (a : Algo) (cur data out : List Byte) : List Byte :=
  memcpy out (h.f a (cur.take a.size ++ data)) a.size

/-- One measured event of a realm's construction, after REALM_CREATE. -/
inductive Ev where
  /-- DATA_CREATE: address, flags, the granule's bytes -/
  | data (ipa flags : W) (bytes : List Byte)
  /-- RTT_INIT_RIPAS -/
  | ripas (base top : W)
  /-- REC_CREATE of a runnable REC -/
  | recd (p : RecParams)

/-- The update of the measurement slot by one event: the calls of rtt.c:973, rtt.c:1293, rec.c:364. -/
def step (h : Hash) (a : Algo) (slot : List Byte) : Ev → List Byte
  | .data ipa flags b => dataGranule h a slot b ipa flags
  | .ripas b t => initRipas h a slot b t
  | .recd p => recParams h a slot p

/-- The RIM slot of a realm descriptor after its construction.  The descriptor granule is zeroed when
delegated and its first bytes are set by realm.c:463; `slot0` is whatever the slot held before. -/
def rimSlot (h : Hash) (a : Algo) (slot0 : List Byte) (p : Params) (evs : List Ev) : List Byte :=
  evs.foldl (step h a) (realmParams h a slot0 p)

end Verif.Meas
