import Verif.Basic

/-!
# The bitmap of VMIDs, and the RMI calls that use it, on any number of CPUs

/repo/lib/arch/src/vmid.c, and of /repo/runtime/rmi/realm.c what concerns the VMID. Each access to the
bitmap is one atomic instruction, so any interleaving is a sequence of the steps below.
-/

namespace Verif.Vmid

/-- `vmids[VMID_ARRAY_LONG_SIZE]`, vmid.c:13-21: a word for every index; the array has the first 1024. -/
abbrev Map := Nat → BitVec 64

def words : Nat := 65536 / 64

/-- `vmid_count`, vmid.c:34-35, 60-61. -/
def count (vmid16 : Bool) : Nat := if vmid16 then 65536 else 256

/-- `atomic_bit_set_acquire_release_64`, /repo/lib/arch/include/aarch64/atomics.h:199-217 (LDSETAL): the
new word, and the old value of the bit. `bit` is less than 64. -/
def bitSet (w : BitVec 64) (bit : Nat) : BitVec 64 × Bool :=
  let mask := 1#64 <<< bit
  (w ||| mask, (w &&& mask) != 0)

/-- `atomic_bit_clear_release_64`, atomics.h:156-170 (STCLRL). -/
def bitClear (w : BitVec 64) (bit : Nat) : BitVec 64 :=
  let mask := 1#64 <<< bit
  w &&& ~~~ mask

/-- A write to the array; `none` if it is out of bounds. -/
def wr (m : Map) (i : Nat) (w : BitVec 64) : Option Map :=
  if i < words then some fun j => if j = i then w else m j else none

/-- `vmid_reserve`, vmid.c:29-50: the map afterwards and the result. -/
def reserve (vmid16 : Bool) (m : Map) (vmid : BitVec 32) : Option (Map × Bool) :=
  if vmid.toNat ≥ count vmid16 then some (m, false)
  else
    let r := bitSet (m (vmid.toNat / 64)) (vmid.toNat % 64)
    (wr m (vmid.toNat / 64) r.1).map fun m' => (m', !r.2)

/-- `vmid_free`, vmid.c:55-70; `none` if the assertion fails. -/
def free (vmid16 : Bool) (m : Map) (vmid : BitVec 32) : Option Map :=
  if vmid.toNat < count vmid16 then wr m (vmid.toNat / 64) (bitClear (m (vmid.toNat / 64)) (vmid.toNat % 64)) else none

/-- What a CPU is doing. -/
inductive Pc where
  | idle
  /-- in smc_realm_create after validate_realm_params, with this VMID in `p` -/
  | created (v : BitVec 32)
  deriving DecidableEq

/-- What an RD granule is. -/
inductive Rd where
  | none
  /-- in state RD, with this VMID in `rd->s2_ctx` -/
  | live (v : BitVec 32)
  /-- still in state RD and locked, with the VMID given back (realm.c:539-547) -/
  | dying
  deriving DecidableEq

structure St (T R : Type) where
  map : Map
  pc : T → Pc
  rd : R → Rd

variable {T R : Type} [DecidableEq T] [DecidableEq R]

inductive Act (T R : Type) where
  | reserve (t : T) (v : BitVec 16)
  | fail (t : T)
  | commit (t : T) (r : R)
  | destroy (r : R)
  | done (r : R)

/-- One step: `some none` if it cannot be taken now, `none` if it fails an assertion or is out of
bounds. -/
def step (vmid16 : Bool) (s : St T R) : Act T R → Option (Option (St T R))
  /- validate_realm_params, realm.c:322-323; `p->vmid` is an unsigned short (smc-rmi.h) -/
  | .reserve t v =>
    if s.pc t = .idle then
      (reserve vmid16 s.map (v.zeroExtend 32)).map fun r =>
        some { s with map := r.1, pc := fun u => if u = t ∧ r.2 = true then .created (v.zeroExtend 32) else s.pc u }
    else some none
  /- realm.c:412-422, 424-429: the address of the RD is among the tables, or a granule is not delegated -/
  | .fail t =>
    match s.pc t with
    | .created v => (free vmid16 s.map v).map fun m => some { s with map := m, pc := fun u => if u = t then .idle else s.pc u }
    | .idle => some none
  /- realm.c:424-479: the granule `r` is delegated and locked, and becomes an RD -/
  | .commit t r =>
    match s.pc t with
    | .created v =>
      if s.rd r = .none then
        some (some { s with pc := fun u => if u = t then .idle else s.pc u, rd := fun q => if q = r then .live v else s.rd q })
      else some none
    | .idle => some none
  /- realm.c:501-539: the RD is locked and unused -/
  | .destroy r =>
    match s.rd r with
    | .live v => (free vmid16 s.map v).map fun m => some { s with map := m, rd := fun q => if q = r then .dying else s.rd q }
    | _ => some none
  /- realm.c:540-548 -/
  | .done r => if s.rd r = .dying then some (some { s with rd := fun q => if q = r then .none else s.rd q }) else some none

/-- Steps that cannot be taken are left out. -/
def run (vmid16 : Bool) (s : St T R) : List (Act T R) → Option (St T R)
  | [] => some s
  | a :: as => (step vmid16 s a).bind fun r => run vmid16 (r.getD s) as

/-- At boot the array is zero. -/
def init : St T R := { map := fun _ => 0, pc := fun _ => .idle, rd := fun _ => .none }

end Verif.Vmid
