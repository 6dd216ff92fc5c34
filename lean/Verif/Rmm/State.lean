import Verif.Basic
import Verif.Leaf.Features
import Verif.Leaf.Mpidr
import Verif.S2tte.Model

/-!
# The RMM machine: state

The state RMM keeps in granules, the granule array, the VMID bitmap, and the part
of the platform it depends on.  A granule is identified by its physical address
(`granule_addr`/`addr_to_granule` are bijections, property C43).  Addresses, sizes
and counters are natural numbers; every place where a C `unsigned long` could wrap
is commented at the definition concerned.

Each RMI command is one atomic step of the machine.  The granule locks that make
the commands appear atomic are modelled apart, in `Verif.LockSet` and
`Verif.Conc`.
-/

namespace Verif.Rmm

/-- Point update of a map. -/
def upd {α : Type} (f : Nat → α) (a : Nat) (v : α) : Nat → α := fun x => if x = a then v else f x

/-- Granule states: /repo/lib/granule/include/granule_types.h:44-77.  The device
assignment states (PDEV, VDEV and their AUX) are left out: no RMI handler of this
build (`RMM_V1_1` off) creates them. -/
inductive GSt where
  | ns | delegated | rd | recd | recAux | data | rtt
  deriving DecidableEq, Repr

/-- A stage-2 entry, decoded.  `Verif.Desc` relates it to the 64-bit
descriptors of `Verif.S2tte`.  An unprotected mapping keeps the host's attribute
bits `attr` (`S2TTE_NS_ATTR_MASK`, /repo/lib/s2tt/src/s2tt_pvt_defs.h:125) and the
output address. -/
inductive Entry where
  | unassigned (r : Ripas)
  | unassignedNs
  | assigned (r : Ripas) (pa : Nat)
  | assignedNs (attr : BitVec 64) (pa : Nat)
  | table (pa : Nat)
  deriving DecidableEq, Repr

/-- `s2tte_is_live`: /repo/lib/s2tt/src/s2tt.c:1024-1028 (C18_live_iff relates it
to the descriptor). -/
def Entry.live : Entry → Bool
  | .assigned _ _ => true
  | .assignedNs _ _ => true
  | .table _ => true
  | _ => false

/-- Realm states: /repo/lib/smc/include/smc-rmi.h `REALM_NEW`, `REALM_ACTIVE`,
`REALM_SYSTEM_OFF`. -/
inductive RState where
  | new | active | off
  deriving DecidableEq, Repr

/-- The contents of one 4KB page of plain memory, as the number its bytes spell;
`0` is the all-zero page. -/
abbrev Page := Nat

/-- One step of the realm's initial measurement (RIM):
/repo/lib/measurement/src/measurement.c.  `Verif.Measurement` gives its hash. -/
inductive MeasEv where
  /-- `measurement_realm_params_measure` -/
  | params (p : Features.Params)
  /-- `measurement_data_granule_measure`; the content takes part only when measured -/
  | data (ipa : Nat) (content : Option Page)
  /-- `measurement_init_ripas_measure` -/
  | ripas (base top : Nat)
  /-- `measurement_rec_params_measure`: gprs, pc, flags -/
  | recd (gprs : List (BitVec 64)) (pc flags : BitVec 64)

/-- `struct rd`: /repo/runtime/include/realm.h:20-62.  `d0` is
`3 - s2_starting_level`.  SIMD, PMU and RPV fields, which no modelled command reads
back, are left out. -/
structure Rd where
  state : RState
  recCount : Nat
  d0 : Nat
  ipaBits : Nat
  nroots : Nat
  root : Nat
  vmid : Nat
  lpa2 : Bool
  numAux : Nat
  algo : Nat
  /-- log of `measurement[RIM_MEASUREMENT_SLOT]` -/
  rim : List MeasEv
  /-- logs of the four extensible measurements -/
  rem : Nat → List Nat

/-- The RIPAS change request of a REC: `set_ripas` in
/repo/runtime/include/rec.h:245-254. -/
structure SetRipas where
  base : Nat
  top : Nat
  addr : Nat
  ripas : Ripas
  /-- `change_destroyed == CHANGE_DESTROYED` -/
  chg : Bool
  /-- `response == REJECT` -/
  reject : Bool
  deriving DecidableEq, Repr

/-- `struct rec`: /repo/runtime/include/rec.h:209-315, reduced to ownership,
scheduling state, general registers, program counter and pending requests. -/
structure Rec where
  rd : Nat
  idx : Nat
  runnable : Bool
  aux : List Nat
  regs : Nat → BitVec 64
  pc : BitVec 64
  sr : SetRipas
  psciPending : Bool

/-- What a granule holds. -/
inductive Content where
  | page (p : Page)
  | table (t : Nat → Entry)
  | rd (r : Rd)
  | recd (r : Rec)

/-- Physical address space of a granule as EL3's granule protection table has it. -/
inductive Pas where
  | ns | realm | other
  deriving DecidableEq, Repr

/-- The platform: constants of a boot. -/
structure Plat where
  /-- the address is granule aligned and belongs to a DRAM bank: `find_granule`
  (/repo/lib/granule/src/granule.c:83-98, property C43) succeeds -/
  tracked : Nat → Bool
  /-- number of VMIDs: 256 or 65536 (/repo/lib/arch/src/vmid.c:35) -/
  vmidCount : Nat
  hw : Features.Hw
  /-- assertions compiled in (debug build) -/
  asserts : Bool

/-- Facts about the platform, established by boot (C43, C44). -/
structure PlatOk (P : Plat) : Prop where
  aligned : ∀ a, P.tracked a = true → a % 4096 = 0
  small : ∀ a, P.tracked a = true → a < 2 ^ 52
  hw : Features.HwOk P.hw

/-- The machine state. -/
structure State where
  st : Nat → GSt
  rc : Nat → Nat
  mem : Nat → Content
  pas : Nat → Pas
  vmid : Nat → Bool

/-- One TLB invalidation by IPA: `stage2_tlbi_ipa`, s2tt.c:57-113. -/
structure Tlbi where
  vmid : Nat
  ipa : Nat
  size : Nat
  deriving DecidableEq, Repr

/-- Result registers of an RMI command; `status`/`idx` are the two fields of the
packed return code (property C35). -/
structure Ret where
  status : Nat := 0
  idx : Nat := 0
  x1 : Nat := 0
  x2 : Nat := 0
  x3 : Nat := 0
  x4 : Nat := 0
  tlbi : List Tlbi := []

/-- Outcome of a command: `none` when it reaches a failing assertion, a NULL
dereference or a panic. -/
abbrev Out := Option (State × Ret)

/-- `RMI_ERROR_INPUT`. -/
def errInput : Ret := { status := 1 }
/-- `RMI_ERROR_REALM` with index. -/
def errRealm (i : Nat) : Ret := { status := 2, idx := i }
/-- `RMI_ERROR_REC`. -/
def errRec : Ret := { status := 3 }
/-- `(unsigned char)level` for the level `3 - d`. -/
def levelByte (d : Nat) : Nat := if d = 4 then 255 else 3 - d
/-- `pack_return_code(RMI_ERROR_RTT, (unsigned char)level)`. -/
def errRtt (d : Nat) : Ret := { status := 4, idx := levelByte d }

/-! ## Access to granules -/

/-- `find_lock_granule` succeeds: granule.c:112-126. -/
def lk (P : Plat) (s : State) (a : Nat) (e : GSt) : Bool := P.tracked a && decide (s.st a = e)

/-- Read a granule as a realm descriptor. -/
def getRd (s : State) (a : Nat) : Option Rd :=
  match s.mem a with
  | .rd r => some r
  | _ => none

/-- Read a granule as a translation table. -/
def getTab (s : State) (a : Nat) : Option (Nat → Entry) :=
  match s.mem a with
  | .table t => some t
  | _ => none

/-- Read a granule as a REC. -/
def getRec (s : State) (a : Nat) : Option Rec :=
  match s.mem a with
  | .recd r => some r
  | _ => none

/-! ## Geometry of a realm's address space -/

/-- `s2tte_map_size(3 - d)`: /repo/lib/s2tt/include/s2tt.h:92-94. -/
def sz (d : Nat) : Nat := 4096 * 512 ^ d

/-- `realm_ipa_size`: /repo/runtime/include/realm.h:127-130. -/
def Rd.ipaSize (r : Rd) : Nat := 2 ^ r.ipaBits

/-- `realm_par_size`: realm.h:132-135. -/
def Rd.parSize (r : Rd) : Nat := r.ipaSize / 2

/-- `addr_in_par`: realm.h:206-209. -/
def Rd.inPar (r : Rd) (a : Nat) : Bool := decide (a < r.parSize)

/-- `s2_addr_to_idx` for level `3 - d`: s2tt.c:191-203. -/
def idx (d a : Nat) : Nat := a / sz d % (if d = 4 then 16 else 512)

/-- Address of the root table for `a`: s2tt.c:334-346. -/
def rootFor (r : Rd) (a : Nat) : Nat × Nat :=
  let sl := a % r.ipaSize / sz r.d0
  let n := if 512 ≤ sl then sl / 512 else 0
  (n, r.root + 4096 * n)

/-- Result of a walk: last table, its depth (`3 - last_level`), entry index:
`struct s2tt_walk`. -/
structure Walk where
  g : Nat
  d : Nat
  i : Nat
  deriving DecidableEq, Repr

/-- The loop of `s2tt_walk_lock_unlock`: s2tt.c:350-373, from table `g` at depth
`d` towards depth `tgt`. -/
def walkFrom (s : State) (a tgt : Nat) : Nat → Nat → Option Walk
  | 0, g => some ⟨g, 0, idx 0 a⟩
  | d + 1, g =>
    if d + 1 ≤ tgt then some ⟨g, d + 1, idx (d + 1) a⟩
    else
      match getTab s g with
      | none => none
      | some t =>
        match t (idx (d + 1) a) with
        | .table c => if s.st c = .rtt then walkFrom s a tgt d c else none
        | _ => some ⟨g, d + 1, idx (d + 1) a⟩

/-- `s2tt_walk_lock_unlock`: s2tt.c:308-380, with the lock of the root taken by
its callers; `none` when one of the assertions 323-332, 340 or a lock fails. -/
def walk (s : State) (r : Rd) (a tgt : Nat) : Option Walk :=
  if tgt ≤ r.d0 ∧ a < r.ipaSize ∧ s.st r.root = .rtt ∧ (rootFor r a).1 < r.nroots ∧
      s.st (rootFor r a).2 = .rtt then
    walkFrom s a tgt r.d0 (rootFor r a).2
  else none

/-! ## Address validation: /repo/runtime/rmi/rtt.c:25-76 -/

/-- `3 - level`. -/
def dOf (lvl : Int) : Nat := (3 - lvl).toNat

/-- `validate_map_addr`: rtt.c:25-31. -/
def validateMapAddr (r : Rd) (a d : Nat) : Bool :=
  decide (a < r.ipaSize) && decide (a % sz d = 0) && decide (a < (if r.lpa2 then 2 ^ 52 else 2 ^ 48))

/-- `validate_rtt_structure_cmds`: rtt.c:37-47. -/
def validateStruct (r : Rd) (a : Nat) (lvl : Int) : Bool :=
  decide ((3 - r.d0 : Int) + 1 ≤ lvl) && decide (lvl ≤ 3) && validateMapAddr r a (dOf (lvl - 1))

/-- `validate_rtt_map_cmds`: rtt.c:53-61. -/
def validateMap (r : Rd) (a : Nat) (lvl : Int) : Bool :=
  decide (1 ≤ lvl) && decide (lvl ≤ 3) && validateMapAddr r a (dOf lvl)

/-- `validate_rtt_entry_cmds`: rtt.c:67-76. -/
def validateEntry (r : Rd) (a : Nat) (lvl : Int) : Bool :=
  decide ((3 - r.d0 : Int) ≤ lvl) && decide (lvl ≤ 3) && validateMapAddr r a (dOf lvl)

end Verif.Rmm
