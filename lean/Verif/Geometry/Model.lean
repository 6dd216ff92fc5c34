import Verif.Basic

/-!
# Stage-2 geometry: IPA width, starting level, number of root tables, table indices

Model of the arithmetic in /repo/runtime/rmi/realm.c:80-232 and
/repo/lib/s2tt/src/s2tt.c:183-226.  `unsigned long` values are natural numbers
(none of these expressions overflows 64 bits for the argument ranges the callers
establish: shifts are at most 52), levels are integers.
-/

namespace Verif.Geometry

/-- `(unsigned int)(S2TT_PAGE_LEVEL - sl)`: realm.c:82, 154, 192; s2tt.c:198, 223.
The callers have `sl <= 3`. -/
def levels (sl : Int) : Nat := (3 - sl).toNat

/-- Address bits below an entry at level `sl`: s2tt.c:199, realm.c:199-200. -/
def lsb (sl : Int) : Nat := levels sl * 9 + 12

/-- `s2_inconsistent_sl`: realm.c:80-108. -/
def inconsistentSl (ipaBits : Nat) (sl : Int) (lpa2 : Bool) : Bool :=
  let slMin := levels sl * 9 + 12 + 1
  let slMax := if sl = -1 ∧ lpa2 = true then slMin + (4 - 1) else slMin + (9 - 1)
  let slMax := if 0 < sl ∨ (sl = 0 ∧ lpa2 = true) then slMax + 4 else slMax
  decide (ipaBits < slMin) || decide (slMax < ipaBits)

/-- `validate_ipa_bits_and_sl`: realm.c:110-144.  `paWidth` is the result of
`arch_feat_get_pa_width()`. -/
def validateIpaBitsAndSl (paWidth ipaBits : Nat) (sl : Int) (lpa2 : Bool) : Bool :=
  if ipaBits < 32 ∨ (if lpa2 then 52 else 48) < ipaBits then false
  else if sl < (if lpa2 then -1 else 0) ∨ 3 < sl then false
  else if sl = 0 ∧ paWidth < 44 then false
  else !inconsistentSl ipaBits sl lpa2

/-- `s2_num_root_rtts`: realm.c:152-174. -/
def numRootRtts (ipaBits : Nat) (sl : Int) : Nat :=
  let slIpaBits := levels sl * 9 + 12 + 9
  if ipaBits ≤ slIpaBits then 1 else 1 <<< (ipaBits - slIpaBits)

/-- The two geometry checks of `validate_realm_params`: realm.c:292-300. -/
def geometryAccepted (paWidth ipaBits : Nat) (sl : Int) (lpa2 : Bool) (numStart : Nat) : Bool :=
  validateIpaBitsAndSl paWidth ipaBits sl lpa2 && decide (numRootRtts ipaBits sl = numStart)

/-- `s2_addr_to_idx`: s2tt.c:191-203. -/
def addrToIdx (addr : Nat) (level : Int) : Nat :=
  (addr >>> lsb level) &&& ((1 <<< (if level < 0 then 4 else 9)) - 1)

/-- `s2_sl_addr_to_idx`: s2tt.c:215-226. -/
def slAddrToIdx (addr : Nat) (startLevel : Int) (ipaBits : Nat) : Nat :=
  (addr &&& ((1 <<< ipaBits) - 1)) >>> lsb startLevel

/-- Selection of the concatenated root table: s2tt.c:335-342
(`sl_idx >= S2TTES_PER_S2TT ? sl_idx >> S2TTE_STRIDE : 0`). -/
def rootNum (addr : Nat) (startLevel : Int) (ipaBits : Nat) : Nat :=
  let slIdx := slAddrToIdx addr startLevel ipaBits
  if 512 ≤ slIdx then slIdx >>> 9 else 0

/-- Number of entries of a starting-level table: realm.c:189-191. -/
def perTable (sl : Int) : Nat := if sl = -1 then 16 else 512

/-- What `init_s2_starting_level` writes in one entry. -/
inductive RootInit where
  | untouched
  | empty
  | ns
  deriving DecidableEq, Repr

/-- Inner loop of `init_s2_starting_level` over the entries of one root table:
realm.c:209-224.  `fuel` is the number of entries left in this table.  The result
is the table contents, the next `current_ipa` and whether the function returned. -/
def initTable (par ipaSize size : Nat) :
    Nat → Nat → Nat → (Nat → RootInit) → (Nat → RootInit) × Nat × Bool
  | 0, _, cur, t => (t, cur, false)
  | fuel + 1, rtte, cur, t =>
    let t' := fun i => if i = rtte then (if cur < par then .empty else .ns) else t i
    if cur + size = ipaSize then (t', cur + size, true)
    else initTable par ipaSize size fuel (rtte + 1) (cur + size) t'

/-- Outer loop of `init_s2_starting_level` over the root tables: realm.c:203-231.
`none` is the final `assert(false)`. -/
def initTables (par ipaSize size per : Nat) :
    Nat → Nat → Nat → (Nat → Nat → RootInit) → Option (Nat → Nat → RootInit)
  | 0, _, _, _ => none
  | fuel + 1, rtt, cur, ts =>
    let r := initTable par ipaSize size per 0 cur (ts rtt)
    let ts' := fun j => if j = rtt then r.1 else ts j
    if r.2.2 then some ts' else initTables par ipaSize size per fuel (rtt + 1) r.2.1 ts'

/-- `init_s2_starting_level`: realm.c:184-232.  Tables start zeroed (`untouched`);
the protected part of the IPA space is its lower half
(/repo/runtime/include/realm.h:127-135, 206-209). -/
def initStartingLevel (ipaBits : Nat) (sl : Int) (numRoots : Nat) :
    Option (Nat → Nat → RootInit) :=
  initTables (2 ^ ipaBits / 2) (2 ^ ipaBits) (2 ^ lsb sl) (perTable sl) numRoots 0 0
    (fun _ _ => .untouched)

end Verif.Geometry
