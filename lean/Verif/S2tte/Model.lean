import Verif.Basic

/-!
# Stage-2 translation table entries, bit for bit

Model of the descriptor helpers in /repo/lib/s2tt/src/s2tt.c.  An `unsigned long`
is a `BitVec 64`, a `long level` is an `Int`.  A C `assert` that fails is the
outcome `none`.  The context argument is reduced to the one field the helpers
read, `enable_lpa2`.
-/

namespace Verif.S2tte

abbrev W := BitVec 64

/-! ## Constants: /repo/lib/s2tt/src/s2tt_pvt_defs.h:42-141 -/

/-- `S2TTE_INVALID_HIPAS_MASK`: s2tt_pvt_defs.h:42-44. -/
def HIPAS_MASK : W := 0x1c
/-- `S2TTE_INVALID_HIPAS_UNASSIGNED`: s2tt_pvt_defs.h:46. -/
def HIPAS_UNASSIGNED : W := 0
/-- `S2TTE_INVALID_HIPAS_ASSIGNED`: s2tt_pvt_defs.h:47. -/
def HIPAS_ASSIGNED : W := 0x4
/-- `S2TTE_INVALID_RIPAS_MASK`: s2tt_pvt_defs.h:49-51. -/
def RIPAS_MASK : W := 0x60
/-- `S2TTE_INVALID_RIPAS_EMPTY`: s2tt_pvt_defs.h:53. -/
def RIPAS_EMPTY : W := 0
/-- `S2TTE_INVALID_RIPAS_RAM`: s2tt_pvt_defs.h:54. -/
def RIPAS_RAM : W := 0x20
/-- `S2TTE_INVALID_RIPAS_DESTROYED`: s2tt_pvt_defs.h:55. -/
def RIPAS_DESTROYED : W := 0x40
/-- `S2TTE_NS`: s2tt_pvt_defs.h:57. -/
def NS : W := 0x80000000000000
/-- `S2TTE_AF`: s2tt_pvt_defs.h:58. -/
def AF : W := 0x400
/-- `S2TTE_XN`: s2tt_pvt_defs.h:59. -/
def XN : W := 0x40000000000000
/-- `S2TT_DESC_TYPE_MASK`: s2tt_pvt_defs.h:64. -/
def DESC_TYPE_MASK : W := 3
/-- `S2TTE_L012_BLOCK`: s2tt_pvt_defs.h:66. -/
def L012_BLOCK : W := 1
/-- `S2TTE_L012_TABLE`: s2tt_pvt_defs.h:67. -/
def L012_TABLE : W := 3
/-- `S2TTE_L3_PAGE`: s2tt_pvt_defs.h:68. -/
def L3_PAGE : W := 3
/-- `MASK(LPA2_OA_51_50)`: s2tt_pvt_defs.h:84-85. -/
def LPA2_OA_51_50 : W := 0xc000000000000
/-- `MASK(LPA2_OA_49_48)`: s2tt_pvt_defs.h:87-88. -/
def LPA2_OA_49_48 : W := 0x3000000000000
/-- `MASK(LPA2_S2TTE_51_50)`: s2tt_pvt_defs.h:91-92. -/
def LPA2_TTE_51_50 : W := 0x300
/-- `S2TTE_MEMATTR_MASK`: s2tt_pvt_defs.h:99. -/
def MEMATTR_MASK : W := 0x1c
/-- `S2TTE_MEMATTR_FWB_NORMAL_WB`: s2tt_pvt_defs.h:100. -/
def MEMATTR_FWB_NORMAL_WB : W := 0x18
/-- `S2TTE_MEMATTR_FWB_RESERVED`: s2tt_pvt_defs.h:101. -/
def MEMATTR_FWB_RESERVED : W := 0x10
/-- `S2TTE_AP_MASK`, `S2TTE_AP_RW`: s2tt_pvt_defs.h:104-105. -/
def AP_RW : W := 0xc0
/-- `S2TTE_SH_IS`: s2tt_pvt_defs.h:112. -/
def SH_IS : W := 0x300
/-- `S2TTE_ATTRS_LPA2`: s2tt_pvt_defs.h:118. -/
def ATTRS_LPA2 : W := MEMATTR_FWB_NORMAL_WB ||| AP_RW ||| AF
/-- `S2TTE_ATTRS`: s2tt_pvt_defs.h:121. -/
def ATTRS : W := ATTRS_LPA2 ||| SH_IS
/-- `S2TTE_NS_ATTR_MASK`: s2tt_pvt_defs.h:125. -/
def NS_ATTR_MASK : W := MEMATTR_MASK ||| AP_RW
/-- `S2TTE_NS_ATTR_RMM`: s2tt_pvt_defs.h:131. -/
def NS_ATTR_RMM : W := AF ||| NS ||| XN

/-! ## Address fields -/

/-- `BIT_MASK_ULL(msb, lsb)`: /repo/lib/common/include/utils_def.h:219-220. -/
def bitMask (msb lsb : Nat) : W :=
  (BitVec.allOnes 64 >>> (63 - msb)) &&& (BitVec.allOnes 64 <<< lsb)

/-- Lowest address bit resolved below `level`: s2tt.c:27-28, 198-199, 1066-1067. -/
def lsbOf (level : Int) : Nat := (3 - level).toNat * 9 + 12

/-- `s2tte_lvl_mask`: s2tt.c:21-37 (without its two range asserts, which the
callers below carry). -/
def lvlMask (level : Int) (lpa2 : Bool) : W :=
  if lpa2 then bitMask 47 (lsbOf level) ||| (LPA2_TTE_51_50 ||| LPA2_OA_49_48)
  else bitMask 47 (lsbOf level)

/-- `s2tte_to_pa`: s2tt.c:42-52. -/
def toPa (s2tte : W) (level : Int) (lpa2 : Bool) : W :=
  let pa := s2tte &&& lvlMask level lpa2
  if lpa2 then
    (pa &&& ~~~LPA2_TTE_51_50) ||| (((s2tte &&& LPA2_TTE_51_50) >>> 8) <<< 50)
  else pa

/-- `pa_to_s2tte`: s2tt.c:137-147. -/
def paToS2tte (pa : W) (lpa2 : Bool) : W :=
  if lpa2 then
    (pa &&& ~~~LPA2_OA_51_50) ||| (((pa &&& LPA2_OA_51_50) >>> 50) <<< 8)
  else pa

/-- Lowest legal level: s2tt.h:49-50, s2tt.c:607-608, 1041-1042, 1064-1065. -/
def minLevel (lpa2 : Bool) : Int := if lpa2 then -1 else 0

/-- Bit mask tested by `s2tte_is_addr_lvl_aligned`: s2tt.c:1066-1074. -/
def alignMask (level : Int) (lpa2 : Bool) : W :=
  bitMask ((if lpa2 then 52 else 48) - 1) (lsbOf level)

/-- `s2tte_is_addr_lvl_aligned`: s2tt.c:1058-1075. -/
def isAddrLvlAligned (lpa2 : Bool) (addr : W) (level : Int) : Option Bool :=
  if level ≤ 3 ∧ minLevel lpa2 ≤ level then
    some (addr == (addr &&& alignMask level lpa2))
  else none

/-! ## Constructors -/

/-- `s2tte_create_unassigned_empty`: s2tt.c:385-390. -/
def createUnassignedEmpty : W := HIPAS_UNASSIGNED ||| RIPAS_EMPTY
/-- `s2tte_create_unassigned_ram`: s2tt.c:395-400. -/
def createUnassignedRam : W := HIPAS_UNASSIGNED ||| RIPAS_RAM
/-- `s2tte_create_unassigned_destroyed`: s2tt.c:405-410. -/
def createUnassignedDestroyed : W := HIPAS_UNASSIGNED ||| RIPAS_DESTROYED
/-- `s2tte_create_unassigned_ns`: s2tt.c:415-420. -/
def createUnassignedNs : W := NS ||| HIPAS_UNASSIGNED

/-- `s2tte_create_assigned`: s2tt.c:426-456. -/
def createAssigned (lpa2 : Bool) (pa : W) (level : Int) (ripas : W) : Option W :=
  if 1 ≤ level ∧ level ≤ 3 ∧
      (ripas &&& RIPAS_MASK) >>> 5 ≤ (RIPAS_DESTROYED &&& RIPAS_MASK) >>> 5 ∧
      isAddrLvlAligned lpa2 pa level = some true then
    let tte := paToS2tte pa lpa2
    let page := (if lpa2 then ATTRS_LPA2 else ATTRS) ||| L3_PAGE
    let block := (if lpa2 then ATTRS_LPA2 else ATTRS) ||| L012_BLOCK
    if ripas = RIPAS_RAM then
      if level = 3 then some (tte ||| page) else some (tte ||| block)
    else some (tte ||| HIPAS_ASSIGNED ||| ripas)
  else none

/-- `s2tte_create_assigned_destroyed`: s2tt.c:462-467. -/
def createAssignedDestroyed (lpa2 : Bool) (pa : W) (level : Int) : Option W :=
  createAssigned lpa2 pa level RIPAS_DESTROYED
/-- `s2tte_create_assigned_empty`: s2tt.c:473-478. -/
def createAssignedEmpty (lpa2 : Bool) (pa : W) (level : Int) : Option W :=
  createAssigned lpa2 pa level RIPAS_EMPTY
/-- `s2tte_create_assigned_ram`: s2tt.c:483-488. -/
def createAssignedRam (lpa2 : Bool) (pa : W) (level : Int) : Option W :=
  createAssigned lpa2 pa level RIPAS_RAM
/-- `s2tte_create_assigned_unchanged`: s2tt.c:494-502. -/
def createAssignedUnchanged (lpa2 : Bool) (s2tte pa : W) (level : Int) : Option W :=
  createAssigned lpa2 pa level (s2tte &&& RIPAS_MASK)

/-- `s2tte_create_assigned_ns`: s2tt.c:512-536. -/
def createAssignedNs (lpa2 : Bool) (s2tte : W) (level : Int) : Option W :=
  if 1 ≤ level ∧ level ≤ 3 then
    let new := s2tte &&& ~~~DESC_TYPE_MASK
    let new := if lpa2 then new else new ||| SH_IS
    if level = 3 then some (new ||| (NS_ATTR_RMM ||| L3_PAGE))
    else some (new ||| (NS_ATTR_RMM ||| L012_BLOCK))
  else none

/-- `host_ns_s2tte_is_valid`: s2tt.c:541-576. -/
def hostNsIsValid (lpa2 : Bool) (s2tte : W) (level : Int) : Option Bool :=
  if 1 ≤ level ∧ level ≤ 3 then
    let mask := lvlMask level lpa2 ||| NS_ATTR_MASK
    some (decide (s2tte &&& ~~~mask = 0) &&
          decide (s2tte &&& MEMATTR_MASK ≠ MEMATTR_FWB_RESERVED))
  else none

/-- `host_ns_s2tte`: s2tt.c:581-592. -/
def hostNs (lpa2 : Bool) (s2tte : W) (level : Int) : Option W :=
  if 1 ≤ level ∧ level ≤ 3 then
    some (s2tte &&& (lvlMask level lpa2 ||| NS_ATTR_MASK))
  else none

/-- `s2tte_create_table`: s2tt.c:597-615. -/
def createTable (lpa2 : Bool) (pa : W) (level : Int) : Option W :=
  if level < 3 ∧ minLevel lpa2 ≤ level ∧ pa &&& 0xfff = 0 then
    some (paToS2tte pa lpa2 ||| L012_TABLE)
  else none

/-! ## Predicates -/

/-- `s2tte_is_table`: s2tt.c:790-797. -/
def isTable (s : W) (level : Int) : Bool :=
  decide (level < 3) && decide (s &&& DESC_TYPE_MASK = L012_TABLE)

/-- `s2tte_has_ripas`: s2tt.c:626-631. -/
def hasRipas (s : W) (level : Int) : Bool :=
  decide (s &&& NS = 0) && !isTable s level

/-- `s2tte_has_hipas`: s2tt.c:636-642. -/
def hasHipas (s hipas : W) : Bool :=
  decide (s &&& DESC_TYPE_MASK = 0) && decide (s &&& HIPAS_MASK = hipas)

/-- `s2tte_has_unassigned_ripas`: s2tt.c:647-652. -/
def hasUnassignedRipas (s ripas : W) : Bool :=
  decide (s &&& RIPAS_MASK = ripas) && hasHipas s HIPAS_UNASSIGNED

/-- `s2tte_has_assigned_ripas`: s2tt.c:657-662. -/
def hasAssignedRipas (s ripas : W) : Bool :=
  decide (s &&& RIPAS_MASK = ripas) && hasHipas s HIPAS_ASSIGNED

/-- `s2tte_is_unassigned`: s2tt.c:667-672. -/
def isUnassigned (s : W) : Bool := hasHipas s HIPAS_UNASSIGNED
/-- `s2tte_is_unassigned_empty`: s2tt.c:677-684. -/
def isUnassignedEmpty (s : W) : Bool :=
  decide (s &&& NS = 0) && hasUnassignedRipas s RIPAS_EMPTY
/-- `s2tte_is_unassigned_ram`: s2tt.c:689-695. -/
def isUnassignedRam (s : W) : Bool := hasUnassignedRipas s RIPAS_RAM
/-- `s2tte_is_unassigned_ns`: s2tt.c:700-707. -/
def isUnassignedNs (s : W) : Bool :=
  decide (s &&& NS ≠ 0) && hasHipas s HIPAS_UNASSIGNED
/-- `s2tte_is_unassigned_destroyed`: s2tt.c:712-718. -/
def isUnassignedDestroyed (s : W) : Bool := hasUnassignedRipas s RIPAS_DESTROYED
/-- `s2tte_is_assigned_destroyed`: s2tt.c:723-730. -/
def isAssignedDestroyed (s : W) (_level : Int) : Bool := hasAssignedRipas s RIPAS_DESTROYED
/-- `s2tte_is_assigned_empty`: s2tt.c:735-742. -/
def isAssignedEmpty (s : W) (_level : Int) : Bool := hasAssignedRipas s RIPAS_EMPTY

/-- `s2tte_check`: s2tt.c:744-767. -/
def check (s : W) (level : Int) (ns : W) : Bool :=
  if s &&& NS ≠ ns then false
  else if level = 3 then decide (s &&& DESC_TYPE_MASK = L3_PAGE)
  else decide (1 ≤ level) && decide (s &&& DESC_TYPE_MASK = L012_BLOCK)

/-- `s2tte_is_assigned_ram`: s2tt.c:772-776. -/
def isAssignedRam (s : W) (level : Int) : Bool := check s level 0
/-- `s2tte_is_assigned_ns`: s2tt.c:781-785. -/
def isAssignedNs (s : W) (level : Int) : Bool := check s level NS

/-- `s2tte_has_pa`: s2tt.c:123-131. -/
def hasPa (s : W) (level : Int) : Bool :=
  decide (s &&& DESC_TYPE_MASK ≠ 0) || isAssignedEmpty s level || isAssignedDestroyed s level

/-- `s2tte_is_live`: s2tt.c:1024-1028. -/
def isLive (s : W) (level : Int) : Bool := hasPa s level

/-- `s2tte_get_ripas`: s2tt.c:805-829.  The result is the C enum value. -/
def getRipas (s : W) : Option W :=
  if s &&& DESC_TYPE_MASK ≠ 0 then
    if s &&& DESC_TYPE_MASK = L012_BLOCK ∨ s &&& DESC_TYPE_MASK = L3_PAGE then some 1
    else none
  else if (s &&& HIPAS_MASK) >>> 2 ≤ 1 ∧ (s &&& RIPAS_MASK) >>> 5 ≤ 2 then
    some ((s &&& RIPAS_MASK) >>> 5)
  else none

/-- `s2tte_pa`: s2tt.c:1031-1056. -/
def s2ttePa (lpa2 : Bool) (s : W) (level : Int) : Option W :=
  if minLevel lpa2 ≤ level ∧ level ≤ 3 ∧ hasPa s level = true then
    some (if isTable s level then toPa s 3 lpa2 else toPa s level lpa2)
  else none

/-- `s2tte_map_size`: s2tt.h:92-94. -/
def mapSize (level : Int) : Nat := 2 ^ lsbOf level

end Verif.S2tte
