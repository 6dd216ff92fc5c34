import Verif.Leaf.Features

/-!
# How the hardware starts a stage-2 walk

What the architecture (Arm ARM, DDI0487, pseudocode `AArch64.S2StartLevel`, `AArch64.S2TTBaseAddress`,
`AArch64.S2SLTTEntryAddress` and the descriptions of VTCR_EL2 and VTTBR_EL2) does with the two registers when the
granule size is 4KB.  Written without reference to the model of the RMM.
-/

namespace Verif.Vtcr.Spec

open Features (W field)

/-- A register value the walk below is defined for: 4KB granules (TG0), inner and outer write-back cacheable,
inner shareable walks, stage 2 accesses of non-secure IPAs in the non-secure space (NSA), hardware management of
access and dirty flags off (HA, HD), no permission indirection etc. -/
structure Sane (vtcr : W) : Prop where
  tg0 : field 14 2 vtcr = 0
  irgn0 : field 8 2 vtcr = 1
  orgn0 : field 10 2 vtcr = 1
  sh0 : field 12 2 vtcr = 3
  hahd : field 21 2 vtcr = 0
  nsw : field 29 1 vtcr = 0
  nsa : field 30 1 vtcr = 1
  res1 : field 31 1 vtcr = 1
  rest : vtcr.toNat < 2 ^ 34

instance (v : W) : Decidable (Sane v) :=
  decidable_of_iff (field 14 2 v = 0 ∧ field 8 2 v = 1 ∧ field 10 2 v = 1 ∧ field 12 2 v = 3 ∧ field 21 2 v = 0 ∧
    field 29 1 v = 0 ∧ field 30 1 v = 1 ∧ field 31 1 v = 1 ∧ v.toNat < 2 ^ 34)
    ⟨fun ⟨a, b, c, d, e, f, g, h, i⟩ => ⟨a, b, c, d, e, f, g, h, i⟩,
     fun ⟨a, b, c, d, e, f, g, h, i⟩ => ⟨a, b, c, d, e, f, g, h, i⟩⟩

/-- 52-bit addresses in descriptors and the base address: VTCR_EL2.DS. -/
def ds (vtcr : W) : Bool := field 32 1 vtcr == 1

/-- Input address size: 64 - T0SZ. -/
def iaSize (vtcr : W) : Nat := 64 - field 0 6 vtcr

/-- Starting level, from SL2:SL0 (SL2 counts only with DS). -/
def startLevel (vtcr : W) : Option Int :=
  if ds vtcr ∧ field 33 1 vtcr = 1 then (if field 6 2 vtcr = 0 then some (-1) else none)
  else match field 6 2 vtcr with
    | 0 => some 2
    | 1 => some 1
    | 2 => some 0
    | _ => some 3

/-- Output address size, from PS. -/
def oaSize (vtcr : W) : Nat :=
  match field 16 3 vtcr with
  | 0 => 32
  | 1 => 36
  | 2 => 40
  | 3 => 42
  | 4 => 44
  | 5 => 48
  | _ => if ds vtcr then 52 else 48

/-- Number of IPA bits below an entry at level `l`. -/
def lowBits (l : Int) : Nat := (3 - l).toNat * 9 + 12

/-- log2 of the size in bytes of the (concatenated) tables at the starting level `l`. -/
def tableBits (vtcr : W) (l : Int) : Nat := iaSize vtcr - lowBits l + 3

/-- The base address the hardware uses: the field of VTTBR_EL2, rounded down to the size of the tables. -/
def base (vtcr vttbr : W) (l : Int) : Nat :=
  if ds vtcr ∧ oaSize vtcr = 52 then
    let n := 2 ^ max (tableBits vtcr l) 6
    (field 2 4 vttbr * 2 ^ 48 + field 6 42 vttbr * 2 ^ 6) / n * n
  else
    let n := 2 ^ tableBits vtcr l
    (field 1 47 vttbr * 2) / n * n

/-- Physical address of the first descriptor the hardware reads to translate `ipa`. -/
def firstDesc (vtcr vttbr : W) (ipa : Nat) : Option Nat :=
  match startLevel vtcr with
  | none => none
  | some l =>
    if ipa < 2 ^ iaSize vtcr then some (base vtcr vttbr l ||| (ipa / 2 ^ lowBits l * 8)) else none

/-- The VMID that tags the translations: 16 or 8 bits, by VTCR_EL2.VS. -/
def vmid (vtcr vttbr : W) : Nat :=
  if field 19 1 vtcr = 1 then field 48 16 vttbr else field 48 8 vttbr

end Verif.Vtcr.Spec
