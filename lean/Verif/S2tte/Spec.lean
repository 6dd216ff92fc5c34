import Verif.Basic

/-!
# Specification of stage-2 entries

Written without reference to the model of the C code: what an entry is meant to
be, which entries are legal at a level, and how the Arm architecture
(VMSAv8-64, stage 2, 4KB granule) interprets a 64-bit descriptor.
-/

namespace Verif.S2tte.Spec

/-- The kinds of stage-2 entry of the table in
/repo/lib/s2tt/src/s2tt_pvt_defs.h:9-40, with their payload. -/
inductive Entry where
  /-- no backing memory, protected half, with a RIPAS -/
  | unassigned (r : Ripas)
  /-- no mapping, unprotected half -/
  | unassignedNs
  /-- backed by the data granule(s) at `pa`, with a RIPAS -/
  | assigned (r : Ripas) (pa : BitVec 64)
  /-- unprotected mapping with the host-controlled bits `h` -/
  | assignedNs (h : BitVec 64)
  /-- next-level table at `pa` -/
  | table (pa : BitVec 64)
  deriving DecidableEq, Repr

/-- Number of physical address bits a descriptor can carry. -/
def paBits (lpa2 : Bool) : Nat := if lpa2 then 52 else 48

/-- Number of low address bits not resolved at `level`. -/
def offBits (level : Int) : Nat := 12 + 9 * (3 - level).toNat

/-- A physical address usable as output address at `level`. -/
def PaOk (lpa2 : Bool) (level : Int) (pa : BitVec 64) : Prop :=
  pa.toNat % 2 ^ offBits level = 0 ∧ pa.toNat < 2 ^ paBits lpa2

/-- Bit `i` of a host-supplied unprotected descriptor may be set: MemAttr[4:2],
S2AP[7:6], output address bits. -/
def hostBit (lpa2 : Bool) (level : Int) (i : Nat) : Prop :=
  (2 ≤ i ∧ i ≤ 4) ∨ (6 ≤ i ∧ i ≤ 7) ∨ (offBits level ≤ i ∧ i < 48) ∨
    (lpa2 = true ∧ ((8 ≤ i ∧ i ≤ 9) ∨ (48 ≤ i ∧ i ≤ 49)))

/-- A well-formed host descriptor: only host-controlled bits, and not the
reserved memory attribute (MemAttr = 0b100). -/
def HostOk (lpa2 : Bool) (level : Int) (h : BitVec 64) : Prop :=
  (∀ i, h.getLsbD i = true → hostBit lpa2 level i) ∧
  ¬ (h.getLsbD 2 = false ∧ h.getLsbD 3 = false ∧ h.getLsbD 4 = true)

/-- Which entries are legal at a level. -/
def Entry.Ok (lpa2 : Bool) (level : Int) : Entry → Prop
  | .unassigned _ => True
  | .unassignedNs => True
  | .assigned _ pa => 1 ≤ level ∧ level ≤ 3 ∧ PaOk lpa2 level pa
  | .assignedNs h => 1 ≤ level ∧ level ≤ 3 ∧ HostOk lpa2 level h
  | .table pa => (if lpa2 then -1 else 0) ≤ level ∧ level < 3 ∧ PaOk lpa2 3 pa

/-- Bit `i` of the output address the MMU takes from descriptor `w` when the low
`lsb` address bits are not part of the descriptor (Arm ARM D8.3: bits [47:lsb] in
place; with 52-bit descriptors also [49:48] in place and [51:50] from bits [9:8]). -/
def hwOaBit (lpa2 : Bool) (lsb : Nat) (w : BitVec 64) (i : Nat) : Bool :=
  if lsb ≤ i ∧ i ≤ 47 then w.getLsbD i
  else if lpa2 = true ∧ (i = 48 ∨ i = 49) then w.getLsbD i
  else if lpa2 = true ∧ (i = 50 ∨ i = 51) then w.getLsbD (i - 42)
  else false

/-- The MMU takes the descriptor as invalid: any access faults. -/
def HwInvalid (w : BitVec 64) : Prop := w.getLsbD 0 = false

/-- The MMU takes the descriptor as a pointer to the next-level table at `pa`. -/
def HwTable (lpa2 : Bool) (level : Int) (w pa : BitVec 64) : Prop :=
  level < 3 ∧ w.getLsbD 0 = true ∧ w.getLsbD 1 = true ∧
  ∀ i, pa.getLsbD i = hwOaBit lpa2 12 w i

/-- The MMU takes the descriptor as a mapping to `pa` in address space `ns`
(bit 55: Non-secure), with access flag set and given S2AP, MemAttr, XN[1]. -/
def HwLeaf (lpa2 : Bool) (level : Int) (w pa : BitVec 64) (ns : Bool) : Prop :=
  w.getLsbD 0 = true ∧
  (level = 3 ∧ w.getLsbD 1 = true ∨ level < 3 ∧ w.getLsbD 1 = false) ∧
  w.getLsbD 55 = ns ∧ w.getLsbD 10 = true ∧
  ∀ i, pa.getLsbD i = hwOaBit lpa2 (offBits level) w i

/-- The bits of a descriptor that hold no output address at any level. -/
def attrPos (lpa2 : Bool) (i : Nat) : Prop := (i < 12 ∧ (lpa2 = true → i ≠ 8 ∧ i ≠ 9)) ∨ (if lpa2 then 50 else 48) ≤ i

/-- Attributes of a mapping of Realm memory: valid, block or page, MemAttr 0b110 (Normal, write-back), S2AP 0b11 (read and
write), inner shareable where the descriptor has shareability, access flag, and nothing else: executable, not
Non-secure. -/
def ramAttr (lpa2 : Bool) (level : Int) (i : Nat) : Bool :=
  i == 0 || (i == 1 && level == 3) || i == 3 || i == 4 || i == 6 || i == 7 || (!lpa2 && (i == 8 || i == 9)) || i == 10

/-- Attributes of a mapping of Non-secure memory: MemAttr and S2AP are the host's; it is never executable (XN[1], bit 54)
and in the Non-secure address space (bit 55). -/
def nsAttr (lpa2 : Bool) (level : Int) (h : BitVec 64) (i : Nat) : Bool :=
  i == 0 || (i == 1 && level == 3) || (((2 ≤ i && i ≤ 4) || i == 6 || i == 7) && h.getLsbD i) ||
    (!lpa2 && (i == 8 || i == 9)) || i == 10 || i == 54 || i == 55

/-- The output address bits named by a host descriptor. -/
def hostPaBit (lpa2 : Bool) (level : Int) (h : BitVec 64) (i : Nat) : Bool :=
  hwOaBit lpa2 (offBits level) h i

end Verif.S2tte.Spec
