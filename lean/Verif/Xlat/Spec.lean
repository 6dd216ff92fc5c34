import Verif.Xlat.Build

/-
What the processor does with the tables, written from the architecture and
without reference to the code, and the descriptors read with its eyes.
-/
namespace Verif.Xlat

namespace Spec

/-- Attributes of a page or block in the EL2&0 regime, as the Arm
architecture places them in a stage 1 descriptor. -/
structure Attrs where
  nonSecure : Bool
  unprivAccess : Bool
  readOnly : Bool
  accessed : Bool
  notGlobal : Bool
  guarded : Bool
  privNoExec : Bool
  unprivNoExec : Bool
  memIndex : Nat
deriving Repr, DecidableEq

/-- NS is bit 5, AP[1] bit 6, AP[2] bit 7, AF bit 10, nG bit 11, GP bit 50,
PXN bit 53, UXN bit 54 and AttrIndx bits 4:2. -/
def decode (e : BitVec 64) : Attrs where
  nonSecure := e.getLsbD 5
  unprivAccess := e.getLsbD 6
  readOnly := e.getLsbD 7
  accessed := e.getLsbD 10
  notGlobal := e.getLsbD 11
  guarded := e.getLsbD 50
  privNoExec := e.getLsbD 53
  unprivNoExec := e.getLsbD 54
  memIndex := (e.getLsbD 2).toNat + 2 * (e.getLsbD 3).toNat + 4 * (e.getLsbD 4).toNat

/-- The output address field of a descriptor: bits 47:12, or with FEAT_LPA2
bits 49:12 and, as address bits 51:50, bits 9:8. -/
def outAddr (lpa2 : Bool) (e : BitVec 64) : Nat :=
  if lpa2 then e.toNat / 2 ^ 12 % 2 ^ 38 * 2 ^ 12 + e.toNat / 2 ^ 8 % 4 * 2 ^ 50
  else e.toNat / 2 ^ 12 % 2 ^ 36 * 2 ^ 12

/-- The part of a translation table walk below the first lookup: `d` further
levels may follow, `table` is the address of the table and `i` the index.
Memory is read in 8-byte words. -/
def walk (lpa2 : Bool) (m : Nat → BitVec 64) (va : Nat) :
    (d table i : Nat) → Option (Nat × Attrs)
  | 0, table, i =>
    let e := m (table + 8 * i)
    if e.toNat % 4 = 3 then some (outAddr lpa2 e + va % 2 ^ 12, decode e) else none
  | d + 1, table, i =>
    let e := m (table + 8 * i)
    if e.toNat % 4 = 3 then
      walk lpa2 m va d (outAddr lpa2 e) (va / 2 ^ (12 + 9 * d) % 512)
    else if e.toNat % 4 = 1 ∧ d + 1 ≤ (if lpa2 then 3 else 2) then
      some (outAddr lpa2 e / 2 ^ (12 + 9 * (d + 1)) * 2 ^ (12 + 9 * (d + 1))
        + va % 2 ^ (12 + 9 * (d + 1)), decode e)
    else none

/-- Stage 1 translation of a virtual address through TTBR0 (`high = false`) or
TTBR1 (`high = true`), 4 KB granule: the input address has `64 - TxSZ` bits,
all bits above must be zero (one for TTBR1), and the first lookup is at the
level that leaves at most 9 bits (4 bits at level -1) for it.  `none` is a
translation fault. -/
def translate (lpa2 high : Bool) (txsz ttbr : Nat) (m : Nat → BitVec 64) (va : Nat) :
    Option (Nat × Attrs) :=
  let k := 64 - txsz
  if (if high then 2 ^ 64 - 2 ^ k ≤ va else va < 2 ^ k) then
    let d := (k - 13) / 9
    walk lpa2 m va d ttbr (va % 2 ^ k / 2 ^ (12 + 9 * d))
  else none

/-- The attributes a region asks for (meaning of the `MT_*` flags, as
documented in xlat_tables.h:131-173). -/
def wanted (attr : BitVec 64) : Attrs :=
  let device := decide (attr.toNat % 16 = 0)
  let rw := attr.getLsbD 4
  let xn := attr.getLsbD 5
  { nonSecure := attr.getLsbD 8
    unprivAccess := attr.getLsbD 9
    readOnly := !rw
    accessed := true
    notGlobal := attr.getLsbD 7
    guarded := !(device || rw || xn)
    privNoExec := device || rw || xn
    unprivNoExec := !attr.getLsbD 10
    memIndex := if device then 1 else 0 }

/-- The region contains the virtual address. -/
def Contains (r : Region) (va : Nat) : Prop := r.baseVa ≤ va ∧ va < r.baseVa + r.size

/-- The region reserves addresses without mapping them. -/
def Transient (r : Region) : Prop := r.attr.toNat % 16 = 3

/-- The memory types the library supports: device, normal, transient. -/
def Supported (r : Region) : Prop :=
  r.attr.toNat % 16 = 0 ∨ r.attr.toNat % 16 = 2 ∨ r.attr.toNat % 16 = 3

end Spec

/-! ### Descriptors -/

theorem mtType_eq (attr : BitVec 64) (n : Nat) (hn : n < 16) :
    mtType attr = BitVec.ofNat 64 n ↔ attr.toNat % 16 = n := by
  have h : (mtType attr).toNat = attr.toNat % 16 := by
    unfold mtType
    rw [BitVec.toNat_and]
    exact Nat.and_two_pow_sub_one_eq_mod attr.toNat 4
  constructor
  · intro h'
    rw [← h, h', BitVec.toNat_ofNat]
    exact Nat.mod_eq_of_lt (by omega)
  · intro h'
    apply BitVec.eq_of_toNat_eq
    rw [h, h', BitVec.toNat_ofNat]
    exact (Nat.mod_eq_of_lt (by omega)).symm

theorem flag_zero (attr : BitVec 64) (k : Nat) (hk : k < 64) :
    attr &&& BitVec.ofNat 64 (2 ^ k) = 0#64 ↔ attr.getLsbD k = false := by
  have bit : ∀ i, i < 64 → (BitVec.ofNat 64 (2 ^ k)).getLsbD i = decide (k = i) := by
    intro i hi
    rw [BitVec.getLsbD_ofNat, Nat.testBit_two_pow]
    simp [hi]
  constructor
  · intro h
    have := congrArg (fun x => x.getLsbD k) h
    simp only [BitVec.getLsbD_and, bit k hk, BitVec.getLsbD_zero] at this
    simpa using this
  · intro h
    apply BitVec.eq_of_getLsbD_eq
    intro i hi
    rw [BitVec.getLsbD_and, bit i hi, BitVec.getLsbD_zero]
    by_cases he : k = i
    · subst he; rw [h]; rfl
    · simp [he]

theorem getOa_toNat (l : Bool) (e : BitVec 64) : (getOa l e).toNat = Spec.outAddr l e := by
  have key : ∀ a b : Nat, (∀ i, a.testBit i = b.testBit i) → a = b := fun _ _ => Nat.eq_of_testBit_eq
  cases l
  · apply key
    intro i
    simp only [getOa, Spec.outAddr, Bool.false_eq_true, if_false]
    rw [← BitVec.getLsbD, BitVec.getLsbD_and, bit_mask48, Nat.mul_comm, Nat.testBit_two_pow_mul,
      Nat.testBit_mod_two_pow, ← Nat.shiftRight_eq_div_pow, Nat.testBit_shiftRight]
    by_cases h1 : 12 ≤ i
    · by_cases h2 : i < 48
      · simp [h1, h2, show i - 12 < 36 by omega, show 12 + (i - 12) = i by omega, BitVec.testBit_toNat]
      · simp [h2, show ¬ (i - 12 < 36) by omega]
    · simp [h1]
  · have hd : e.toNat / 2 ^ 12 % 2 ^ 38 * 2 ^ 12 + e.toNat / 2 ^ 8 % 4 * 2 ^ 50 =
        e.toNat / 2 ^ 8 % 4 * 2 ^ 50 ||| e.toNat / 2 ^ 12 % 2 ^ 38 * 2 ^ 12 := by
      rw [Nat.add_comm, Nat.mul_comm _ (2 ^ 50), Nat.two_pow_add_eq_or_of_lt]
      have : e.toNat / 2 ^ 12 % 2 ^ 38 < 2 ^ 38 := Nat.mod_lt _ (by decide)
      omega
    apply key
    intro i
    simp only [getOa, Spec.outAddr, if_true]
    rw [hd, ← BitVec.getLsbD, BitVec.getLsbD_or, BitVec.getLsbD_and, bit_mask50,
      BitVec.getLsbD_shiftLeft, BitVec.getLsbD_and, bit_three, BitVec.getLsbD_ushiftRight,
      Nat.testBit_or, Nat.mul_comm _ (2 ^ 50), Nat.mul_comm _ (2 ^ 12), Nat.testBit_two_pow_mul,
      Nat.testBit_two_pow_mul, show (4 : Nat) = 2 ^ 2 from rfl,
      Nat.testBit_mod_two_pow, Nat.testBit_mod_two_pow, ← Nat.shiftRight_eq_div_pow,
      ← Nat.shiftRight_eq_div_pow, Nat.testBit_shiftRight, Nat.testBit_shiftRight]
    by_cases h1 : 12 ≤ i
    · by_cases h2 : i < 50
      · simp [h1, h2, show i - 12 < 38 by omega, show 12 + (i - 12) = i by omega,
          show ¬ 50 ≤ i by omega, BitVec.testBit_toNat]
      · by_cases h3 : i - 50 < 2
        · simp [h2, h3, show ¬ (i - 12 < 38) by omega, show 50 ≤ i by omega, show i < 64 by omega,
            BitVec.testBit_toNat]
        · simp [h2, h3, show ¬ (i - 12 < 38) by omega]
    · simp [h1, show i < 50 by omega, show ¬ 50 ≤ i by omega]

/-- No bits where the output address goes. -/
def Clear (l : Bool) (x : BitVec 64) : Prop :=
  ∀ i, (12 ≤ i ∧ i < (if l then 50 else 48)) ∨ (l = true ∧ 8 ≤ i ∧ i < 10) → x.getLsbD i = false

theorem Clear.or {l : Bool} {x y : BitVec 64} (hx : Clear l x) (hy : Clear l y) :
    Clear l (x ||| y) := by
  intro i hi
  rw [BitVec.getLsbD_or, hx i hi, hy i hi]; rfl

theorem Clear.ite {l : Bool} {x y : BitVec 64} (p : Prop) [Decidable p] (hx : Clear l x)
    (hy : Clear l y) : Clear l (if p then x else y) := by
  split
  · exact hx
  · exact hy

theorem Clear.const {l : Bool} {x : BitVec 64}
    (h : ∀ k : Fin 64, (12 ≤ k.val ∧ k.val < 50) ∨ (8 ≤ k.val ∧ k.val < 10) → x.getLsbD k = false) :
    Clear l x := by
  intro i hi
  refine h ⟨i, ?_⟩ ?_
  · cases l <;> simp at hi <;> omega
  · show (12 ≤ i ∧ i < 50) ∨ (8 ≤ i ∧ i < 10)
    cases l <;> simp at hi <;> omega

theorem getOa_or {l : Bool} {x y : BitVec 64} (hy : Clear l y) : getOa l (x ||| y) = getOa l x := by
  apply BitVec.eq_of_getLsbD_eq
  intro i hi
  cases l
  · simp only [getOa, Bool.false_eq_true, if_false, BitVec.getLsbD_and, BitVec.getLsbD_or, bit_mask48]
    by_cases h : 12 ≤ i ∧ i < 48
    · rw [hy i (Or.inl (by simpa using h)), Bool.or_false]
    · rw [decide_eq_false h, Bool.and_false, Bool.and_false]
  · simp only [getOa, if_true, BitVec.getLsbD_and, BitVec.getLsbD_or, BitVec.getLsbD_shiftLeft,
      BitVec.getLsbD_ushiftRight, bit_mask50, bit_three]
    have e1 : ((x.getLsbD i || y.getLsbD i) && decide (12 ≤ i ∧ i < 50)) =
        (x.getLsbD i && decide (12 ≤ i ∧ i < 50)) := by
      by_cases h : 12 ≤ i ∧ i < 50
      · rw [hy i (Or.inl (by simpa using h)), Bool.or_false]
      · rw [decide_eq_false h, Bool.and_false, Bool.and_false]
    have e2 : ((x.getLsbD (8 + (i - 50)) || y.getLsbD (8 + (i - 50))) && decide (i - 50 < 2)) =
        (x.getLsbD (8 + (i - 50)) && decide (i - 50 < 2)) := by
      by_cases h : i - 50 < 2
      · rw [hy _ (Or.inr ⟨rfl, by omega, by omega⟩), Bool.or_false]
      · rw [decide_eq_false h, Bool.and_false, Bool.and_false]
    rw [e1, e2]

theorem getOa_setOa {l : Bool} {a : Nat} (h : a % 4096 = 0) (hb : a < 2 ^ (if l then 52 else 48)) :
    getOa l (setOa l (BitVec.ofNat 64 a)) = BitVec.ofNat 64 a := by
  have low := ofNat_low h
  have high := ofNat_high hb
  generalize BitVec.ofNat 64 a = x at low high ⊢
  apply BitVec.eq_of_getLsbD_eq
  intro i hi
  cases l
  · simp only [getOa, setOa, Bool.false_eq_true, if_false, BitVec.getLsbD_and, bit_mask48] at high ⊢
    by_cases h1 : 12 ≤ i ∧ i < 48
    · rw [decide_eq_true h1, Bool.and_true, Bool.and_true]
    · rw [decide_eq_false h1, Bool.and_false]
      by_cases h2 : i < 12
      · exact (low i h2).symm
      · exact (high i (by omega)).symm
  · simp only [getOa, setOa, if_true, BitVec.getLsbD_and, BitVec.getLsbD_or,
      BitVec.getLsbD_shiftLeft, BitVec.getLsbD_ushiftRight, bit_mask50, bit_three] at high ⊢
    by_cases h1 : i < 12
    · rw [low i h1, decide_eq_false (p := 12 ≤ i ∧ i < 50) (by omega),
        decide_eq_true (p := i < 50) (by omega)]
      simp
    · by_cases h2 : i < 50
      · rw [decide_eq_true (p := 12 ≤ i ∧ i < 50) (by omega), decide_eq_true h2,
          decide_eq_false (p := i - 8 < 2) (by omega)]
        simp
      · rw [decide_eq_false (p := 12 ≤ i ∧ i < 50) (by omega), decide_eq_false h2]
        by_cases h3 : i - 50 < 2
        · rw [decide_eq_true h3, decide_eq_false (p := 12 ≤ 8 + (i - 50) ∧ 8 + (i - 50) < 50)
              (by omega), decide_eq_true (p := 8 + (i - 50) < 64) (by omega),
            decide_eq_false (p := 8 + (i - 50) < 8) (by omega),
            show 8 + (i - 50) - 8 = i - 50 by omega, decide_eq_true h3,
            show 50 + (i - 50) = i by omega]
          simp [hi]
        · rw [high i (by omega), decide_eq_false h3]
          simp

theorem or_right_comm (a b c : BitVec 64) : a ||| b ||| c = a ||| (b ||| c) := BitVec.or_assoc a b c

/-- The descriptor of a page or block: its output address, type and
attributes. -/
theorem xlatDesc_decode {c : Cpu} {attr : BitVec 64} {pa d : Nat} {v : BitVec 64}
    (h : xlatDesc c attr pa d = .ok v) (hnt : attr.toNat % 16 ≠ 3)
    (hb : pa < 2 ^ (if c.lpa2 then 52 else 48)) :
    Spec.outAddr c.lpa2 v = pa ∧ pa % bsz d = 0 ∧
    v.toNat % 4 = (if d = 0 then 3 else 1) ∧ Spec.decode v = Spec.wanted attr := by
  have hb64 : pa < 2 ^ 64 :=
    Nat.lt_of_lt_of_le hb (Nat.pow_le_pow_right (by decide) (by cases c.lpa2 <;> decide))
  unfold xlatDesc at h
  have h1 : mtType attr ≠ MT_TRANSIENT := fun h' => hnt ((mtType_eq attr 3 (by decide)).mp h')
  rw [if_neg h1] at h
  by_cases h2 : pa % bsz d ≠ 0
  · rw [if_pos h2] at h; cases h
  rw [if_neg h2] at h
  by_cases h3 : mtType attr ≠ MT_DEVICE ∧ mtType attr ≠ MT_MEMORY
  · rw [if_pos h3] at h; cases h
  rw [if_neg h3] at h
  have h2' : pa % bsz d = 0 := by
    by_contra hne; exact h2 hne
  have hpg : pa % 4096 = 0 :=
    Nat.mod_eq_zero_of_dvd (Nat.dvd_trans (page_dvd_bsz d) (Nat.dvd_of_mod_eq_zero h2'))
  have hv := Except.ok.inj h
  have low := ofNat_low hpg
  have oa : getOa c.lpa2 v = BitVec.ofNat 64 pa := by
    rw [← hv]
    simp only [or_right_comm]
    rw [getOa_or, getOa_setOa hpg hb]
    refine Clear.or (Clear.ite _ (Clear.const (by decide)) (Clear.const (by decide))) ?_
    refine Clear.or (Clear.const (by decide)) ?_
    refine Clear.or (Clear.ite _ (Clear.const (by decide)) (Clear.const (by decide))) ?_
    refine Clear.or (Clear.ite _ (Clear.const (by decide)) (Clear.const (by decide))) ?_
    refine Clear.or (Clear.ite _ (Clear.const (by decide)) (Clear.const (by decide))) ?_
    refine Clear.or (Clear.ite _ (Clear.const (by decide)) (Clear.const (by decide))) ?_
    refine Clear.or (Clear.ite _ (Clear.const (by decide)) (Clear.const (by decide))) ?_
    refine Clear.ite _ (Clear.or (Clear.const (by decide)) (Clear.const (by decide))) ?_
    refine Clear.or (Clear.ite _ (Clear.const (by decide)) (Clear.const (by decide))) ?_
    cases c.lpa2
    · simp only [Bool.false_eq_true, if_false]
      intro i hi
      have hi' : 12 ≤ i ∧ i < 48 := by simpa using hi
      have : ∀ k : Fin 64, 12 ≤ k.val ∧ k.val < 48 → (0x300#64).getLsbD k = false := by decide
      exact this ⟨i, by omega⟩ hi'
    · exact Clear.const (by decide)
  have setBit : ∀ i, (i < 8 ∨ i = 10 ∨ i = 11 ∨ i = 50 ∨ i = 53 ∨ i = 54) →
      (setOa c.lpa2 (BitVec.ofNat 64 pa)).getLsbD i = false := by
    intro i hi
    unfold setOa
    cases c.lpa2
    · simp only [Bool.false_eq_true, if_false, BitVec.getLsbD_and, bit_mask48]
      rw [decide_eq_false (by omega), Bool.and_false]
    · simp only [if_true, BitVec.getLsbD_or, BitVec.getLsbD_and, bit_mask50,
        BitVec.getLsbD_shiftLeft, bit_three]
      rw [decide_eq_false (p := 12 ≤ i ∧ i < 50) (by omega), Bool.and_false, Bool.false_or]
      by_cases h8 : i < 8
      · rw [decide_eq_true h8]; simp
      · rw [decide_eq_false (p := i - 8 < 2) (by omega)]; simp
  have hbit : ∀ i, v.getLsbD i = _ := fun i => congrArg (fun x => BitVec.getLsbD x i) hv.symm
  simp only [BitVec.getLsbD_or, getLsbD_ite] at hbit
  have f4 := flag_zero attr 4 (by decide)
  have f5 := flag_zero attr 5 (by decide)
  have f7 := flag_zero attr 7 (by decide)
  have f8 := flag_zero attr 8 (by decide)
  have f9 := flag_zero attr 9 (by decide)
  have f10 := flag_zero attr 10 (by decide)
  have g4 : attr &&& MT_RW = 0#64 ↔ attr.getLsbD 4 = false := f4
  have g5 : attr &&& MT_EXECUTE_NEVER = 0#64 ↔ attr.getLsbD 5 = false := f5
  have g7 : attr &&& MT_NG = 0#64 ↔ attr.getLsbD 7 = false := f7
  have g8 : attr &&& MT_NS = 0#64 ↔ attr.getLsbD 8 = false := f8
  have g9 : attr &&& MT_AP_UNPRIV = 0#64 ↔ attr.getLsbD 9 = false := f9
  have g10 : attr &&& MT_EXEC_UNPRIV = 0#64 ↔ attr.getLsbD 10 = false := f10
  have gd : mtType attr = MT_DEVICE ↔ attr.toNat % 16 = 0 := mtType_eq attr 0 (by decide)
  simp only [g4, g5, g7, g8, g9, g10, gd, ne_eq, Bool.not_eq_false] at hbit
  have ty : ∀ i, i < 2 → v.getLsbD i = decide (d = 0 ∨ i = 0) := by
    intro i hi
    rw [hbit, setBit i (by omega)]
    have : i = 0 ∨ i = 1 := by omega
    by_cases hd0 : d = 0
    · rcases this with rfl | rfl <;> simp [hd0, PAGE_DESC]
    · rcases this with rfl | rfl <;> simp [hd0, BLOCK_DESC]
  refine ⟨?_, h2', ?_, ?_⟩
  · rw [← getOa_toNat, oa, BitVec.toNat_ofNat, Nat.mod_eq_of_lt hb64]
  · apply Nat.eq_of_testBit_eq
    intro i
    rw [show (4 : Nat) = 2 ^ 2 from rfl, Nat.testBit_mod_two_pow, ← BitVec.getLsbD]
    by_cases hi : i < 2
    · rw [ty i hi]
      have : i = 0 ∨ i = 1 := by omega
      by_cases hd0 : d = 0
      · rcases this with rfl | rfl <;> simp [hd0]; decide
      · rcases this with rfl | rfl <;> simp [hd0]; decide
    · rw [decide_eq_false hi, Bool.false_and]
      split
      · exact (testBit_high (n := 2) (by decide) (by omega)).symm
      · exact (testBit_high (n := 2) (by decide) (by omega)).symm
  · have b2 := hbit 2; have b3 := hbit 3; have b4 := hbit 4; have b5 := hbit 5
    have b6 := hbit 6; have b7 := hbit 7; have b10 := hbit 10; have b11 := hbit 11
    have b50 := hbit 50; have b53 := hbit 53; have b54 := hbit 54
    rw [setBit 2 (by omega)] at b2; rw [setBit 3 (by omega)] at b3
    rw [setBit 4 (by omega)] at b4; rw [setBit 5 (by omega)] at b5
    rw [setBit 6 (by omega)] at b6; rw [setBit 7 (by omega)] at b7
    rw [setBit 10 (by omega)] at b10; rw [setBit 11 (by omega)] at b11
    rw [setBit 50 (by omega)] at b50; rw [setBit 53 (by omega)] at b53
    rw [setBit 54 (by omega)] at b54
    unfold Spec.decode Spec.wanted
    rw [b2, b3, b4, b5, b6, b7, b10, b11, b50, b53, b54]
    clear hbit b2 b3 b4 b5 b6 b7 b10 b11 b50 b53 b54 f4 f5 f7 f8 f9 f10 g4 g5 g7 g8 g9 g10 ty setBit
    clear oa hv h
    generalize attr.getLsbD 4 = x4
    generalize attr.getLsbD 5 = x5
    generalize attr.getLsbD 7 = x7
    generalize attr.getLsbD 8 = x8
    generalize attr.getLsbD 9 = x9
    generalize attr.getLsbD 10 = x10
    generalize c.lpa2 = l
    by_cases dv : attr.toNat % 16 = 0 <;> by_cases hd0 : d = 0 <;>
      simp only [dv, hd0, if_true, if_false] <;>
      (revert x4 x5 x7 x8 x9 x10 l; decide)

end Verif.Xlat
