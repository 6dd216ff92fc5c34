import Verif.Basic
import Verif.Tac

/-!
# C25: MPIDR values and REC indices

Model of /repo/runtime/include/rec.h:320-369 with the field constants of
/repo/lib/arch/include/arch.h:910-978.
-/

namespace Verif.Mpidr

abbrev W := BitVec 64

/-- `MASK(RMI_MPIDR_AFF0)`, bits [3:0]: arch.h:954-955. -/
def RMI_AFF0 : W := 0xf
/-- `MASK(RMI_MPIDR_AFF1)`, bits [15:8]: arch.h:959-960. -/
def RMI_AFF1 : W := 0xff00
/-- `MASK(RMI_MPIDR_AFF2)`, bits [23:16]: arch.h:964-965. -/
def RMI_AFF2 : W := 0xff0000
/-- `MASK(RMI_MPIDR_AFF3)`, bits [31:24]: arch.h:969-970. -/
def RMI_AFF3 : W := 0xff000000
/-- `MASK(MPIDR_EL1_AFF3)`, bits [39:32]: arch.h:933-934. -/
def EL1_AFF3 : W := 0xff00000000

/-- `rec_mpidr_is_valid`: rec.h:324-330. -/
def isValid (m : W) : Bool := m &&& ~~~(RMI_AFF0 ||| RMI_AFF1 ||| RMI_AFF2 ||| RMI_AFF3) == 0

/-- `rec_mpidr_to_idx`: rec.h:336-342. -/
def toIdx (m : W) : W :=
  (m &&& RMI_AFF0) ||| ((m &&& RMI_AFF1) >>> 4) ||| ((m &&& RMI_AFF2) >>> 4) |||
    ((m &&& RMI_AFF3) >>> 4)

/-- `mpidr_to_rec_idx`: rec.h:348-354. -/
def el1ToIdx (m : W) : W :=
  (m &&& RMI_AFF0) ||| ((m &&& RMI_AFF1) >>> 4) ||| ((m &&& RMI_AFF2) >>> 4) |||
    ((m &&& EL1_AFF3) >>> 12)

/-- `rec_mpidr_to_mpidr`: rec.h:362-369. -/
def toEl1 (m : W) : W :=
  (m &&& (RMI_AFF0 ||| RMI_AFF1 ||| RMI_AFF2)) ||| ((m &&& RMI_AFF3) <<< 8)

/-! ## Specification -/

/-- The MPIDR of the REC with index `n`: the low four bits are Aff0, the rest
follow from bit 8. -/
def specMpidr (n : Nat) : Nat := n / 16 * 256 + n % 16

theorem bits_lit (c : W) (p : Nat → Bool)
    (h : ∀ i : Fin 64, c.getLsbD i = p i) (hp : ∀ i, 64 ≤ i → p i = false) (i : Nat) :
    c.getLsbD i = p i := by
  by_cases hi : i < 64
  · exact h ⟨i, hi⟩
  · rw [hp i (by omega)]; exact BitVec.getLsbD_of_ge _ _ (by omega)

theorem b0 (i) : RMI_AFF0.getLsbD i = decide (i < 4) :=
  bits_lit _ (fun i => decide (i < 4)) (by decide) (by intro i h; simp; omega) i
theorem b1 (i) : RMI_AFF1.getLsbD i = (decide (8 ≤ i) && decide (i < 16)) :=
  bits_lit _ (fun i => (decide (8 ≤ i) && decide (i < 16))) (by decide) (by intro i h; simp; omega) i
theorem b2 (i) : RMI_AFF2.getLsbD i = (decide (16 ≤ i) && decide (i < 24)) :=
  bits_lit _ (fun i => (decide (16 ≤ i) && decide (i < 24))) (by decide) (by intro i h; simp; omega) i
theorem b3 (i) : RMI_AFF3.getLsbD i = (decide (24 ≤ i) && decide (i < 32)) :=
  bits_lit _ (fun i => (decide (24 ≤ i) && decide (i < 32))) (by decide) (by intro i h; simp; omega) i
theorem b3' (i) : EL1_AFF3.getLsbD i = (decide (32 ≤ i) && decide (i < 40)) :=
  bits_lit _ (fun i => (decide (32 ≤ i) && decide (i < 40))) (by decide) (by intro i h; simp; omega) i

theorem isValid_iff (m : W) :
    isValid m = true ↔ ∀ i, m.getLsbD i = true → i < 4 ∨ (8 ≤ i ∧ i < 32) := by
  unfold isValid
  rw [beq_iff_eq]
  constructor
  · intro h i hi
    have := congrArg (fun w => w.getLsbD i) h
    have hlt : i < 64 := by
      by_contra hh
      rw [BitVec.getLsbD_of_ge _ _ (by omega)] at hi; simp at hi
    simp only [BitVec.getLsbD_and, BitVec.getLsbD_not, BitVec.getLsbD_or, b0, b1, b2, b3, hi, hlt,
      BitVec.ofNat_eq_ofNat, BitVec.getLsbD_zero] at this
    simp at this
    omega
  · intro h
    apply BitVec.eq_of_getLsbD_eq
    intro i hlt
    have := h i
    simp only [BitVec.getLsbD_and, BitVec.getLsbD_not, BitVec.getLsbD_or, b0, b1, b2, b3, hlt]
    cases hb : m.getLsbD i
    · simp
    · have := this hb
      simp
      omega

theorem toIdx_bit (m : W) (i : Nat) :
    (toIdx m).getLsbD i = if i < 4 then m.getLsbD i else if i < 28 then m.getLsbD (i + 4) else false := by
  unfold toIdx
  simp only [BitVec.getLsbD_or, BitVec.getLsbD_ushiftRight, BitVec.getLsbD_and, b0, b1, b2, b3]
  by_cases h4 : i < 4
  · simp [h4]; grind
  · by_cases h28 : i < 28
    · simp [h4, h28, Nat.add_comm 4 i]; grind
    · simp [h4, h28]; grind

/-- C25: exactly the MPIDR values with all bits outside Aff3[31:24]:Aff2[23:16]:Aff1[15:8]:
Aff0[3:0] clear are accepted. -/
theorem C25_valid_iff (m : W) :
    isValid m = true ↔ ∀ i, (4 ≤ i ∧ i < 8) ∨ 32 ≤ i → m.getLsbD i = false := by
  rw [isValid_iff]
  constructor
  · intro h i hi
    cases hb : m.getLsbD i
    · rfl
    · have := h i hb; omega
  · intro h i hi
    by_contra hh
    rw [h i (by omega)] at hi; simp at hi

/-- Bits of the MPIDR value that belongs to an index. -/
theorem spec_bit (n i : Nat) :
    (specMpidr n).testBit i =
      if i < 4 then n.testBit i else if i < 8 then false else n.testBit (i - 4) := by
  have e : specMpidr n = 2 ^ 8 * (n / 2 ^ 4) + n % 2 ^ 4 := by unfold specMpidr; omega
  have hlt : n % 2 ^ 4 < 2 ^ 8 := by omega
  rw [e, Nat.testBit_two_pow_mul_add _ hlt]
  by_cases h4 : i < 4
  · rw [if_pos h4, if_pos (by omega), Nat.testBit_mod_two_pow]; simp [h4]
  · rw [if_neg h4]
    by_cases h8 : i < 8
    · rw [if_pos h8, if_pos h8, Nat.testBit_mod_two_pow]; simp [h4]
    · rw [if_neg h8, if_neg h8, Nat.testBit_div_two_pow]; congr 1; omega

/-- C25: a valid MPIDR is recovered from its index. -/
theorem C25_mpidr_of_index (m : W) (h : isValid m = true) :
    m.toNat = specMpidr (toIdx m).toNat := by
  apply Nat.eq_of_testBit_eq
  intro i
  have hv := (isValid_iff m).1 h
  rw [spec_bit, ← BitVec.getLsbD, ← BitVec.getLsbD, ← BitVec.getLsbD, toIdx_bit, toIdx_bit]
  have hz : (4 ≤ i ∧ i < 8) ∨ 32 ≤ i → m.getLsbD i = false := (C25_valid_iff m).1 h i
  by_cases h4 : i < 4
  · simp [h4]
  · by_cases h8 : i < 8
    · simp [h4, h8, hz (by omega)]
    · have e : i - 4 + 4 = i := by omega
      have h44 : ¬ i - 4 < 4 := by omega
      by_cases h32 : i < 32
      · have : i - 4 < 28 := by omega
        simp [h4, h8, h44, this, e]
      · have : ¬ i - 4 < 28 := by omega
        simp [h4, h8, h44, this, hz (by omega)]

/-- C25: two valid MPIDRs with the same index are the same. -/
theorem C25_index_injective (m m' : W) (h : isValid m = true) (h' : isValid m' = true)
    (he : toIdx m = toIdx m') : m = m' := by
  apply BitVec.eq_of_toNat_eq
  rw [C25_mpidr_of_index m h, C25_mpidr_of_index m' h', he]

/-- C25: the indices of valid MPIDRs are exactly 0 .. 2^28 - 1. -/
theorem C25_index_range (n : Nat) :
    (∃ m : W, isValid m = true ∧ (toIdx m).toNat = n) ↔ n < 2 ^ 28 := by
  constructor
  · rintro ⟨m, -, rfl⟩
    apply Nat.lt_pow_two_of_testBit
    intro i hi
    rw [← BitVec.getLsbD, toIdx_bit, if_neg (by omega), if_neg (by omega)]
  · intro h
    have hs : specMpidr n < 2 ^ 64 := by unfold specMpidr; omega
    have hv : isValid (BitVec.ofNat 64 (specMpidr n)) = true := by
      rw [C25_valid_iff]
      intro i hi
      rw [BitVec.getLsbD, BitVec.toNat_ofNat, Nat.mod_eq_of_lt hs, spec_bit, if_neg (by omega)]
      split
      · rfl
      · exact Nat.testBit_lt_two_pow (Nat.lt_of_lt_of_le h (Nat.pow_le_pow_right (by omega) (by omega)))
    refine ⟨BitVec.ofNat 64 (specMpidr n), hv, ?_⟩
    have e := C25_mpidr_of_index _ hv
    rw [BitVec.toNat_ofNat, Nat.mod_eq_of_lt hs] at e
    generalize (toIdx (BitVec.ofNat 64 (specMpidr n))).toNat = k at e
    unfold specMpidr at e
    omega

theorem toEl1_bit (m : W) (i : Nat) :
    (toEl1 m).getLsbD i =
      if i < 4 then m.getLsbD i else if i < 8 then false else if i < 24 then m.getLsbD i
      else if i < 32 then false else if i < 40 then m.getLsbD (i - 8) else false := by
  unfold toEl1
  simp only [BitVec.getLsbD_or, BitVec.getLsbD_shiftLeft, BitVec.getLsbD_and, b0, b1, b2, b3]
  grind

/-- C25: the index computed from the MPIDR_EL1 value given to the REC is the index
computed from the MPIDR the host supplied, for every argument. -/
theorem C25_el1_index (m : W) : el1ToIdx (toEl1 m) = toIdx m := by
  apply BitVec.eq_of_getLsbD_eq
  intro i hi
  rw [toIdx_bit]
  unfold el1ToIdx
  simp only [BitVec.getLsbD_or, BitVec.getLsbD_ushiftRight, BitVec.getLsbD_and, b0, b1, b2, b3',
    toEl1_bit]
  grind

/-- C25: the next REC index after `n` belongs to the MPIDR with Aff0 counting modulo 16. -/
example : isValid 0x100 = true ∧ toIdx 0x100 = 16 ∧ toIdx 0xf = 15 ∧ isValid 0x10 = false := by decide

end Verif.Mpidr
