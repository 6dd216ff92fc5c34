import Verif.Vtcr.Model
import Verif.Vtcr.Spec

/-!
# The register values, field by field
-/

namespace Verif.Vtcr

open Features (W inplace mask extract field bit_mask)

/-- The physical address widths there are: arch_features.c:24-28. -/
def paWidths : List Nat := [32, 36, 40, 42, 44, 48, 52]

/-- Every value `realm_vtcr` can produce, decoded. -/
theorem vtcr_table : ∀ vmid16 lpa2 : Bool, ∀ w ∈ paWidths, ∀ d : Fin 5, ∀ b : Fin 21,
    (d.val ≤ if lpa2 then 4 else 3) →
    ∃ v, realmVtcr vmid16 w (3 - (d.val : Int)) (32 + b.val) lpa2 = some v ∧ Spec.Sane v ∧
      Spec.ds v = lpa2 ∧ Spec.iaSize v = 32 + b.val ∧ Spec.startLevel v = some (3 - (d.val : Int)) ∧
      Spec.oaSize v = (if lpa2 then w else min w 48) ∧ (field 19 1 v = 1 ↔ vmid16 = true) := by
  have h : ∀ vmid16 lpa2 : Bool, ∀ w ∈ paWidths, ∀ d : Fin 5, ∀ b : Fin 21,
    (d.val ≤ if lpa2 then 4 else 3) →
    ((realmVtcr vmid16 w (3 - (d.val : Int)) (32 + b.val) lpa2).any fun v => decide (Spec.Sane v ∧
      Spec.ds v = lpa2 ∧ Spec.iaSize v = 32 + b.val ∧ Spec.startLevel v = some (3 - (d.val : Int)) ∧
      Spec.oaSize v = (if lpa2 then w else min w 48) ∧ (field 19 1 v = 1 ↔ vmid16 = true))) = true := by
    decide +kernel
  intro a b w hw d c hd
  have := h a b w hw d c hd
  obtain ⟨v, hv, h2⟩ := (Option.any_eq_true _ _).1 this
  exact ⟨v, hv, of_decide_eq_true h2⟩

theorem field_bits (s w : Nat) (r : W) (i : Nat) :
    (field s w r).testBit i = (decide (i < w) && r.getLsbD (s + i)) := by
  unfold field
  rw [Nat.testBit_mod_two_pow, Nat.testBit_div_two_pow, ← BitVec.getLsbD, Nat.add_comm]

theorem bit_inplace (s v i : Nat) (hi : i < 64) : (inplace s v).getLsbD i = (decide (s ≤ i) && v.testBit (i - s)) := by
  unfold inplace
  rw [BitVec.getLsbD_shiftLeft, BitVec.getLsbD_ofNat]
  by_cases h : s ≤ i
  · have : i - s < 64 := by omega
    simp [h, hi, this, Nat.not_lt.2 h]
  · simp [h, Nat.lt_of_not_le h]

theorem bit_vttbr (root vm : Nat) (lpa2 : Bool) (i : Nat) (hi : i < 64) :
    (vttbr root vm lpa2).getLsbD i =
      ((decide (1 ≤ i ∧ i < 48 ∧ ¬ (lpa2 = true ∧ 2 ≤ i ∧ i < 6)) && root.testBit i) ||
       (decide (lpa2 = true ∧ 2 ≤ i ∧ i < 6) && root.testBit (46 + i)) ||
       (decide (48 ≤ i) && vm.testBit (i - 48))) := by
  unfold vttbr
  dsimp only
  rw [BitVec.getLsbD_or, bit_inplace _ _ _ hi]
  congr 1
  cases lpa2
  · simp only [Bool.false_eq_true, if_false, false_and, decide_false, Bool.false_and, Bool.or_false,
      BitVec.getLsbD_and, BitVec.getLsbD_ofNat, bit_mask 1 47 i (by omega), hi, not_false_eq_true, and_true, decide_true, Bool.true_and]
    by_cases h1 : 1 ≤ i <;> by_cases h2 : i < 48 <;> simp [h1, h2]
  · simp only [if_true, true_and, BitVec.getLsbD_or, BitVec.getLsbD_and, BitVec.getLsbD_not, BitVec.getLsbD_ofNat,
      bit_mask 1 47 i (by omega), bit_mask 2 4 i (by omega), BitVec.getLsbD_shiftLeft, hi, decide_true, Bool.true_and]
    congr 1
    · by_cases h1 : 1 ≤ i <;> by_cases h2 : i < 48 <;> by_cases h3 : 2 ≤ i <;> by_cases h4 : i < 6 <;>
        simp [h1, h2, h3, h4]
    · unfold extract
      rw [BitVec.getLsbD_ushiftRight, BitVec.getLsbD_and, bit_mask 48 4 _ (by omega), BitVec.getLsbD_ofNat]
      by_cases h3 : 2 ≤ i
      · by_cases h4 : i < 6
        · have e : 48 + (i - 2) = 46 + i := by omega
          have e1 : 46 + i < 64 := by omega
          have e2 : 46 + i < 52 := by omega
          have e3 : 48 ≤ 46 + i := by omega
          simp [h3, h4, e, e1, e2, e3, Nat.not_lt.2 h3]
        · have e : ¬ (48 + (i - 2) < 48 + 4) := by omega
          simp [h4, e]
      · have h3' : i < 2 := by omega
        simp [h3, h3']

theorem vttbr_vmid16 (root vm : Nat) (lpa2 : Bool) : field 48 16 (vttbr root vm lpa2) = vm % 2 ^ 16 := by
  apply Nat.eq_of_testBit_eq
  intro i
  rw [field_bits, Nat.testBit_mod_two_pow]
  by_cases h : i < 16
  · rw [bit_vttbr _ _ _ _ (by omega)]
    have a : ¬ (48 + i < 48) := by omega
    have b : ¬ (48 + i < 6) := by omega
    simp [h, a, b]
  · simp [h]

theorem vttbr_vmid8 (root vm : Nat) (lpa2 : Bool) : field 48 8 (vttbr root vm lpa2) = vm % 2 ^ 8 := by
  apply Nat.eq_of_testBit_eq
  intro i
  rw [field_bits, Nat.testBit_mod_two_pow]
  by_cases h : i < 8
  · rw [bit_vttbr _ _ _ _ (by omega)]
    have a : ¬ (48 + i < 48) := by omega
    have b : ¬ (48 + i < 6) := by omega
    simp [h, a, b]
  · simp [h]

theorem vttbr_msb (root vm : Nat) : field 2 4 (vttbr root vm true) = root / 2 ^ 48 % 2 ^ 4 := by
  apply Nat.eq_of_testBit_eq
  intro i
  rw [field_bits, Nat.testBit_mod_two_pow, Nat.testBit_div_two_pow]
  by_cases h : i < 4
  · rw [bit_vttbr _ _ _ _ (by omega)]
    have a : 2 + i < 6 := by omega
    have b : ¬ (48 ≤ 2 + i) := by omega
    have c : 46 + (2 + i) = i + 48 := by omega
    simp [h, a, b, c]
  · simp [h]

theorem vttbr_lsb (root vm : Nat) (lpa2 : Bool) : field 6 42 (vttbr root vm lpa2) = root / 2 ^ 6 % 2 ^ 42 := by
  apply Nat.eq_of_testBit_eq
  intro i
  rw [field_bits, Nat.testBit_mod_two_pow, Nat.testBit_div_two_pow]
  by_cases h : i < 42
  · rw [bit_vttbr _ _ _ _ (by omega)]
    have a : 1 ≤ 6 + i := by omega
    have b : 6 + i < 48 := by omega
    have c : ¬ (6 + i < 6) := by omega
    have d : ¬ (48 ≤ 6 + i) := by omega
    have e : 6 + i = i + 6 := by omega
    simp only [a, b, c, d, h, decide_true, decide_false, and_false, and_true, not_false_eq_true, Bool.true_and,
      Bool.false_and, Bool.or_false]
    rw [e]
  · simp [h]

theorem vttbr_addr (root vm : Nat) (lpa2 : Bool) (h : lpa2 = true → root < 2 ^ 48) (h64 : root % 64 = 0) :
    field 1 47 (vttbr root vm lpa2) = root / 2 % 2 ^ 47 := by
  apply Nat.eq_of_testBit_eq
  intro i
  rw [field_bits, Nat.testBit_mod_two_pow, show root / 2 = root / 2 ^ 1 from rfl, Nat.testBit_div_two_pow]
  by_cases hi : i < 47
  · rw [bit_vttbr _ _ _ _ (by omega)]
    have a : 1 ≤ 1 + i := by omega
    have b : 1 + i < 48 := by omega
    have d : ¬ (48 ≤ 1 + i) := by omega
    have e : 1 + i = i + 1 := by omega
    cases lpa2
    · simp only [hi, a, b, d, Bool.false_eq_true, false_and, not_false_eq_true, and_true, decide_true, decide_false,
        Bool.true_and, Bool.false_and, Bool.or_false]
      rw [e]
    · have hlow : ∀ j < 6, root.testBit j = false := by
        intro j hj
        have := Nat.testBit_mod_two_pow root 6 j
        rw [show (2 : Nat) ^ 6 = 64 from rfl, h64] at this
        simpa [hj] using this.symm
      have hhi : ∀ j, 48 ≤ j → root.testBit j = false := fun j hj =>
        Nat.testBit_lt_two_pow (Nat.lt_of_lt_of_le (h rfl) (Nat.pow_le_pow_right (by omega) hj))
      by_cases c : 2 ≤ 1 + i ∧ 1 + i < 6
      · have := hlow (i + 1) (by omega)
        have := hhi (46 + (1 + i)) (by omega)
        simp_all
      · simp only [hi, a, b, c, d, true_and, not_false_eq_true, and_true, decide_true, decide_false,
          Bool.true_and, Bool.false_and, Bool.or_false]
        rw [e]
  · simp [hi]

end Verif.Vtcr
