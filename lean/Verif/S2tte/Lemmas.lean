import Verif.S2tte.Model
import Verif.S2tte.Spec

/-! Helper lemmas for the descriptor theorems. -/

namespace Verif.S2tte

theorem getLsbD_bitMask (msb lsb i : Nat) (hm : msb < 64) :
    (bitMask msb lsb).getLsbD i = (decide (lsb ≤ i) && decide (i ≤ msb)) := by
  unfold bitMask
  rw [BitVec.getLsbD_and, BitVec.getLsbD_ushiftRight, BitVec.getLsbD_allOnes,
    BitVec.getLsbD_shiftLeft, BitVec.getLsbD_allOnes]
  rw [Bool.eq_iff_iff]
  simp
  omega

theorem getLsbD_lit {C : W} {P : Nat → Bool} (h : ∀ i : Fin 64, C.getLsbD i = P i)
    (i : Nat) (hi : i < 64) : C.getLsbD i = P i := h ⟨i, hi⟩

/-- The bits of a constant, as a total function of the index. -/
theorem getLsbD_lit' {C : W} {P : Nat → Bool} (h : ∀ i : Fin 64, C.getLsbD i = P i)
    (i : Nat) (hge : 64 ≤ i → P i = false) : C.getLsbD i = P i := by
  by_cases hi : i < 64
  · exact h ⟨i, hi⟩
  · rw [BitVec.getLsbD_of_ge _ _ (by omega), hge (by omega)]

theorem bits_LPA2_OA_51_50 (i : Nat) :
    LPA2_OA_51_50.getLsbD i = (decide (50 ≤ i) && decide (i ≤ 51)) :=
  getLsbD_lit' (P := fun i => (decide (50 ≤ i) && decide (i ≤ 51))) (by decide) i
    (by simp; omega)
theorem bits_LPA2_OA_49_48 (i : Nat) :
    LPA2_OA_49_48.getLsbD i = (decide (48 ≤ i) && decide (i ≤ 49)) :=
  getLsbD_lit' (P := fun i => (decide (48 ≤ i) && decide (i ≤ 49))) (by decide) i
    (by simp; omega)
theorem bits_LPA2_TTE_51_50 (i : Nat) :
    LPA2_TTE_51_50.getLsbD i = (decide (8 ≤ i) && decide (i ≤ 9)) :=
  getLsbD_lit' (P := fun i => (decide (8 ≤ i) && decide (i ≤ 9))) (by decide) i
    (by simp; omega)
theorem bits_NS_ATTR_MASK (i : Nat) :
    NS_ATTR_MASK.getLsbD i =
      ((decide (2 ≤ i) && decide (i ≤ 4)) || (decide (6 ≤ i) && decide (i ≤ 7))) :=
  getLsbD_lit' (P := fun i => ((decide (2 ≤ i) && decide (i ≤ 4)) ||
    (decide (6 ≤ i) && decide (i ≤ 7)))) (by decide) i (by simp; omega)

theorem getLsbD_paToS2tte (pa : W) (i : Nat) :
    (paToS2tte pa true).getLsbD i =
      ((pa.getLsbD i && !(decide (50 ≤ i) && decide (i ≤ 51))) ||
        (decide (8 ≤ i) && decide (i ≤ 9) && pa.getLsbD (i + 42))) := by
  by_cases hi : i < 64
  · simp only [paToS2tte, if_true]
    rw [BitVec.getLsbD_or, BitVec.getLsbD_and, BitVec.getLsbD_not, bits_LPA2_OA_51_50 i,
      BitVec.getLsbD_shiftLeft, BitVec.getLsbD_ushiftRight, BitVec.getLsbD_and]
    by_cases h8 : i < 8
    · simp [h8, hi]; grind
    · have e : 50 + (i - 8) = i + 42 := by omega
      rw [e, bits_LPA2_OA_51_50 (i+42)]
      simp [hi]; grind
  · rw [BitVec.getLsbD_of_ge _ _ (by omega), BitVec.getLsbD_of_ge _ _ (by omega)]
    simp; omega

theorem getLsbD_lvlMask (level : Int) (lpa2 : Bool) (i : Nat) :
    (lvlMask level lpa2).getLsbD i =
      ((decide (lsbOf level ≤ i) && decide (i ≤ 47)) ||
        (lpa2 && ((decide (8 ≤ i) && decide (i ≤ 9)) || (decide (48 ≤ i) && decide (i ≤ 49))))) := by
  cases lpa2
  · simp [lvlMask, getLsbD_bitMask 47 _ i (by omega)]
  · simp [lvlMask, getLsbD_bitMask 47 _ i (by omega), bits_LPA2_OA_49_48, bits_LPA2_TTE_51_50]

theorem getLsbD_toPa (w : W) (level : Int) (lpa2 : Bool) (_hl : level ≤ 3) (i : Nat) :
    (toPa w level lpa2).getLsbD i = Spec.hwOaBit lpa2 (lsbOf level) w i := by
  have hlsb : 12 ≤ lsbOf level := by unfold lsbOf; omega
  by_cases hi : i < 64
  · cases lpa2
    · simp [toPa, Spec.hwOaBit, getLsbD_lvlMask]; grind
    · simp only [toPa, if_true]
      rw [BitVec.getLsbD_or, BitVec.getLsbD_and, BitVec.getLsbD_and, BitVec.getLsbD_not,
        bits_LPA2_TTE_51_50 i, BitVec.getLsbD_shiftLeft, BitVec.getLsbD_ushiftRight,
        BitVec.getLsbD_and, getLsbD_lvlMask, bits_LPA2_TTE_51_50]
      simp only [Spec.hwOaBit]
      have e : 50 ≤ i → 8 + (i - 50) = i - 42 := by omega
      by_cases hr : lsbOf level ≤ i ∧ i ≤ 47
      · have a : i < 50 := by omega
        have b : ¬ i ≤ 9 := by omega
        rw [if_pos hr]; simp [hr, a, b, hi]
      · rw [if_neg hr]
        by_cases h48 : i = 48 ∨ i = 49
        · rw [if_pos ⟨trivial, h48⟩]
          rcases h48 with rfl | rfl <;> simp
        · rw [if_neg (by simpa using h48)]
          by_cases h50 : i = 50 ∨ i = 51
          · rw [if_pos ⟨trivial, h50⟩, e (by omega)]
            rcases h50 with rfl | rfl <;> simp
          · rw [if_neg (by simpa using h50)]
            simp [hi]
            grind
  · rw [BitVec.getLsbD_of_ge _ _ (by omega)]
    simp only [Spec.hwOaBit]
    rw [if_neg (by omega), if_neg (by omega), if_neg (by omega)]

/-- A masked word has no bits outside the mask. -/
theorem and_eq_self_iff (x M : W) :
    x &&& M = x ↔ ∀ i, x.getLsbD i = true → M.getLsbD i = true := by
  constructor
  · intro h i hx
    have := congrArg (fun v => BitVec.getLsbD v i) h
    simp only [BitVec.getLsbD_and] at this
    rw [hx] at this; simpa using this
  · intro h
    apply BitVec.eq_of_getLsbD_eq
    intro i hi
    rw [BitVec.getLsbD_and]
    have := h i
    cases hx : x.getLsbD i <;> simp_all

theorem and_not_eq_zero_iff (x M : W) :
    x &&& ~~~M = 0 ↔ ∀ i, x.getLsbD i = true → M.getLsbD i = true := by
  constructor
  · intro h i hx
    have := congrArg (fun v => BitVec.getLsbD v i) h
    simp only [BitVec.getLsbD_and, BitVec.getLsbD_not] at this
    rw [hx] at this
    by_cases hi : i < 64
    · simpa [hi] using this
    · rw [BitVec.getLsbD_of_ge _ _ (by omega)] at hx; simp at hx
  · intro h
    apply BitVec.eq_of_getLsbD_eq
    intro i hi
    rw [BitVec.getLsbD_and, BitVec.getLsbD_not]
    have := h i
    cases hx : x.getLsbD i <;> simp_all

theorem lsbOf_eq (level : Int) : lsbOf level = Spec.offBits level := by
  unfold lsbOf Spec.offBits; omega

/-- Alignment and range, in numbers and in bits. -/
theorem paOk_iff_bits (lpa2 : Bool) (level : Int) (pa : W) :
    Spec.PaOk lpa2 level pa ↔
      ∀ i, pa.getLsbD i = true → Spec.offBits level ≤ i ∧ i < Spec.paBits lpa2 := by
  unfold Spec.PaOk
  constructor
  · rintro ⟨h1, h2⟩ i hi
    constructor
    · apply Classical.byContradiction; intro hlt
      have : Nat.testBit (pa.toNat % 2 ^ Spec.offBits level) i = true := by
        rw [Nat.testBit_mod_two_pow]; simp; exact ⟨by omega, hi⟩
      rw [h1] at this; simp at this
    · apply Classical.byContradiction; intro hge
      have : Nat.testBit pa.toNat i = false := by
        apply Nat.testBit_lt_two_pow
        calc pa.toNat < 2 ^ Spec.paBits lpa2 := h2
          _ ≤ 2 ^ i := Nat.pow_le_pow_right (by omega) (by omega)
      rw [BitVec.getLsbD, this] at hi; simp at hi
  · intro h
    constructor
    · apply Nat.eq_of_testBit_eq; intro i
      rw [Nat.testBit_mod_two_pow]; simp
      intro hi
      cases hb : pa.toNat.testBit i with
      | false => rfl
      | true => have := h i hb; omega
    · apply Nat.lt_pow_two_of_testBit
      intro i hi
      cases hb : pa.toNat.testBit i with
      | false => rfl
      | true => have := h i hb; omega

theorem getLsbD_alignMask (level : Int) (lpa2 : Bool) (i : Nat) :
    (alignMask level lpa2).getLsbD i =
      (decide (Spec.offBits level ≤ i) && decide (i < Spec.paBits lpa2)) := by
  unfold alignMask
  rw [getLsbD_bitMask _ _ _ (by split <;> omega), lsbOf_eq]
  cases lpa2 <;> simp [Spec.paBits] <;> grind

theorem isAddrLvlAligned_iff (lpa2 : Bool) (pa : W) (level : Int)
    (h1 : minLevel lpa2 ≤ level) (h3 : level ≤ 3) :
    isAddrLvlAligned lpa2 pa level = some true ↔ Spec.PaOk lpa2 level pa := by
  unfold isAddrLvlAligned
  rw [if_pos ⟨h3, h1⟩, paOk_iff_bits]
  have := and_eq_self_iff pa (alignMask level lpa2)
  simp only [getLsbD_alignMask, Bool.and_eq_true, decide_eq_true_eq] at this
  rw [← this]
  simp only [Option.some.injEq, beq_iff_eq]
  exact eq_comm

/-- Bits a physical address can occupy in a descriptor. -/
def tteBits : W := 0x0003fffffffff300

theorem tte_masked (lpa2 : Bool) (level : Int) (pa : W) (_hl : level ≤ 3)
    (h : Spec.PaOk lpa2 level pa) :
    paToS2tte pa lpa2 &&& tteBits = paToS2tte pa lpa2 := by
  rw [and_eq_self_iff]
  intro i hi
  have hb := (paOk_iff_bits _ _ _).1 h
  have hoff : 12 ≤ Spec.offBits level := by unfold Spec.offBits; omega
  have hT : tteBits.getLsbD i = ((decide (8 ≤ i) && decide (i ≤ 9)) ||
      (decide (12 ≤ i) && decide (i ≤ 49))) :=
    getLsbD_lit' (P := fun i => ((decide (8 ≤ i) && decide (i ≤ 9)) ||
      (decide (12 ≤ i) && decide (i ≤ 49)))) (by decide) i (by simp; omega)
  rw [hT]
  cases lpa2
  · simp only [paToS2tte] at hi
    have := hb i (by simpa using hi)
    simp [Spec.paBits] at this ⊢; omega
  · rw [getLsbD_paToS2tte] at hi
    have h1 := hb i
    have h2 := hb (i+42)
    simp [Spec.paBits] at h1 h2 hi ⊢
    rcases hi with ⟨a, b⟩ | ⟨a, b⟩
    · have := h1 a; omega
    · have := h2 b; omega

/-- Address bits do not disturb fields outside them. -/
theorem tte_or_and (t C M : W) (ht : t &&& tteBits = t) (hM : M &&& tteBits = 0) :
    (t ||| C) &&& M = C &&& M := by
  rw [BitVec.and_or_distrib_right]
  have : t &&& M = 0 := by
    rw [← ht, BitVec.and_assoc, BitVec.and_comm tteBits M, hM]; simp
  rw [this]; simp

/-- The address survives encoding, whatever constant bits are added outside the
address fields. -/
theorem toPa_tte (lpa2 : Bool) (level : Int) (pa C : W) (hl : level ≤ 3)
    (h : Spec.PaOk lpa2 level pa)
    (hC : ∀ i, C.getLsbD i = true → ¬ (lsbOf level ≤ i ∧ i ≤ 47) ∧
      (lpa2 = true → ¬ (8 ≤ i ∧ i ≤ 9) ∧ ¬ (48 ≤ i ∧ i ≤ 49))) :
    toPa (paToS2tte pa lpa2 ||| C) level lpa2 = pa := by
  apply BitVec.eq_of_getLsbD_eq
  intro i hi
  rw [getLsbD_toPa _ _ _ hl]
  have hb := (paOk_iff_bits _ _ _).1 h
  have hoff : 12 ≤ Spec.offBits level := by unfold Spec.offBits; omega
  rw [lsbOf_eq] at *
  have key : ∀ j, ((Spec.offBits level ≤ j ∧ j ≤ 47) ∨
      (lpa2 = true ∧ ((8 ≤ j ∧ j ≤ 9) ∨ (48 ≤ j ∧ j ≤ 49)))) → C.getLsbD j = false := by
    intro j hj
    cases hc : C.getLsbD j with
    | false => rfl
    | true => have := hC j hc; grind
  simp only [Spec.hwOaBit, BitVec.getLsbD_or]
  cases lpa2
  · simp only [paToS2tte]
    simp only [Spec.paBits] at hb
    simp only [Bool.false_eq_true, false_and, if_false] at hb ⊢
    by_cases hr : Spec.offBits level ≤ i ∧ i ≤ 47
    · rw [if_pos hr, key i (Or.inl hr)]; simp
    · rw [if_neg hr]
      cases hp : pa.getLsbD i with
      | false => rfl
      | true => have := hb i hp; omega
  · simp only [getLsbD_paToS2tte]
    simp only [Spec.paBits, if_true] at hb
    have hbi := hb i
    have hbi' := hb (i - 42)
    have hk1 := key i
    have hk2 := key (i - 42)
    clear hb hC key h
    simp only [true_and] at hk1 hk2 ⊢
    by_cases hr : Spec.offBits level ≤ i ∧ i ≤ 47
    · rw [if_pos hr, hk1 (Or.inl hr)]
      have a : ¬ (50 ≤ i) := by omega
      have b : ¬ (i ≤ 9) := by omega
      simp [a, b]
    · rw [if_neg hr]
      by_cases h48 : i = 48 ∨ i = 49
      · rw [if_pos h48, hk1 (by omega)]
        have a : ¬ (50 ≤ i) := by omega
        have b : ¬ (i ≤ 9) := by omega
        simp [a, b]
      · rw [if_neg h48]
        by_cases h50 : i = 50 ∨ i = 51
        · rw [if_pos h50, hk2 (by omega)]
          have e : i - 42 + 42 = i := by omega
          rw [e]
          have hp : pa.getLsbD (i - 42) = false := by
            cases hp : pa.getLsbD (i - 42) with
            | false => rfl
            | true => have := hbi' hp; omega
          have a : 8 ≤ i - 42 := by omega
          have b : i - 42 ≤ 9 := by omega
          simp [hp, a, b]
        · rw [if_neg h50]
          cases hp : pa.getLsbD i with
          | false => rfl
          | true => have := hbi hp; omega

end Verif.S2tte
