import Verif.Xlat.Tree

/-
Bits of the descriptors written by the library.
-/
namespace Verif.Xlat

theorem bit_mask48 (i : Nat) :
    (0xFFFFFFFFF000#64).getLsbD i = decide (12 ≤ i ∧ i < 48) := by
  by_cases h : i < 64
  · have : ∀ k : Fin 64, (0xFFFFFFFFF000#64).getLsbD k = decide (12 ≤ k.val ∧ k.val < 48) := by
      decide
    exact this ⟨i, h⟩
  · rw [BitVec.getLsbD_of_ge _ _ (by omega)]
    exact (decide_eq_false (by omega)).symm

theorem bit_mask50 (i : Nat) :
    (0x3FFFFFFFFF000#64).getLsbD i = decide (12 ≤ i ∧ i < 50) := by
  by_cases h : i < 64
  · have : ∀ k : Fin 64, (0x3FFFFFFFFF000#64).getLsbD k = decide (12 ≤ k.val ∧ k.val < 50) := by
      decide
    exact this ⟨i, h⟩
  · rw [BitVec.getLsbD_of_ge _ _ (by omega)]
    exact (decide_eq_false (by omega)).symm

theorem bit_three (i : Nat) : (3#64).getLsbD i = decide (i < 2) := by
  by_cases h : i < 64
  · have : ∀ k : Fin 64, (3#64).getLsbD k = decide (k.val < 2) := by decide
    exact this ⟨i, h⟩
  · rw [BitVec.getLsbD_of_ge _ _ (by omega)]
    exact (decide_eq_false (by omega)).symm

theorem testBit_low {a k : Nat} (h : a % 4096 = 0) (hk : k < 12) : a.testBit k = false := by
  obtain ⟨q, rfl⟩ := Nat.dvd_of_mod_eq_zero h
  rw [show (4096 : Nat) = 2 ^ 12 from rfl, Nat.testBit_two_pow_mul]
  simp; omega

theorem testBit_high {a k n : Nat} (h : a < 2 ^ n) (hk : n ≤ k) : a.testBit k = false :=
  Nat.testBit_lt_two_pow (Nat.lt_of_lt_of_le h (Nat.pow_le_pow_right (by decide) hk))

theorem ofNat_low {a : Nat} (h : a % 4096 = 0) : ∀ i, i < 12 → (BitVec.ofNat 64 a).getLsbD i = false := by
  intro i hi
  rw [BitVec.getLsbD_ofNat, testBit_low h hi, Bool.and_false]

theorem ofNat_high {a n : Nat} (h : a < 2 ^ n) :
    ∀ i, n ≤ i → (BitVec.ofNat 64 a).getLsbD i = false := by
  intro i hi
  rw [BitVec.getLsbD_ofNat, testBit_high h hi, Bool.and_false]

/-- A table descriptor leads back to the table it was made for. -/
theorem getOa_table {l : Bool} {a : Nat} (h : a % 4096 = 0) (hb : a < 2 ^ 48) :
    getOa l (TABLE_DESC ||| BitVec.ofNat 64 a) = BitVec.ofNat 64 a := by
  have low := ofNat_low h
  have high := ofNat_high hb
  generalize BitVec.ofNat 64 a = x at low high ⊢
  apply BitVec.eq_of_getLsbD_eq
  intro i hi
  cases l
  · simp only [getOa, TABLE_DESC, Bool.false_eq_true, if_false, BitVec.getLsbD_and,
      BitVec.getLsbD_or, bit_mask48, bit_three]
    by_cases h1 : i < 12
    · rw [low i h1, decide_eq_false (p := 12 ≤ i ∧ i < 48) (by omega), Bool.and_false]
    · by_cases h2 : 48 ≤ i
      · rw [high i h2, decide_eq_false (p := 12 ≤ i ∧ i < 48) (by omega), Bool.and_false]
      · rw [decide_eq_true (p := 12 ≤ i ∧ i < 48) (by omega),
          decide_eq_false (p := i < 2) (by omega), Bool.and_true, Bool.false_or]
  · simp only [getOa, TABLE_DESC, if_true, BitVec.getLsbD_and, BitVec.getLsbD_shiftLeft,
      BitVec.getLsbD_ushiftRight, BitVec.getLsbD_or, bit_mask50, bit_three]
    by_cases h1 : i < 12
    · rw [low i h1, decide_eq_false (p := 12 ≤ i ∧ i < 50) (by omega),
        decide_eq_true (p := i < 50) (by omega)]
      simp
    · by_cases h2 : 48 ≤ i
      · rw [high i h2, decide_eq_false (p := i < 2) (by omega)]
        by_cases h3 : i < 50
        · rw [decide_eq_true h3]; simp
        · by_cases h4 : i - 50 < 2
          · rw [low (8 + (i - 50)) (by omega), decide_eq_false (p := 8 + (i - 50) < 2) (by omega)]
            simp
          · rw [decide_eq_false h4]; simp
      · rw [decide_eq_true (p := 12 ≤ i ∧ i < 50) (by omega),
          decide_eq_false (p := i < 2) (by omega),
          decide_eq_true (p := i < 50) (by omega)]
        simp

theorem sub_table {c : Cpu} {s : Tabs} (hp : Place c s) {t : Nat} (ht : t < s.num) :
    s.sub c (TABLE_DESC ||| BitVec.ofNat 64 (s.addrOf t)) = some t := by
  have h1 : s.addrOf t % 4096 = 0 := by
    have := hp.align; unfold Tabs.addrOf; omega
  have h2 : s.addrOf t < 2 ^ 48 := by
    have := hp.fits; unfold Tabs.addrOf; omega
  unfold Tabs.sub
  rw [getOa_table h1 h2]
  have h3 : (BitVec.ofNat 64 (s.addrOf t)).toNat = s.addrOf t := by
    rw [BitVec.toNat_ofNat]; exact Nat.mod_eq_of_lt (by omega)
  simp only [h3]
  have h4 : s.addrOf t - s.addr = 4096 * t := by unfold Tabs.addrOf; omega
  rw [h4, if_pos]
  · congr 1; omega
  · refine ⟨by unfold Tabs.addrOf; omega, by omega, by omega⟩

theorem isTable_desc (a : Nat) :
    IsTable (TABLE_DESC ||| BitVec.ofNat 64 a) := by
  unfold IsTable
  apply BitVec.eq_of_getLsbD_eq
  intro i hi
  simp only [TABLE_DESC, BitVec.getLsbD_and, BitVec.getLsbD_or, bit_three]
  by_cases h2 : i < 2 <;> simp [h2]

theorem isTable_bit {e : BitVec 64} (h : IsTable e) : e.getLsbD 1 = true := by
  have : (e &&& 3#64).getLsbD 1 = (3#64).getLsbD 1 := by rw [h]
  rw [BitVec.getLsbD_and, bit_three] at this
  simpa using this

theorem not_isTable_zero : ¬ IsTable 0#64 := by decide

theorem mask_zero : (0#64 : BitVec 64) &&& DESC_MASK = INVALID_DESC := by decide

theorem getLsbD_ite (p : Prop) [Decidable p] (a b : BitVec 64) (i : Nat) :
    (if p then a else b).getLsbD i = if p then a.getLsbD i else b.getLsbD i := by
  split <;> rfl

/-- Block and transient descriptors are never taken for table descriptors. -/
theorem xlatDesc_not_table {c : Cpu} {attr : BitVec 64} {pa d : Nat} {v : BitVec 64}
    (hd : d ≠ 0) (h : xlatDesc c attr pa d = .ok v) : ¬ IsTable v := by
  unfold xlatDesc at h
  by_cases h1 : mtType attr = MT_TRANSIENT
  · rw [if_pos h1] at h
    obtain rfl := Except.ok.inj h
    decide
  · rw [if_neg h1] at h
    by_cases h2 : pa % bsz d ≠ 0
    · rw [if_pos h2] at h; cases h
    · rw [if_neg h2] at h
      by_cases h3 : mtType attr ≠ MT_DEVICE ∧ mtType attr ≠ MT_MEMORY
      · rw [if_pos h3] at h; cases h
      · rw [if_neg h3] at h
        obtain rfl := Except.ok.inj h
        intro hT
        have hb := isTable_bit hT
        simp only [BitVec.getLsbD_or, getLsbD_ite, hd, if_false, setOa, BLOCK_DESC,
          BitVec.getLsbD_and, BitVec.getLsbD_shiftLeft, bit_mask48, bit_mask50] at hb
        simp at hb

/-- When a descriptor can be made. -/
theorem xlatDesc_ok {c : Cpu} {attr : BitVec 64} {pa d : Nat}
    (ht : mtType attr = MT_TRANSIENT ∨ mtType attr = MT_DEVICE ∨ mtType attr = MT_MEMORY)
    (hp : mtType attr ≠ MT_TRANSIENT → pa % bsz d = 0) : ∃ v, xlatDesc c attr pa d = .ok v := by
  unfold xlatDesc
  by_cases h1 : mtType attr = MT_TRANSIENT
  · exact ⟨_, if_pos h1⟩
  · rw [if_neg h1, if_neg (by simpa using hp h1), if_neg]
    · exact ⟨_, rfl⟩
    · intro h
      rcases ht with ht | ht | ht
      · exact h1 ht
      · exact h.1 ht
      · exact h.2 ht

end Verif.Xlat
