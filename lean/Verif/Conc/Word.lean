import Verif.Basic

/-!
# The 16-bit granule descriptor

/repo/lib/granule/include/granule_types.h:196-250: bit 15 is the lock, bits 14:10 the
state, bits 9:0 the reference count.  The operations are single atomic instructions on the
whole word.
-/

namespace Verif.Conc

abbrev Desc := BitVec 16

/-- `LOCKED(g)` -/
def locked (w : Desc) : Bool := w.getLsbD 15

/-- `STATE(g)` -/
def stateOf (w : Desc) : BitVec 5 := w.extractLsb' 10 5

/-- `REFCOUNT(g)` -/
def countOf (w : Desc) : BitVec 10 := w.extractLsb' 0 10

/-- `ldsetah` of granule_bitlock_acquire: /repo/lib/granule/include/aarch64/granule_lock.h:11-31.
The old value decides whether the lock was obtained. -/
def ldset (w : Desc) : Desc := w ||| 0x8000#16

/-- `stclrlh` of granule_bitlock_release: granule_lock.h:33-46. -/
def stclr (w : Desc) : Desc := w &&& 0x7fff#16

/-- `val` computed by `granule_set_state` from a read `w` of the descriptor:
/repo/lib/granule/include/granule.h:143-159. -/
def eorVal (w : Desc) (st : BitVec 5) : Desc := (w &&& 0x7c00#16) ^^^ (st.zeroExtend 16 <<< 10)

/-- `atomic_load_add_16` as used by `granule_refcount_inc`, `granule_refcount_dec` and
`atomic_granule_put_release`: granule.h:234-241, 258-268, 284-292. -/
def addCount (w : Desc) (n : Desc) : Desc := w + n

theorem locked_ldset (w : Desc) : locked (ldset w) = true := by
  simp [locked, ldset]

theorem locked_stclr (w : Desc) : locked (stclr w) = false := by
  simp [locked, stclr]

theorem bit15 (w : Desc) : locked w = decide (32768 ≤ w.toNat) := by
  have h := w.isLt
  simp only [locked, BitVec.getLsbD, Nat.testBit, Nat.shiftRight_eq_div_pow]
  by_cases hw : 32768 ≤ w.toNat
  · have : w.toNat / 2 ^ 15 = 1 := by omega
    simp [this, hw]
  · have : w.toNat / 2 ^ 15 = 0 := by omega
    simp [this, hw]

theorem toNat_countOf (w : Desc) : (countOf w).toNat = w.toNat % 1024 := by
  simp [countOf, BitVec.extractLsb'_toNat]

theorem toNat_stateOf (w : Desc) : (stateOf w).toNat = w.toNat / 1024 % 32 := by
  simp [stateOf, BitVec.extractLsb'_toNat, Nat.shiftRight_eq_div_pow]

theorem stateOf_ldset (w : Desc) : stateOf (ldset w) = stateOf w := by
  apply BitVec.eq_of_getLsbD_eq
  intro i hi
  have : ∀ k : Fin 5, (0x8000#16).getLsbD (10 + k.val) = false := by decide
  simp [stateOf, ldset, BitVec.getLsbD_extractLsb', this ⟨i, hi⟩]

theorem countOf_ldset (w : Desc) : countOf (ldset w) = countOf w := by
  apply BitVec.eq_of_getLsbD_eq
  intro i hi
  have : ∀ k : Fin 10, (0x8000#16).getLsbD k.val = false := by decide
  simp [countOf, ldset, BitVec.getLsbD_extractLsb', this ⟨i, hi⟩]

theorem stateOf_stclr (w : Desc) : stateOf (stclr w) = stateOf w := by
  apply BitVec.eq_of_getLsbD_eq
  intro i hi
  have : ∀ k : Fin 5, (0x7fff#16).getLsbD (10 + k.val) = true := by decide
  simp [stateOf, stclr, BitVec.getLsbD_extractLsb', this ⟨i, hi⟩]

theorem countOf_stclr (w : Desc) : countOf (stclr w) = countOf w := by
  apply BitVec.eq_of_getLsbD_eq
  intro i hi
  have : ∀ k : Fin 10, (0x7fff#16).getLsbD k.val = true := by decide
  simp [countOf, stclr, BitVec.getLsbD_extractLsb', this ⟨i, hi⟩]

/-- If the state has not changed since it was read, the exclusive or stores the new
state and touches nothing else. -/
theorem eor_state (w r : Desc) (st : BitVec 5) (h : stateOf r = stateOf w) :
    stateOf (w ^^^ eorVal r st) = st ∧ countOf (w ^^^ eorVal r st) = countOf w ∧
      locked (w ^^^ eorVal r st) = locked w := by
  have hm : ∀ k : Fin 5, (0x7c00#16).getLsbD (10 + k.val) = true := by decide
  have hm0 : ∀ k : Fin 10, (0x7c00#16).getLsbD k.val = false := by decide
  refine ⟨?_, ?_, ?_⟩
  · apply BitVec.eq_of_getLsbD_eq
    intro i hi
    have hr : r.getLsbD (10 + i) = w.getLsbD (10 + i) := by
      have := congrArg (fun v => v.getLsbD i) h
      simpa [stateOf, BitVec.getLsbD_extractLsb', hi] using this
    simp only [stateOf, eorVal, BitVec.getLsbD_extractLsb', BitVec.getLsbD_xor, BitVec.getLsbD_and,
      hm ⟨i, hi⟩, hr, BitVec.getLsbD_shiftLeft, BitVec.zeroExtend, BitVec.getLsbD_setWidth]
    have h1 : 10 + i < 16 := by omega
    have h2 : 10 + i - 10 = i := by omega
    have h3 : i < 16 := by omega
    have h4 : ¬ (10 + i < 10) := by omega
    simp [hi, h1, h2, h3, h4]
  · apply BitVec.eq_of_getLsbD_eq
    intro i hi
    simp only [countOf, eorVal, BitVec.getLsbD_extractLsb', BitVec.getLsbD_xor, BitVec.getLsbD_and,
      Nat.zero_add, hm0 ⟨i, hi⟩, BitVec.getLsbD_shiftLeft, BitVec.zeroExtend, BitVec.getLsbD_setWidth]
    simp [hi]
  · have : (0x7c00#16).getLsbD 15 = false := by decide
    simp only [locked, eorVal, BitVec.getLsbD_xor, BitVec.getLsbD_and, this,
      BitVec.getLsbD_shiftLeft, BitVec.zeroExtend, BitVec.getLsbD_setWidth]
    simp

/-- Adding to the count does not touch the rest if the sum fits (granule.h:240). -/
theorem inc_count (w : Desc) (n : Nat) (h : (countOf w).toNat + n ≤ 1023) :
    (countOf (addCount w (BitVec.ofNat 16 n))).toNat = (countOf w).toNat + n ∧
      stateOf (addCount w (BitVec.ofNat 16 n)) = stateOf w ∧
      locked (addCount w (BitVec.ofNat 16 n)) = locked w := by
  have hw := w.isLt
  rw [toNat_countOf] at *
  have hs : (addCount w (BitVec.ofNat 16 n)).toNat = w.toNat + n := by
    simp only [addCount, BitVec.toNat_add, BitVec.toNat_ofNat]; omega
  refine ⟨by rw [toNat_countOf, hs]; omega, ?_, ?_⟩
  · apply BitVec.eq_of_toNat_eq; rw [toNat_stateOf, toNat_stateOf, hs]; omega
  · rw [bit15, bit15, hs]
    congr 1
    apply propext
    omega

/-- Subtracting from the count does not touch the rest if the count is large enough
(granule.h:267, 291). -/
theorem dec_count (w : Desc) (n : Nat) (h : n ≤ (countOf w).toNat) :
    (countOf (addCount w (-BitVec.ofNat 16 n))).toNat = (countOf w).toNat - n ∧
      stateOf (addCount w (-BitVec.ofNat 16 n)) = stateOf w ∧
      locked (addCount w (-BitVec.ofNat 16 n)) = locked w := by
  have hw := w.isLt
  rw [toNat_countOf] at *
  have hs : (addCount w (-BitVec.ofNat 16 n)).toNat = w.toNat - n := by
    simp only [addCount, BitVec.toNat_add, BitVec.toNat_neg, BitVec.toNat_ofNat]; omega
  refine ⟨by rw [toNat_countOf, hs]; omega, ?_, ?_⟩
  · apply BitVec.eq_of_toNat_eq; rw [toNat_stateOf, toNat_stateOf, hs]; omega
  · rw [bit15, bit15, hs]
    congr 1
    apply propext
    omega

/-- Without the condition the lock bit is disturbed: dropping a reference that is not
there, on a granule in state NS, sets it. -/
example : locked (addCount 0#16 (-1#16)) = true := by decide

end Verif.Conc
