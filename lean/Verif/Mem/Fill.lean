import Verif.Mem.Memset
import Verif.Tac

/-! Lemmas about memory filled with one byte. -/

namespace Verif.Mem

/-- Memory with the `n` bytes from `a` set to `b`. -/
def filled (m : Addr → Byte) (a : Addr) (b : Byte) (n : Nat) : Addr → Byte :=
  fun x => if (x - a).toNat < n then b else m x

theorem filled_zero (m : Addr → Byte) (a : Addr) (b : Byte) : filled m a b 0 = m := by
  funext x; simp [filled]

theorem sub_add_toNat (x a : Addr) (n : Nat) :
    (x - (a + BitVec.ofNat 64 n)).toNat = ((x - a).toNat + (2 ^ 64 - n % 2 ^ 64)) % 2 ^ 64 := by
  have : x - (a + BitVec.ofNat 64 n) = (x - a) - BitVec.ofNat 64 n := by
    grind
  rw [this, BitVec.toNat_sub (x - a), BitVec.toNat_ofNat, Nat.add_comm]

theorem filled_add {m : Addr → Byte} {a : Addr} {b : Byte} {n k : Nat} (h : n + k ≤ 2 ^ 64) :
    filled (filled m a b n) (a + BitVec.ofNat 64 n) b k = filled m a b (n + k) := by
  funext x
  have hx := (x - a).isLt
  simp only [filled, sub_add_toNat]
  by_cases h1 : (x - a).toNat < n
  · rw [if_pos h1, if_pos (by omega : (x - a).toNat < n + k)]; simp
  · rw [if_neg h1]
    have e : ((x - a).toNat + (2 ^ 64 - n % 2 ^ 64)) % 2 ^ 64 = (x - a).toNat - n := by omega
    rw [e]
    by_cases h2 : (x - a).toNat < n + k
    · rw [if_pos h2, if_pos (by omega)]
    · rw [if_neg h2, if_neg (by omega)]

theorem wr_filled {m : Addr → Byte} {a : Addr} {b : Byte} {n : Nat} {v : BitVec 64} (h : ∀ i < n, byte v i = b) :
    wr m a n v = filled m a b n := by
  funext x
  simp only [wr, filled]
  split
  · next h1 => exact h _ h1
  · rfl

theorem getLsbD_mask (n w i : Nat) : (BitVec.ofNat n (2 ^ w - 1)).getLsbD i = decide (i < n ∧ i < w) := by
  rw [BitVec.getLsbD_ofNat, Nat.testBit_two_pow_sub_one]
  simp

theorem getLsbD_bfi {n : Nat} (d s : BitVec n) (lsb w i : Nat) (hi : i < n) (hw : lsb + w ≤ n) :
    (bfi d s lsb w).getLsbD i = if lsb ≤ i ∧ i < lsb + w then s.getLsbD (i - lsb) else d.getLsbD i := by
  unfold bfi
  simp only [BitVec.getLsbD_or, BitVec.getLsbD_and, BitVec.getLsbD_not, BitVec.getLsbD_shiftLeft, getLsbD_mask]
  by_cases h1 : lsb ≤ i
  · by_cases h2 : i < lsb + w
    · have h3 : i - lsb < w := by omega
      have h4 : i - lsb < n := by omega
      have h5 : ¬ i < lsb := by omega
      simp [h1, h2, h3, h4, h5, hi]
    · have h3 : ¬ i - lsb < w := by omega
      simp [h1, h2, h3, hi]
  · have h5 : i < lsb := by omega
    simp [h1, h5, hi]

/-- Memory word of one byte repeated. -/
def Rep (v : BitVec 64) (b : Byte) : Prop := ∀ i < 8, byte v i = b

theorem rep_zero {v : BitVec 64} (h : v = 0) : Rep v (byte v 0) := by
  subst h; intro i _; simp [byte]

theorem rep_bfi (v : BitVec 64) :
    Rep (let a := (bfi (v.setWidth 32) (v.setWidth 32) 8 8).setWidth 64
         let b := (bfi (a.setWidth 32) (a.setWidth 32) 16 16).setWidth 64
         bfi b b 32 32) (byte v 0) := by
  intro i hi
  apply BitVec.eq_of_getLsbD_eq
  intro j hj
  simp only [byte, BitVec.getLsbD_extractLsb']
  have h0 : 8 * i + j < 64 := by omega
  rw [getLsbD_bfi _ _ _ _ _ h0 (by omega)]
  have key : ∀ k, k < 32 → (((bfi ((((bfi (v.setWidth 32) (v.setWidth 32) 8 8).setWidth 64 : BitVec 64)).setWidth 32)
      ((((bfi (v.setWidth 32) (v.setWidth 32) 8 8).setWidth 64 : BitVec 64)).setWidth 32) 16 16).setWidth 64 : BitVec 64)).getLsbD k =
      v.getLsbD (k % 8) := by
    intro k hk
    rw [BitVec.getLsbD_setWidth, getLsbD_bfi _ _ _ _ _ hk (by omega)]
    have key2 : ∀ k, k < 16 → ((((bfi (v.setWidth 32) (v.setWidth 32) 8 8).setWidth 64 : BitVec 64)).setWidth 32).getLsbD k =
        v.getLsbD (k % 8) := by
      intro k hk
      rw [BitVec.getLsbD_setWidth, BitVec.getLsbD_setWidth, getLsbD_bfi _ _ _ _ _ (by omega) (by omega)]
      simp only [BitVec.getLsbD_setWidth]
      by_cases h : 8 ≤ k ∧ k < 8 + 8
      · rw [if_pos h]
        have : k % 8 = k - 8 := by omega
        simp [this, show k < 32 by omega, show k < 64 by omega, show k - 8 < 32 by omega]
      · rw [if_neg h]
        have : k % 8 = k := by omega
        simp [this, show k < 32 by omega, show k < 64 by omega]
    by_cases h : 16 ≤ k ∧ k < 16 + 16
    · rw [if_pos h, key2 _ (by omega)]
      have : (k - 16) % 8 = k % 8 := by omega
      simp [this, show k < 64 by omega]
    · rw [if_neg h, key2 _ (by omega)]
      simp [show k < 64 by omega]
  by_cases h : 32 ≤ 8 * i + j ∧ 8 * i + j < 32 + 32
  · rw [if_pos h, key _ (by omega)]
    have : (8 * i + j - 32) % 8 = j := by omega
    simp [this, hj]
  · rw [if_neg h, key _ (by omega)]
    have : (8 * i + j) % 8 = j := by omega
    simp [this, hj]

end Verif.Mem
