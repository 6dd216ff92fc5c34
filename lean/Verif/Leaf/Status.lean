import Verif.Basic
import Verif.Tac

/-!
# C35: return codes

Model of /repo/lib/common/include/status.h.
-/

namespace Verif.Status

/-- `return_code_t`: status.h:24-27. -/
structure ReturnCode where
  status : BitVec 32
  index : BitVec 32
  deriving DecidableEq

/-- `pack_struct_return_code`: status.h:42-45. -/
def packStruct (r : ReturnCode) : BitVec 64 :=
  (r.index.setWidth 64 <<< 8) ||| r.status.setWidth 64

/-- `pack_return_code`: status.h:51-58.  `none` is the failing assertion
`status < RMI_ERROR_COUNT_MAX` (8, /repo/lib/smc/include/smc-rmi.h). -/
def pack (status : BitVec 32) (index : BitVec 8) : Option (BitVec 64) :=
  if status < 8 then some (packStruct ⟨status, index.setWidth 32⟩) else none

/-- `unpack_return_code`: status.h:63-67. -/
def unpack (e : BitVec 64) : ReturnCode :=
  ⟨e.setWidth 32 &&& 0xff, e.setWidth 32 >>> 8⟩

/-- C35: unpacking gives back the pair, for every 8-bit status and every index
that fits the 24 bits the packed format leaves for it. -/
theorem C35_roundtrip_struct (r : ReturnCode) (hs : r.status < 256) (hi : r.index < 0x1000000) :
    unpack (packStruct r) = r := by
  obtain ⟨s, i⟩ := r
  simp only [unpack, packStruct, ReturnCode.mk.injEq]
  have hs' : s.toNat < 256 := by simpa [BitVec.lt_def] using hs
  have hi' : i.toNat < 2 ^ 24 := by simpa [BitVec.lt_def] using hi
  have hsb : ∀ k, 8 ≤ k → s.getLsbD k = false := fun k hk => by
    rw [BitVec.getLsbD]; exact Nat.testBit_lt_two_pow (Nat.lt_of_lt_of_le hs'
      (Nat.pow_le_pow_right (by omega) hk : 2 ^ 8 ≤ 2 ^ k))
  have hib : ∀ k, 24 ≤ k → i.getLsbD k = false := fun k hk => by
    rw [BitVec.getLsbD]; exact Nat.testBit_lt_two_pow (Nat.lt_of_lt_of_le hi'
      (Nat.pow_le_pow_right (by omega) hk))
  have hff : ∀ k : Fin 32, (255#32).getLsbD k = decide (k.val < 8) := by decide
  constructor
  · apply BitVec.eq_of_getLsbD_eq
    intro k hk
    have := hff ⟨k, hk⟩
    simp only at this
    simp only [BitVec.getLsbD_and, BitVec.getLsbD_setWidth, BitVec.getLsbD_or,
      BitVec.getLsbD_shiftLeft, BitVec.ofNat_eq_ofNat, this]
    by_cases h8 : k < 8
    · have h32 : k < 32 := hk
      simp only [h8, h32, decide_true, Bool.and_true, Bool.true_and, Bool.not_true, Bool.and_false,
        Bool.false_and, Bool.false_or, show k < 64 by omega]
    · simp [h8, hsb k (by omega)]
  · apply BitVec.eq_of_getLsbD_eq
    intro k hk
    simp only [BitVec.getLsbD_ushiftRight, BitVec.getLsbD_setWidth, BitVec.getLsbD_or,
      BitVec.getLsbD_shiftLeft]
    by_cases h24 : k < 24
    · have a1 := hsb (8 + k) (by omega)
      have a2 : 8 + k < 32 := by omega
      have a3 : 8 + k < 64 := by omega
      have a4 : ¬ 8 + k < 8 := by omega
      simp only [a1, a2, a3, a4, Nat.add_sub_cancel_left, decide_true, decide_false, Bool.true_and,
        Bool.not_false, Bool.and_true, Bool.or_false, Bool.and_false, show k < 64 by omega]
    · rw [hib k (by omega)]
      simp [show ¬ 8 + k < 32 by omega]

/-- C35: for every return code a command can build, unpacking returns the status
and the index. -/
theorem C35_roundtrip (status : BitVec 32) (index : BitVec 8) (e : BitVec 64)
    (h : pack status index = some e) :
    unpack e = ⟨status, index.setWidth 32⟩ := by
  unfold pack at h
  split at h
  · rename_i hs
    rw [← Option.some.inj h]
    apply C35_roundtrip_struct
    · simp only [BitVec.lt_def] at hs ⊢
      exact Nat.lt_trans hs (by decide)
    · simp only [BitVec.lt_def, BitVec.toNat_setWidth]
      have := index.isLt
      rw [Nat.mod_eq_of_lt (by omega)]
      exact Nat.lt_trans this (by decide)
  · simp at h

/-- C35: different (status, index) pairs never share a code. -/
theorem C35_injective (s s' : BitVec 32) (i i' : BitVec 8) (e : BitVec 64)
    (h : pack s i = some e) (h' : pack s' i' = some e) : s = s' ∧ i = i' := by
  have a := C35_roundtrip s i e h
  have b := C35_roundtrip s' i' e h'
  rw [a] at b
  have hi := congrArg ReturnCode.index b
  refine ⟨congrArg ReturnCode.status b, ?_⟩
  apply BitVec.eq_of_toNat_eq
  have := congrArg BitVec.toNat hi
  simp only [BitVec.toNat_setWidth] at this
  have h1 := i.isLt
  have h2 := i'.isLt
  rw [Nat.mod_eq_of_lt (by omega), Nat.mod_eq_of_lt (by omega)] at this
  exact this

/-- C35: RMI_SUCCESS (0) is the only code with value 0 in its status byte, so the
host can test success by comparing the register with zero when the index is zero. -/
theorem C35_success_iff_zero (s : BitVec 32) (i : BitVec 8) (e : BitVec 64)
    (h : pack s i = some e) : e = 0 ↔ s = 0 ∧ i = 0 := by
  constructor
  · intro h0
    subst h0
    have h00 : pack 0 0 = some (0 : BitVec 64) := by decide
    exact C35_injective _ _ _ _ _ h h00
  · rintro ⟨rfl, rfl⟩
    have h00 : pack 0 0 = some (0 : BitVec 64) := by decide
    rw [h00] at h; exact (Option.some.inj h).symm

/-- C35: a code is built for the eight statuses of the interface, RMI_SUCCESS to
RMI_ERROR_RTT_AUX (smc-rmi.h:45-82), and for no other. -/
theorem C35_defined_iff (s : BitVec 32) (i : BitVec 8) : (∃ e, pack s i = some e) ↔ s.toNat ≤ 7 := by
  unfold pack
  have h8 : s < 8 ↔ s.toNat < 8 := by rw [BitVec.lt_def]; exact Iff.rfl
  by_cases h : s < 8
  · rw [if_pos h]; have := h8.mp h; exact ⟨fun _ => by omega, fun _ => ⟨_, rfl⟩⟩
  · rw [if_neg h]; have := mt h8.mpr h; simp; omega

/-- `pack_return_code(RMI_ERROR_RTT, 3)` exists and is 0x304. -/
example : pack 4 3 = some 0x304 := by decide

end Verif.Status
