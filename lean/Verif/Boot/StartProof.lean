import Verif.Boot.Start
import Verif.Boot.RelocProof

/-! Proofs about the start of a CPU. -/

namespace Verif.Boot

open Verif.Mem (Addr)

/-! `mov_imm` -/

/-- The low `n` bits. -/
def low (n : Nat) : BitVec 64 := BitVec.ofNat 64 (2 ^ n - 1)

theorem low_bit (n i : Nat) (hi : i < 64) : (low n).getLsbD i = decide (i < n) := by
  rw [low, BitVec.getLsbD_ofNat, Nat.testBit_two_pow_sub_one]; simp [hi]

theorem field_bit (s i : Nat) (hi : i < 64) :
    ((0xffff : BitVec 64) <<< s).getLsbD i = (decide (s ≤ i) && decide (i < s + 16)) := by
  have h : (0xffff : BitVec 64) = low 16 := by decide
  rw [h, BitVec.getLsbD_shiftLeft]
  by_cases hs : i < s
  · simp [hs, show ¬ s ≤ i by omega]
  · rw [low_bit 16 (i - s) (by omega)]
    simp [hi, hs, show s ≤ i by omega]; omega

theorem part_bit (v : BitVec 64) (s i : Nat) (hi : i < 64) :
    (((v >>> s) &&& 0xffff) <<< s).getLsbD i = (decide (s ≤ i) && decide (i < s + 16) && v.getLsbD i) := by
  have h : (0xffff : BitVec 64) = low 16 := by decide
  rw [h, BitVec.getLsbD_shiftLeft, BitVec.getLsbD_and, BitVec.getLsbD_ushiftRight]
  by_cases hs : i < s
  · simp [hs, show ¬ s ≤ i by omega]
  · rw [low_bit 16 (i - s) (by omega)]
    simp only [hi, hs, show s ≤ i by omega, show s + (i - s) = i by omega, decide_true, decide_false, Bool.true_and, Bool.not_false]
    rw [Bool.and_comm]
    congr 1
    exact decide_eq_decide.2 (by omega)

theorem part_zero {v : BitVec 64} {s : Nat} (h : (v >>> s) &&& 0xffff = 0) : v &&& low (s + 16) = v &&& low s := by
  apply BitVec.eq_of_getLsbD_eq
  intro i hi
  have := part_bit v s i hi
  rw [h] at this
  have hz : ((0 : BitVec 64) <<< s).getLsbD i = false := by simp
  rw [hz] at this
  rw [BitVec.getLsbD_and, BitVec.getLsbD_and, low_bit _ _ hi, low_bit _ _ hi]
  by_cases h1 : i < s
  · simp [h1, show i < s + 16 by omega]
  · by_cases h2 : i < s + 16
    · have : v.getLsbD i = false := by
        simpa [h2, show s ≤ i by omega] using this
      simp [this]
    · simp [h1, h2]

theorem part_nz {v : BitVec 64} {s : Nat} (hs : s + 16 ≤ 64) (h : (v >>> s) &&& 0xffff ≠ 0) : v &&& low (s + 16) ≠ 0 := by
  intro e
  apply h
  apply BitVec.eq_of_getLsbD_eq
  intro i hi
  have hx : (0xffff : BitVec 64) = low 16 := by decide
  rw [BitVec.getLsbD_and, BitVec.getLsbD_ushiftRight, hx, low_bit _ _ hi]
  have hz : (0 : BitVec 64).getLsbD i = false := by simp
  rw [hz]
  by_cases h2 : i < 16
  · have := congrArg (fun b : BitVec 64 => b.getLsbD (s + i)) e
    simp only [BitVec.getLsbD_and, low_bit (s + 16) (s + i) (by omega)] at this
    simpa [show s + i < s + 16 by omega, h2] using this
  · simp [h2]

/-- What the register holds when the low `n` bits have been dealt with. -/
def Upto (r₀ v : BitVec 64) (n : Nat) (r : BitVec 64) : Prop :=
  (v &&& low n = 0 ∧ r = r₀) ∨ (v &&& low n ≠ 0 ∧ r = v &&& low n)

theorem movImm16_step {r₀ v r : BitVec 64} {s : Nat} (hs : s + 16 ≤ 64) (hm : ((1 : BitVec 64) <<< s) - 1 = low s)
    (h : Upto r₀ v s r) : Upto r₀ v (s + 16) (movImm16 r v s) := by
  unfold movImm16
  simp only [hm]
  by_cases hz : (v >>> s) &&& 0xffff = 0
  · rw [if_neg (by simpa using hz)]
    unfold Upto
    rw [part_zero hz]
    exact h
  · rw [if_pos hz]
    right
    refine ⟨part_nz hs hz, ?_⟩
    rcases h with ⟨h0, _⟩ | ⟨h0, hr⟩
    · rw [if_neg (by simpa using h0)]
      apply BitVec.eq_of_getLsbD_eq
      intro i hi
      have hb := congrArg (fun b : BitVec 64 => b.getLsbD i) h0
      simp only [BitVec.getLsbD_and, low_bit _ _ hi] at hb
      rw [BitVec.getLsbD_and, BitVec.getLsbD_and, field_bit _ _ hi, low_bit _ _ hi]
      by_cases h1 : i < s
      · have : v.getLsbD i = false := by simpa [h1] using hb
        simp [this]
      · simp [show s ≤ i by omega]
    · rw [if_pos h0, hr]
      apply BitVec.eq_of_getLsbD_eq
      intro i hi
      rw [BitVec.getLsbD_or, part_bit _ _ _ hi, BitVec.getLsbD_and, BitVec.getLsbD_and, BitVec.getLsbD_not, field_bit _ _ hi,
        BitVec.getLsbD_and, low_bit _ _ hi, low_bit _ _ hi]
      by_cases h1 : i < s
      · simp [h1, hi, show ¬ s ≤ i by omega, show i < s + 16 by omega]
      · by_cases h2 : i < s + 16 <;> simp [h1, h2, hi, show s ≤ i by omega]

/-! Stacks -/

theorem umsubl_toNat {e x : BitVec 64} {n : Nat} (hn : n < 2 ^ 32) (hx : x.toNat < 2 ^ 32) (hle : x.toNat * n ≤ e.toNat) :
    (e - (x.setWidth 32).setWidth 64 * ((BitVec.ofNat 64 n).setWidth 32).setWidth 64).toNat = e.toNat - x.toNat * n := by
  have h1 : ((x.setWidth 32).setWidth 64).toNat = x.toNat := by
    rw [BitVec.toNat_setWidth, BitVec.toNat_setWidth]; omega
  have h2 : (((BitVec.ofNat 64 n).setWidth 32).setWidth 64).toNat = n := by
    rw [BitVec.toNat_setWidth, BitVec.toNat_setWidth, BitVec.toNat_ofNat]; omega
  have hl := e.isLt
  have h3 : ((x.setWidth 32).setWidth 64 * ((BitVec.ofNat 64 n).setWidth 32).setWidth 64).toNat = x.toNat * n := by
    rw [BitVec.toNat_mul, h1, h2]; exact Nat.mod_eq_of_lt (by omega)
  have := e.toNat_sub ((x.setWidth 32).setWidth 64 * ((BitVec.ofNat 64 n).setWidth 32).setWidth 64)
  rw [this, h3]; omega

/-! Starts -/

/-- What holds after any number of starts of CPUs from power-on. -/
structure Inv (c : Cfg) (s : Sys) : Prop where
  clears : s.clears = if s.cold then 0 else 1
  early : s.cold = true → s.ifc = none ∧ s.ready = false
  ready : s.ready = true → s.ifc ≠ none
  args : ∀ v b, s.ifc = some (v, b) → compatible v = true ∧ b ≠ 0 ∧ b &&& 0xfff = 0

theorem inv_init (c : Cfg) : Inv c {} := ⟨rfl, fun _ => ⟨rfl, rfl⟩, fun h => (by cases h), fun _ _ h => (by cases h)⟩

theorem checkArgs_none {c : Cfg} {a : Args} (h : checkArgs c a = none) :
    compatible a.x1 = true ∧ a.x2 ≤ BitVec.ofNat 64 c.cpus ∧ a.x0 < a.x2 ∧ a.x3 ≠ 0 ∧ a.x3 &&& 0xfff = 0 := by
  unfold checkArgs at h
  split at h
  · cases h
  next h1 =>
  split at h
  · cases h
  next h2 =>
  split at h
  · cases h
  next h3 =>
  split at h
  · cases h
  next h4 =>
  refine ⟨by simpa using h1, BitVec.not_lt.1 h2, BitVec.not_le.1 h3, fun e => h4 (.inl e), ?_⟩
  by_cases e : a.x3 &&& 0xfff = 0
  · exact e
  · exact absurd (.inr e) h4

theorem entry_inv {c : Cfg} {se : Addr} {rest : Bool} {s : Sys} (a : Args) (h : Inv c s) : Inv c (entry c se rest s a).1 := by
  unfold entry
  cases hc : s.cold
  · simp only [Bool.false_eq_true, if_false, hc]
    split
    · exact h
    · split <;> exact h
  · simp only [if_true]
    split
    · exact ⟨by simpa [hc] using h.clears, fun _ => h.early hc, h.ready, h.args⟩
    · have h0 : s.clears = 0 := by rw [h.clears, hc]; rfl
      cases hk : checkArgs c a with
      | some e => exact ⟨by simp [h0], fun h => (by cases h), fun h => (by cases h), fun _ _ h => (by cases h)⟩
      | none =>
        obtain ⟨h1, _, _, h4, h5⟩ := checkArgs_none hk
        cases rest
        · exact ⟨by simp [h0], fun h => (by cases h), fun h => (by cases h), fun v b h => by cases h; exact ⟨h1, h4, h5⟩⟩
        · exact ⟨by simp [h0], fun h => (by cases h), fun h => (by simp), fun v b h => by cases h; exact ⟨h1, h4, h5⟩⟩

theorem starts_inv {c : Cfg} {se : Addr} {rest : Bool} : ∀ (as : List Args) {s : Sys}, Inv c s → Inv c (starts c se rest s as).1
  | [], _, h => h
  | a :: as, _, h => starts_inv as (entry_inv a h)

/-- The part of the state that boot fixes. -/
theorem entry_warm {c : Cfg} {se : Addr} {rest : Bool} {s : Sys} (a : Args) (h : s.cold = false) : (entry c se rest s a).1 = s := by
  unfold entry
  simp only [h, Bool.false_eq_true, if_false]
  split
  · rfl
  · split <;> rfl

theorem starts_warm {c : Cfg} {se : Addr} {rest : Bool} : ∀ (as : List Args) {s : Sys}, s.cold = false → (starts c se rest s as).1 = s
  | [], _, _ => rfl
  | a :: as, s, h => by
    have e := entry_warm (c := c) (se := se) (rest := rest) a h
    change (starts c se rest (entry c se rest s a).1 as).1 = s
    rw [e]
    exact starts_warm as h

end Verif.Boot
