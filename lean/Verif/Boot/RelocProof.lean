import Verif.Boot.Reloc
import Verif.Mem.CopyProof

/-! Proofs about relocation. -/

namespace Verif.Boot

open Verif.Mem (Addr off_toNat add_ofNat)

/-- Field `j` of entry `i` of the relocation table at `s`: 0 offset, 1 type, 2 addend. -/
def ent (m : W) (s : Addr) (i j : Nat) : BitVec 64 := m (s + BitVec.ofNat 64 (24 * i + 8 * j))

/-- Entry `i` sets the word at `a`. -/
def Hits (m : W) (s base size : BitVec 64) (i : Nat) (a : Addr) : Prop :=
  ent m s i 1 ≠ 0 ∧ ent m s i 2 ≤ size ∧ ent m s i 0 + base = a

/-- Slot `k` of a table of words. -/
def slot (s : Addr) (k : Nat) : Addr := s + BitVec.ofNat 64 (8 * k)

/-- A word of the GOT after relocation. -/
def shifted (base size v : BitVec 64) : BitVec 64 := if v ≤ size then v + base else v

/-- The GOT with `k` slots done. -/
def gotDone (m : W) (s base size : BitVec 64) (k : Nat) : W :=
  fun a => if (a - s).toNat < 8 * k ∧ (a - s).toNat % 8 = 0 then shifted base size (m a) else m a

theorem slot_off (s : Addr) {k : Nat} (h : 8 * k < 2 ^ 64) : (slot s k - s).toNat = 8 * k := off_toNat s h

theorem al8_add {s : Addr} (h : al8 s = true) (k : Nat) (hk : k % 8 = 0) : al8 (s + BitVec.ofNat 64 k) = true := by
  simp only [al8, beq_iff_eq] at h ⊢
  rw [BitVec.toNat_add, BitVec.toNat_ofNat]; omega

theorem gotDone_succ {m : W} {s base size : BitVec 64} {k : Nat} (h : 8 * k + 8 < 2 ^ 64) :
    (if m (slot s k) > size then gotDone m s base size k
      else wput (gotDone m s base size k) (slot s k) (m (slot s k) + base)) = gotDone m s base size (k + 1) := by
  funext a
  have ho := slot_off s (k := k) (by omega)
  by_cases ha : a = slot s k
  · subst ha
    have e1 : gotDone m s base size (k + 1) (slot s k) = shifted base size (m (slot s k)) := by
      unfold gotDone; rw [if_pos (by rw [ho]; omega)]
    have e0 : gotDone m s base size k (slot s k) = m (slot s k) := by
      unfold gotDone; rw [if_neg (by rw [ho]; omega)]
    rw [e1]
    unfold shifted
    by_cases hs : m (slot s k) > size
    · rw [if_pos hs, if_neg (by rw [gt_iff_lt, BitVec.lt_def] at hs; rw [BitVec.le_def]; omega), e0]
    · rw [if_neg hs, if_pos (by rw [gt_iff_lt, BitVec.lt_def] at hs; rw [BitVec.le_def]; omega)]
      simp [wput]
  · have hne : (a - s).toNat ≠ 8 * k := fun e => ha (by rw [slot, ← e, BitVec.ofNat_toNat, BitVec.setWidth_eq]; grind)
    have e1 : gotDone m s base size (k + 1) a = gotDone m s base size k a := by
      unfold gotDone
      by_cases hc : (a - s).toNat < 8 * k ∧ (a - s).toNat % 8 = 0
      · rw [if_pos hc, if_pos (by omega)]
      · rw [if_neg hc, if_neg (by omega)]
    rw [e1]
    by_cases hs : m (slot s k) > size
    · rw [if_pos hs]
    · rw [if_neg hs]; simp [wput, ha]

theorem next_lt {s e : Addr} {n k c : Nat} (he : e = s + BitVec.ofNat 64 (c * n)) (hn : s.toNat + c * n < 2 ^ 64) (hk : k < n)
    (hc : 0 < c) :
    (s + BitVec.ofNat 64 (c * (k + 1)) < e) = (k + 1 < n) := by
  have hle : c * (k + 1) ≤ c * n := Nat.mul_le_mul_left _ hk
  rw [he, BitVec.lt_def, BitVec.toNat_add, BitVec.toNat_add, BitVec.toNat_ofNat, BitVec.toNat_ofNat,
    Nat.mod_eq_of_lt (show c * (k + 1) < 2 ^ 64 by omega), Nat.mod_eq_of_lt (show c * n < 2 ^ 64 by omega),
    Nat.mod_eq_of_lt (by omega), Nat.mod_eq_of_lt (by omega)]
  apply propext
  constructor
  · intro h; exact Nat.lt_of_mul_lt_mul_left (a := c) (by omega)
  · intro h
    have := Nat.mul_lt_mul_of_pos_left h hc
    omega

theorem gotLoop_run {m : W} {s e base size : BitVec 64} {n : Nat} (hs : al8 s = true)
    (he : e = s + BitVec.ofNat 64 (8 * n)) (hn : s.toNat + 8 * n < 2 ^ 64) : ∀ (r k fuel : Nat), k + r = n → 0 < r → r ≤ fuel →
    gotLoop 0 size base e (gotDone m s base size k) (slot s k) fuel = some (gotDone m s base size n)
  | r + 1, k, fuel + 1, hk, _, hf => by
    have ho := slot_off s (k := k) (by omega)
    have e0 : gotDone m s base size k (slot s k) = m (slot s k) := by
      unfold gotDone; rw [if_neg (by rw [ho]; omega)]
    have hal : al8 (slot s k) = true := al8_add hs _ (by omega)
    have hsucc : slot s k + 8 = slot s (k + 1) := add_ofNat s (8 * k) 8
    have hnl : ¬ m (slot s k) < 0 := by
      have h0 : (0 : BitVec 64).toNat = 0 := rfl
      rw [BitVec.lt_def, h0]; omega
    have key : gotOne 0 size base (gotDone m s base size k) (slot s k) = some (gotDone m s base size (k + 1)) := by
      unfold gotOne
      simp only [wld, wst, hal, if_true, e0, Option.bind, if_neg hnl]
      rw [← gotDone_succ (by omega)]; split <;> rfl
    unfold gotLoop
    rw [key]
    simp only [Option.bind, hsucc]
    have hcmp : (slot s (k + 1) < e) = (k + 1 < n) := next_lt he hn (by omega) (by omega)
    by_cases h : k + 1 < n
    · rw [if_pos (by rw [hcmp]; exact h)]
      exact gotLoop_run hs he hn r (k + 1) fuel (by omega) (by omega) (by omega)
    · rw [if_neg (by rw [hcmp]; exact h), show n = k + 1 by omega]

/-- Memory after the first `k` entries, as the table in `t` has them. -/
def relDone (t m : W) (s base size : BitVec 64) : Nat → W
  | 0 => m
  | k + 1 =>
    let m' := relDone t m s base size k
    if ent t s k 1 ≠ 0 ∧ ent t s k 2 ≤ size then wput m' (ent t s k 0 + base) (ent t s k 2 + base) else m'

/-- The word is not in the table. -/
def OffTable (s : Addr) (n : Nat) (a : Addr) : Prop := ∀ i < n, ∀ j < 3, a ≠ s + BitVec.ofNat 64 (24 * i + 8 * j)

theorem relDone_out {t m : W} {s base size : BitVec 64} {n : Nat} (hout : ∀ i < n, ∀ a, Hits t s base size i a → OffTable s n a) :
    ∀ k ≤ n, ∀ i < n, ∀ j < 3, ent (relDone t m s base size k) s i j = ent m s i j
  | 0, _, _, _, _, _ => rfl
  | k + 1, hk, i, hi, j, hj => by
    have ih := relDone_out (m := m) hout k (by omega) i hi j hj
    unfold relDone
    simp only
    split
    · next h =>
      have := hout k (by omega) _ ⟨h.1, h.2, rfl⟩ i hi j hj
      unfold ent at ih ⊢
      unfold wput
      rw [if_neg (fun e => this e.symm)]
      exact ih
    · exact ih

theorem relaLoop_run {t m : W} {s e base size : BitVec 64} {n : Nat} (hs : al8 s = true)
    (he : e = s + BitVec.ofNat 64 (24 * n)) (hn : s.toNat + 24 * n < 2 ^ 64)
    (hty : ∀ i < n, ent t s i 1 = 0 ∨ ent t s i 1 = 1027) (htm : ∀ i < n, ∀ j < 3, ent m s i j = ent t s i j)
    (hal : ∀ i < n, ∀ a, Hits t s base size i a → al8 a = true)
    (hout : ∀ i < n, ∀ a, Hits t s base size i a → OffTable s n a) : ∀ (r k fuel : Nat), k + r = n → 0 < r → r ≤ fuel →
    relaLoop 0 size base e (relDone t m s base size k) (s + BitVec.ofNat 64 (24 * k)) fuel = some (relDone t m s base size n)
  | r + 1, k, fuel + 1, hk, _, hf => by
    have hE : ∀ j < 3, relDone t m s base size k (s + BitVec.ofNat 64 (24 * k) + BitVec.ofNat 64 (8 * j)) = ent t s k j := by
      intro j hj
      rw [add_ofNat, ← htm k (by omega) j hj]
      exact relDone_out hout k (by omega) k (by omega) j hj
    have h0 := hE 0 (by omega)
    have h1 : relDone t m s base size k (s + BitVec.ofNat 64 (24 * k) + 8) = ent t s k 1 := hE 1 (by omega)
    have h2 : relDone t m s base size k (s + BitVec.ofNat 64 (24 * k) + 16) = ent t s k 2 := hE 2 (by omega)
    simp only [Nat.mul_zero, BitVec.add_zero] at h0
    have a0 : al8 (s + BitVec.ofNat 64 (24 * k)) = true := al8_add hs _ (by omega)
    have a1 : al8 (s + BitVec.ofNat 64 (24 * k) + 8) = true := al8_add a0 8 (by omega)
    have a2 : al8 (s + BitVec.ofNat 64 (24 * k) + 16) = true := al8_add a0 16 (by omega)
    have hsucc : s + BitVec.ofNat 64 (24 * k) + 24 = s + BitVec.ofNat 64 (24 * (k + 1)) := add_ofNat s (24 * k) 24
    have hnl : ¬ ent t s k 2 < 0 := by
      have h0 : (0 : BitVec 64).toNat = 0 := rfl
      rw [BitVec.lt_def, h0]; omega
    have key : (if ent t s k 1 = 0 then some (relDone t m s base size k)
        else if ent t s k 1 ≠ 1027 then none
        else if ent t s k 2 > size then some (relDone t m s base size k)
        else wst (relDone t m s base size k) (ent t s k 0 + base) (ent t s k 2 + base)) = some (relDone t m s base size (k + 1)) := by
      have e : relDone t m s base size (k + 1) = if ent t s k 1 ≠ 0 ∧ ent t s k 2 ≤ size then
        wput (relDone t m s base size k) (ent t s k 0 + base) (ent t s k 2 + base) else relDone t m s base size k := rfl
      rw [e]
      by_cases hz : ent t s k 1 = 0
      · rw [if_pos hz, if_neg (by simp [hz])]
      · have h27 := (hty k (by omega)).resolve_left hz
        rw [if_neg hz, if_neg (by simp [h27])]
        by_cases hsz : ent t s k 2 > size
        · rw [if_pos hsz, if_neg (by rw [gt_iff_lt, BitVec.lt_def] at hsz; rw [BitVec.le_def]; omega)]
        · have hle : ent t s k 2 ≤ size := by rw [gt_iff_lt, BitVec.lt_def] at hsz; rw [BitVec.le_def]; omega
          rw [if_neg hsz, if_pos ⟨hz, hle⟩, wst, if_pos (hal k (by omega) _ ⟨hz, hle, rfl⟩)]
    have key' : relaOne 0 size base (relDone t m s base size k) (s + BitVec.ofNat 64 (24 * k)) = some (relDone t m s base size (k + 1)) := by
      rw [← key]
      unfold relaOne
      simp only [wld, a0, a1, a2, if_true, h0, h1, h2, Option.bind, if_neg hnl]
    unfold relaLoop
    rw [key']
    simp only [Option.bind, hsucc]
    have hcmp := next_lt (c := 24) he hn (show k < n by omega) (by omega)
    by_cases h : k + 1 < n
    · rw [if_pos (by rw [hcmp]; exact h)]
      exact relaLoop_run hs he hn hty htm hal hout r (k + 1) fuel (by omega) (by omega) (by omega)
    · rw [if_neg (by rw [hcmp]; exact h), show n = k + 1 by omega]

theorem relDone_miss {t m : W} {s base size : BitVec 64} {a : Addr} : ∀ n, (∀ i < n, ¬ Hits t s base size i a) →
    relDone t m s base size n a = m a
  | 0, _ => rfl
  | n + 1, h => by
    have ih := relDone_miss (m := m) n (fun i hi => h i (by omega))
    unfold relDone
    simp only
    split
    · next hc =>
      unfold wput
      rw [if_neg (fun e => h n (by omega) ⟨hc.1, hc.2, e.symm⟩)]
      exact ih
    · exact ih

theorem relDone_hit {t m : W} {s base size : BitVec 64} {a : Addr} : ∀ n i, i < n → Hits t s base size i a →
    (∀ j < n, i < j → ¬ Hits t s base size j a) → relDone t m s base size n a = ent t s i 2 + base
  | n + 1, i, hi, h, hlast => by
    unfold relDone
    simp only
    by_cases hin : i = n
    · subst hin
      rw [if_pos ⟨h.1, h.2.1⟩]
      unfold wput
      rw [if_pos h.2.2.symm]
    · have ih := relDone_hit (m := m) n i (by omega) h (fun j hj => hlast j (by omega))
      split
      · next hc =>
        unfold wput
        rw [if_neg (fun e => hlast n (by omega) (by omega) ⟨hc.1, hc.2, e.symm⟩)]
        exact ih
      · exact ih

/-- The last entry with a property, if there is one. -/
theorem exists_last (P : Nat → Prop) : ∀ n, (∃ i < n, P i) → ∃ i < n, P i ∧ ∀ j < n, i < j → ¬ P j
  | 0, ⟨_, h, _⟩ => absurd h (by omega)
  | n + 1, ⟨i, hi, hp⟩ => by
    by_cases hn : P n
    · exact ⟨n, by omega, hn, fun j hj hnj => absurd hj (by omega)⟩
    · have hne : i ≠ n := fun e => hn (e ▸ hp)
      obtain ⟨k, hk, hpk, hlast⟩ := exists_last P n ⟨i, by omega, hp⟩
      exact ⟨k, by omega, hpk, fun j hj hkj => if e : j = n then e ▸ hn else hlast j (by omega) hkj⟩

end Verif.Boot
