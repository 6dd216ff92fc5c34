import Verif.Xlat.Mmu

/-
Lemmas for C72: the values the start-up code leaves in the registers, the
fields the processor finds in them, and the walk down to the last descriptor.
-/
namespace Verif.Xlat

open Spec (bits)

/-! ### The registers written -/

theorem paWidthOf_ok {x : BitVec 64} {w : Nat} (h : paWidthOf x = .ok w) :
    w = 32 ∨ w = 36 ∨ w = 40 ∨ w = 42 ∨ w = 44 ∨ w = 48 ∨ w = 52 := by
  unfold paWidthOf at h
  split at h
  · rename_i v hv
    obtain rfl := Except.ok.inj h
    have := List.mem_of_getElem? hv
    simpa using this
  · cases h

theorem psBits_ok {l : Bool} {w : Nat} {ps : BitVec 64}
    (hw : w = 32 ∨ w = 36 ∨ w = 40 ∨ w = 42 ∨ w = 44 ∨ w = 48 ∨ w = 52)
    (h : psBits l ((1#64 <<< w) - 1#64) = some ps) :
    ∃ n, n < 7 ∧ ps = BitVec.ofNat 64 n <<< 32 ∧ Spec.psWidth l n = w ∧ w ≤ (if l then 52 else 48) := by
  cases l
  · rcases hw with rfl | rfl | rfl | rfl | rfl | rfl | rfl
    · exact ⟨0, by decide, (Option.some.inj h).symm, rfl, by decide⟩
    · exact ⟨1, by decide, (Option.some.inj h).symm, rfl, by decide⟩
    · exact ⟨2, by decide, (Option.some.inj h).symm, rfl, by decide⟩
    · exact ⟨3, by decide, (Option.some.inj h).symm, rfl, by decide⟩
    · exact ⟨4, by decide, (Option.some.inj h).symm, rfl, by decide⟩
    · exact ⟨5, by decide, (Option.some.inj h).symm, rfl, by decide⟩
    · cases h
  · rcases hw with rfl | rfl | rfl | rfl | rfl | rfl | rfl
    · exact ⟨0, by decide, (Option.some.inj h).symm, rfl, by decide⟩
    · exact ⟨1, by decide, (Option.some.inj h).symm, rfl, by decide⟩
    · exact ⟨2, by decide, (Option.some.inj h).symm, rfl, by decide⟩
    · exact ⟨3, by decide, (Option.some.inj h).symm, rfl, by decide⟩
    · exact ⟨4, by decide, (Option.some.inj h).symm, rfl, by decide⟩
    · exact ⟨5, by decide, (Option.some.inj h).symm, rfl, by decide⟩
    · exact ⟨6, by decide, (Option.some.inj h).symm, rfl, by decide⟩

/-- What a successful `xlat_arch_setup_mmu_cfg` returns. -/
theorem setupMmuCfg_ok {x : BitVec 64} {i high : Bool} {vaSize addr : Nat} {cfg : MmuCfg}
    (h : setupMmuCfg x i high vaSize addr = .ok cfg) :
    granule4k x = true ∧ i = true ∧ ∃ w n, paWidthOf x = .ok w ∧ n < 7 ∧
      psBits (lpa2Present x) ((1#64 <<< w) - 1#64) = some (BitVec.ofNat 64 n <<< 32) ∧
      Spec.psWidth (lpa2Present x) n = w ∧ w ≤ (if lpa2Present x then 52 else 48) ∧
      cfg = { high := high, mair := mairVal
              tcr := tcrBase (lpa2Present x) high ||| BitVec.ofNat 64 n <<< 32
              txsz := BitVec.ofNat 64 (txsz vaSize)
              ttbrx := if high then (BitVec.ofNat 64 addr &&& 0x0000FFFFFFFFFFFE#64) &&& ~~~ 1#64
                else (BitVec.ofNat 64 addr &&& 0x0000FFFFFFFFFFFE#64) ||| 1#64 } := by
  unfold setupMmuCfg at h
  cases hg : granule4k x with
  | false => rw [hg, if_pos rfl] at h; cases h
  | true =>
  rw [hg, if_neg (by decide)] at h
  cases i with
  | false => rw [if_pos rfl] at h; cases h
  | true =>
  rw [if_neg (by decide)] at h
  cases hw : paWidthOf x with
  | error e => rw [hw] at h; cases h
  | ok w =>
  rw [hw] at h
  simp only at h
  cases hps : psBits (lpa2Present x) ((1#64 <<< w) - 1#64) with
  | none => rw [hps] at h; cases h
  | some ps =>
  rw [hps] at h
  simp only at h
  obtain ⟨n, h1, h2, h3, h4⟩ := psBits_ok (paWidthOf_ok hw) hps
  refine ⟨rfl, rfl, w, n, rfl, h1, by rw [hps, h2], h3, h4, ?_⟩
  rw [← Except.ok.inj h, h2]

theorem bits_or (a b : BitVec 64) (lo w : Nat) (h : bits b lo w = 0) :
    bits (a ||| b) lo w = bits a lo w := by
  unfold Spec.bits at *
  rw [BitVec.toNat_or]
  simp only [← Nat.shiftRight_eq_div_pow] at *
  rw [Nat.shiftRight_or_distrib]
  apply Nat.eq_of_testBit_eq
  intro i
  have hz := congrArg (fun n => n.testBit i) h
  simp only [Nat.testBit_mod_two_pow, Nat.zero_testBit] at hz ⊢
  rw [Nat.testBit_or, Bool.and_or_distrib_left, hz, Bool.or_false]

theorem extract_toNat (r : BitVec 64) (lo w : Nat) (hw : w < 64) :
    (extract r lo w).toNat = bits r lo w := by
  unfold extract Spec.bits
  have : 2 ^ w - 1 < 2 ^ 64 := Nat.lt_of_le_of_lt (Nat.sub_le _ _) (Nat.pow_lt_pow_right (by decide) hw)
  rw [BitVec.toNat_and, BitVec.toNat_ushiftRight, BitVec.toNat_ofNat, Nat.mod_eq_of_lt this,
    Nat.and_two_pow_sub_one_eq_mod, Nat.shiftRight_eq_div_pow]

theorem bits_lt (r : BitVec 64) (lo w : Nat) : bits r lo w < 2 ^ w := Nat.mod_lt _ (Nat.pow_pos (by decide))

/-- T0SZ survives the second write whatever T1SZ was before the first. -/
theorem t0sz_kept (l : Bool) (n t u : Nat) (hn : n < 7) (ht : t < 64) (hu : u < 64) :
    bits (tcrBase l false ||| BitVec.ofNat 64 n <<< 32 ||| BitVec.ofNat 64 t <<< 0 |||
      BitVec.ofNat 64 u <<< 16) 0 6 = t := by
  rw [bits_or _ (BitVec.ofNat 64 u <<< 16) 0 6]
  · have key : ∀ l : Bool, ∀ n < 7, ∀ t < 64,
        bits (tcrBase l false ||| BitVec.ofNat 64 n <<< 32 ||| BitVec.ofNat 64 t <<< 0) 0 6 = t := by
      decide +kernel
    exact key l n hn t ht
  · have key : ∀ u < 64, bits (BitVec.ofNat 64 u <<< 16) 0 6 = 0 := by decide +kernel
    exact key u hu

/-- TCR_EL2 as left by the start-up code. -/
def tcrFinal (l : Bool) (n t : Nat) : BitVec 64 :=
  tcrBase l true ||| BitVec.ofNat 64 n <<< 32 ||| BitVec.ofNat 64 t <<< 0 ||| 43#64 <<< 16

theorem tcr_fields : ∀ l : Bool, ∀ n < 7, ∀ t < 64,
    bits (tcrFinal l n t) 0 6 = t ∧ bits (tcrFinal l n t) 16 6 = 43 ∧
    bits (tcrFinal l n t) 14 2 = 0 ∧ bits (tcrFinal l n t) 30 2 = 2 ∧
    bits (tcrFinal l n t) 12 2 = 3 ∧ bits (tcrFinal l n t) 28 2 = 3 ∧
    bits (tcrFinal l n t) 7 1 = 0 ∧ bits (tcrFinal l n t) 23 1 = 0 ∧
    bits (tcrFinal l n t) 37 1 = 0 ∧ bits (tcrFinal l n t) 38 1 = 0 ∧
    bits (tcrFinal l n t) 41 1 = 1 ∧ bits (tcrFinal l n t) 42 1 = 1 ∧
    bits (tcrFinal l n t) 59 1 = l.toNat ∧ bits (tcrFinal l n t) 32 3 = n := by
  decide +kernel

theorem txsz_high : txsz HIGH_VA_SIZE = 43 := by decide

/-- All registers as left by the start-up code. -/
def finalRegs (l : Bool) (n t lowAddr hiAddr : Nat) (a : Bool) (bc : Boot.Cfg) : Regs :=
  { mair := mairVal
    tcr := tcrFinal l n t
    ttbr0 := (BitVec.ofNat 64 lowAddr &&& 0x0000FFFFFFFFFFFE#64) ||| 1#64
    ttbr1 := (BitVec.ofNat 64 hiAddr &&& 0x0000FFFFFFFFFFFE#64) &&& ~~~ 1#64
    hcr := (1#64 <<< 27) ||| (1#64 <<< 34) ||| (1#64 <<< 37) ||| (1#64 <<< 31)
    sctlr := SCTLR_EL2_INIT a ||| ((1#64 <<< 19) ||| 1#64)
    sp := Boot.stackEndVa
    spEl0 := Boot.ehEndVa bc }

/-- The registers after a successful start of one processing element. -/
theorem startPe_ok {x : BitVec 64} {c : Cpu} {bc : Boot.Cfg} {a : Bool}
    {vaSize lowAddr stackPa ehPa hiAddr : Nat} {prev : Option Tabs}
    {old : Nat → Nat → BitVec 64} {r r' : Regs} {s : Tabs} (htx : txsz vaSize < 64)
    (h : startPe x c bc a vaSize lowAddr stackPa ehPa hiAddr prev old r = .ok (r', s)) :
    granule4k x = true ∧ ∃ w n, paWidthOf x = .ok w ∧
      (n < 7 ∧ psBits (lpa2Present x) ((1#64 <<< w) - 1#64) = some (BitVec.ofNat 64 n <<< 32)) ∧
      Spec.psWidth (lpa2Present x) n = w ∧
      w ≤ (if lpa2Present x then 52 else 48) ∧
      (match prev with
        | some s' => s' = s
        | none => setup c true (highRegions bc stackPa ehPa) HIGH_VA_SIZE hiAddr 1 old = .ok s) ∧
      r' = finalRegs (lpa2Present x) n (txsz vaSize) lowAddr hiAddr a bc := by
  unfold startPe warmSetup at h
  have hm : ∀ a, (SCTLR_EL2_INIT a) &&& 1#64 = 0#64 := by decide
  cases h1 : setupMmuCfg x true false vaSize lowAddr with
  | error e => rw [h1] at h; cases h
  | ok low =>
  obtain ⟨g1, _, w, n, g2, g3, gp, g4, g5, rfl⟩ := setupMmuCfg_ok h1
  cases h2 : setupMmuCfg x true true HIGH_VA_SIZE hiAddr with
  | error e =>
    rw [h1, h2] at h
    cases prev with
    | some s' => simp [writeMmuCfg, initEnv, hm, bind, Except.bind, pure, Except.pure] at h
    | none =>
      cases hs : setup c true (highRegions bc stackPa ehPa) HIGH_VA_SIZE hiAddr 1 old <;>
        simp [hs, writeMmuCfg, initEnv, hm, bind, Except.bind] at h
  | ok hi =>
  obtain ⟨_, _, w', n', g2', g3', gp', g4', _, rfl⟩ := setupMmuCfg_ok h2
  have hww : w' = w := by
    rw [g2] at g2'; exact (Except.ok.inj g2').symm
  subst hww
  have hnn : n' = n := by
    rw [gp] at gp'
    have : ∀ a < 7, ∀ b < 7, BitVec.ofNat 64 a <<< 32 = BitVec.ofNat 64 b <<< 32 → b = a := by decide
    exact this n g3 n' g3' (Option.some.inj gp')
  subst hnn
  refine ⟨g1, w', n', g2, ⟨g3, gp⟩, g4, g5, ?_⟩
  rw [h1, h2] at h
  have hT : extract (tcrBase (lpa2Present x) false ||| BitVec.ofNat 64 n' <<< 32 |||
      BitVec.ofNat 64 (txsz vaSize) <<< 0 ||| extract r.tcr 16 6 <<< 16) 0 6 =
      BitVec.ofNat 64 (txsz vaSize) := by
    apply BitVec.eq_of_toNat_eq
    rw [extract_toNat _ _ _ (by decide), BitVec.toNat_ofNat, Nat.mod_eq_of_lt (by omega)]
    have hu := bits_lt r.tcr 16 6
    rw [← extract_toNat _ _ _ (by decide)] at hu
    have := t0sz_kept (lpa2Present x) n' (txsz vaSize) (extract r.tcr 16 6).toNat g3 htx hu
    rwa [BitVec.ofNat_toNat, BitVec.setWidth_eq] at this
  cases prev with
  | some s' =>
    simp only [writeMmuCfg, initEnv, hm, bind, Except.bind, pure, Except.pure, enableMmu, ne_eq,
      not_true_eq_false, if_false, if_true, Bool.false_eq_true, hT] at h
    obtain ⟨h3, h4⟩ := Prod.mk.inj (Except.ok.inj h)
    exact ⟨h4, h3.symm⟩
  | none =>
    cases hs : setup c true (highRegions bc stackPa ehPa) HIGH_VA_SIZE hiAddr 1 old with
    | error e =>
      simp [hs, writeMmuCfg, initEnv, hm, bind, Except.bind] at h
    | ok s' =>
      simp only [hs, writeMmuCfg, initEnv, hm, bind, Except.bind, pure, Except.pure, enableMmu,
        ne_eq, not_true_eq_false, if_false, if_true, Bool.false_eq_true, hT] at h
      obtain ⟨h3, h4⟩ := Prod.mk.inj (Except.ok.inj h)
      exact ⟨by rw [h4], h3.symm⟩

/-! ### The table base -/

theorem mask_addr {a : Nat} (h : a % 4096 = 0) (hb : a < 2 ^ 48) :
    BitVec.ofNat 64 a &&& 0x0000FFFFFFFFFFFE#64 = BitVec.ofNat 64 a := by
  have low := ofNat_low h
  have high := ofNat_high hb
  apply BitVec.eq_of_getLsbD_eq
  intro i hi
  rw [BitVec.getLsbD_and]
  have key : ∀ k : Fin 64, (0x0000FFFFFFFFFFFE#64).getLsbD k = decide (1 ≤ k.val ∧ k.val < 48) := by
    decide
  have hk := key ⟨i, hi⟩
  simp only at hk
  rw [hk]
  by_cases h1 : i < 1
  · rw [low i (by omega), Bool.false_and]
  · by_cases h2 : i < 48
    · rw [decide_eq_true ⟨by omega, h2⟩, Bool.and_true]
    · rw [high i (by omega), Bool.false_and]

theorem mask_bit0 {a : Nat} (h : a % 4096 = 0) :
    BitVec.ofNat 64 a &&& ~~~ 1#64 = BitVec.ofNat 64 a := by
  have low := ofNat_low h
  apply BitVec.eq_of_getLsbD_eq
  intro i hi
  rw [BitVec.getLsbD_and, BitVec.getLsbD_not]
  by_cases h1 : i = 0
  · rw [low i (by omega), Bool.false_and]
  · have key : ∀ k : Fin 64, k.val ≠ 0 → (1#64).getLsbD k = false := by decide
    rw [key ⟨i, hi⟩ h1, decide_eq_true hi]
    simp

theorem bits_one (lo w : Nat) (h : 1 ≤ lo) : bits 1#64 lo w = 0 := by
  unfold Spec.bits
  rw [show (1#64).toNat = 1 from rfl, Nat.div_eq_of_lt (Nat.one_lt_two_pow (by omega)), Nat.zero_mod]

/-- Both table registers hold the address of the first table. -/
theorem base_bits {a x : Nat} (h : a % 4096 = 0) (hb : a < 2 ^ 48) (hx : x ≤ 12) :
    bits (BitVec.ofNat 64 a) x (48 - x) * 2 ^ x = a ∧ bits (BitVec.ofNat 64 a) 2 4 = 0 := by
  unfold Spec.bits
  rw [BitVec.toNat_ofNat, Nat.mod_eq_of_lt (show a < 2 ^ 64 by omega)]
  constructor
  · have hd : 2 ^ x ∣ a := Nat.dvd_trans (Nat.pow_dvd_pow 2 hx) (Nat.dvd_of_mod_eq_zero h)
    rw [Nat.mod_eq_of_lt, Nat.div_mul_cancel hd]
    apply Nat.div_lt_of_lt_mul
    rw [← Nat.pow_add, show x + (48 - x) = 48 by omega]
    exact hb
  · omega

/-- The processor with these registers walks the table of the half the address
is in, with the geometry the builder assumed. -/
theorem stage1_eq {l : Bool} {n t lowAddr hiAddr : Nat} {a : Bool} {bc : Boot.Cfg} {w va : Nat}
    {m : Nat → BitVec 64} (hn : n < 7) (hw : Spec.psWidth l n = w)
    (ht : (if l then 12 else 16) ≤ t ∧ t ≤ 48) (hl : lowAddr % 4096 = 0 ∧ lowAddr < 2 ^ 48)
    (hh : hiAddr % 4096 = 0 ∧ hiAddr < 2 ^ 48) (hi : Bool) (hhi : decide (va / 2 ^ 55 % 2 = 1) = hi)
    (k : Nat) (hk : k = 64 - (if hi then 43 else t)) :
    Spec.stage1 w (finalRegs l n t lowAddr hiAddr a bc) m va =
      if (if hi then 2 ^ 64 - 2 ^ k ≤ va else va < 2 ^ k) then
        match Spec.walkWord l (fun a => if a < 2 ^ w then m a else 0#64) va ((k - 13) / 9)
            (if hi then hiAddr else lowAddr) (va % 2 ^ k / 2 ^ (12 + 9 * ((k - 13) / 9))) with
        | none => .fault
        | some (n, e) =>
          if Spec.outAddr l e / 2 ^ (12 + 9 * n) * 2 ^ (12 + 9 * n) + va % 2 ^ (12 + 9 * n) < 2 ^ w then
            .ok (Spec.outAddr l e / 2 ^ (12 + 9 * n) * 2 ^ (12 + 9 * n) + va % 2 ^ (12 + 9 * n))
              (Spec.decode e) (bits mairVal (8 * (Spec.decode e).memIndex) 8)
              (if bits mairVal (8 * (Spec.decode e).memIndex) 8 < 16 then 2
                else if l then 3 else bits e 8 2)
          else .fault
      else .fault := by
  obtain ⟨f1, f2, f3, f4, f5, f6, f7, f8, f9, f10, f11, f12, f13, f14⟩ := tcr_fields l n hn t (by omega)
  have hM : ∀ a, bits (SCTLR_EL2_INIT a ||| ((1#64 <<< 19) ||| 1#64)) 0 1 = 1 := by decide
  have hE : bits ((1#64 <<< 27) ||| (1#64 <<< 34) ||| (1#64 <<< 37) ||| (1#64 <<< 31)) 34 1 = 1 := by decide
  have hds : decide (l.toNat = 1) = l := by cases l <;> rfl
  have hbl : ∀ x, 1 ≤ x → x ≤ 12 →
      bits ((BitVec.ofNat 64 lowAddr &&& 0x0000FFFFFFFFFFFE#64) ||| 1#64) x (48 - x) * 2 ^ x = lowAddr ∧
      bits ((BitVec.ofNat 64 lowAddr &&& 0x0000FFFFFFFFFFFE#64) ||| 1#64) 2 4 = 0 := by
    intro x h1 h2
    rw [mask_addr hl.1 hl.2, bits_or _ _ _ _ (bits_one x _ h1), bits_or _ _ _ _ (bits_one 2 _ (by decide))]
    exact base_bits hl.1 hl.2 h2
  have hbh : ∀ x, x ≤ 12 →
      bits ((BitVec.ofNat 64 hiAddr &&& 0x0000FFFFFFFFFFFE#64) &&& ~~~ 1#64) x (48 - x) * 2 ^ x = hiAddr ∧
      bits ((BitVec.ofNat 64 hiAddr &&& 0x0000FFFFFFFFFFFE#64) &&& ~~~ 1#64) 2 4 = 0 := by
    intro x h2
    rw [mask_addr hh.1 hh.2, mask_bit0 hh.1]
    exact base_bits hh.1 hh.2 h2
  unfold Spec.stage1 finalRegs
  simp only
  rw [if_neg (by rw [hM]; decide), if_neg (by rw [hE]; decide)]
  rw [hhi, f13, hds, f14, hw, Nat.min_self]
  cases hi with
  | false =>
    simp only [Bool.false_eq_true, if_false, f1, f3, f5, f7, f9, f11] at hk ⊢
    have hx1 : 1 ≤ max (if l = true then 6 else 0) (64 - t - 9 - 9 * ((64 - t - 13) / 9)) := by omega
    have hx2 : max (if l = true then 6 else 0) (64 - t - 9 - 9 * ((64 - t - 13) / 9)) ≤ 12 := by
      split <;> omega
    rw [(hbl _ hx1 hx2).1, (hbl _ hx1 hx2).2, ← hk]
    rw [if_neg (by omega), if_neg (by decide)]
    simp only [Nat.zero_mul, ite_self, Nat.add_zero]
    rfl
  | true =>
    simp only [if_true, f2, f4, f6, f8, f10, f12] at hk ⊢
    have hx2 : max (if l = true then 6 else 0) (64 - 43 - 9 - 9 * ((64 - 43 - 13) / 9)) ≤ 12 := by
      split <;> omega
    rw [(hbh _ hx2).1, (hbh _ hx2).2, ← hk]
    rw [if_neg (by cases l <;> decide), if_neg (by decide)]
    simp only [Nat.zero_mul, ite_self, Nat.add_zero]
    rfl

/-! ### The walk -/

/-- What the processor makes of the last descriptor of a walk. -/
def leafWord (lpa2 : Bool) (r : BitVec 64 × Nat) : Option (Nat × BitVec 64) :=
  if (r.2 = 0 ∧ r.1.toNat % 4 = 3) ∨
      (r.2 ≠ 0 ∧ r.1.toNat % 4 = 1 ∧ r.2 ≤ (if lpa2 then 3 else 2)) then some (r.2, r.1)
  else none

theorem walkWord_look {c : Cpu} {s : Tabs} {loc : Nat → Nat × Nat} {m : Nat → BitVec 64}
    (wf : WF c s loc) (hm : Spec.Holds m s) (va off : Nat) :
    ∀ d t, t < s.next → (loc t).1 = d → va % bsz d = off % bsz d →
      Spec.walkWord c.lpa2 m va d (s.addr + 4096 * t) (off / bsz d % 512) =
        leafWord c.lpa2 (look c s d t off) := by
  intro d
  induction d with
  | zero =>
    intro t ht _ hv
    have hr := wf.room
    have hi : off / bsz 0 % 512 < 512 := Nat.mod_lt _ (by decide)
    unfold Spec.walkWord look
    rw [hm t _ (by omega) hi]
    unfold leafWord
    simp only [true_and, ne_eq, not_true_eq_false, false_and, or_false]
  | succ d ih =>
    intro t ht hl hv
    have hr := wf.room
    have hi : off / bsz (d + 1) % 512 < 512 := Nat.mod_lt _ (by decide)
    unfold Spec.walkWord look
    rw [hm t _ (by omega) hi]
    simp only
    by_cases hT : IsTable (s.mem t (off / bsz (d + 1) % 512))
    · rw [if_pos ((isTable_iff _).mp hT), if_pos hT]
      obtain ⟨t', e1, e2, e3⟩ := wf.child t _ d ht hi hl hT
      rw [e1]
      simp only
      rw [(sub_addr e1).1]
      have hmod : va % bsz d = off % bsz d := by
        have hd := bsz_dvd (show d ≤ d + 1 by omega)
        rw [← Nat.mod_mod_of_dvd va hd, hv, Nat.mod_mod_of_dvd off hd]
      have hidx : va / 2 ^ (12 + 9 * d) % 512 = off / bsz d % 512 := by
        rw [← bsz_pow]
        have h1 := Nat.mod_mul_right_div_self va (bsz d) 512
        have h2 := Nat.mod_mul_right_div_self off (bsz d) 512
        have h3 : bsz d * 512 = bsz (d + 1) := by rw [bsz_succ, Nat.mul_comm]
        rw [h3] at h1 h2
        rw [← h1, ← h2, hv]
      rw [hidx]
      exact ih t' e2 (by rw [e3]) hmod
    · rw [if_neg (fun h => hT ((isTable_iff _).mpr h)), if_neg hT]
      unfold leafWord
      simp only [Nat.succ_ne_zero, false_and, false_or, ne_eq, not_false_eq_true, true_and]

/-- Bits 9:8 of a descriptor without FEAT_LPA2 are the shareability. -/
theorem xlatDesc_share {c : Cpu} {attr : BitVec 64} {pa d : Nat} {v : BitVec 64}
    (h : xlatDesc c attr pa d = .ok v) (hnt : attr.toNat % 16 ≠ 3) (hl : c.lpa2 = false)
    (hty : attr.toNat % 16 ≠ 0) : bits v 8 2 = 3 := by
  unfold xlatDesc at h
  have h1 : mtType attr ≠ MT_TRANSIENT := fun h' => hnt ((mtType_eq attr 3 (by decide)).mp h')
  have h0 : mtType attr ≠ MT_DEVICE := fun h' => hty ((mtType_eq attr 0 (by decide)).mp h')
  rw [if_neg h1] at h
  by_cases h2 : pa % bsz d ≠ 0
  · rw [if_pos h2] at h; cases h
  rw [if_neg h2] at h
  by_cases h3 : mtType attr ≠ MT_DEVICE ∧ mtType attr ≠ MT_MEMORY
  · rw [if_pos h3] at h; cases h
  rw [if_neg h3, if_neg h0, hl] at h
  rw [← Except.ok.inj h]
  simp only [Bool.false_eq_true, if_false]
  have bt : ∀ y : BitVec 64, y.getLsbD 8 = true → y.getLsbD 9 = true → bits y 8 2 = 3 := by
    intro y a b
    unfold Spec.bits
    apply Nat.eq_of_testBit_eq
    intro i
    rw [Nat.testBit_mod_two_pow, ← Nat.shiftRight_eq_div_pow, Nat.testBit_shiftRight]
    by_cases hi : i < 2
    · have : i = 0 ∨ i = 1 := by omega
      rcases this with rfl | rfl
      · simpa [BitVec.getLsbD] using a
      · have : Nat.testBit 3 1 = true := by decide
        rw [this]
        simpa [BitVec.getLsbD] using b
    · rw [decide_eq_false hi, Bool.false_and]
      exact (testBit_high (n := 2) (by decide) (by omega)).symm
  apply bt <;> simp only [BitVec.getLsbD_or] <;> simp

theorem look_le (c : Cpu) (s : Tabs) (va : Nat) : ∀ d t, (look c s d t va).2 ≤ d := by
  intro d
  induction d with
  | zero => intro t; exact Nat.le_refl _
  | succ d ih =>
    intro t
    unfold look
    split
    · split
      · exact Nat.le_trans (ih _) (by omega)
      · exact Nat.le_refl _
    · exact Nat.le_refl _

/-- The walk from the first table, for one address. -/
theorem word_main {c : Cpu} {high : Bool} {mms : List Region} {k addr num : Nat}
    {old : Nat → Nat → BitVec 64} {s : Tabs} {m : Nat → BitVec 64} {va : Nat}
    (hpa : c.paWidth ≤ (if c.lpa2 then 52 else 48)) (hw : ∀ r, r ∈ mms → Word r)
    (hty : ∀ r, r ∈ mms → Spec.Supported r) (hfit : addr + 4096 * num ≤ 2 ^ 48)
    (hs : setup c high mms (2 ^ k) addr num old = .ok s) (hm : Spec.Holds m s)
    (hva : va < 2 ^ 64) :
    (∀ r, r ∈ mms → Spec.Contains r va → ¬ Spec.Transient r →
      (if high = true then 2 ^ 64 - 2 ^ k ≤ va else va < 2 ^ k) ∧
      ∃ n e, Spec.walkWord c.lpa2 m va ((k - 13) / 9) addr (va % 2 ^ k / 2 ^ (12 + 9 * ((k - 13) / 9))) =
          some (n, e) ∧
        Spec.outAddr c.lpa2 e / 2 ^ (12 + 9 * n) * 2 ^ (12 + 9 * n) + va % 2 ^ (12 + 9 * n) =
          r.basePa + (va - r.baseVa) ∧
        Spec.decode e = Spec.wanted r.attr ∧
        (c.lpa2 = false → r.attr.toNat % 16 ≠ 0 → bits e 8 2 = 3) ∧
        r.basePa + (va - r.baseVa) < 2 ^ c.paWidth) ∧
    ((if high = true then 2 ^ 64 - 2 ^ k ≤ va else va < 2 ^ k) →
      (∀ r, r ∈ mms → Spec.Contains r va → Spec.Transient r) →
      Spec.walkWord c.lpa2 m va ((k - 13) / 9) addr (va % 2 ^ k / 2 ^ (12 + 9 * ((k - 13) / 9))) =
        none) := by
  rcases setup_built (vaSize := 2 ^ k) (high := high) (old := old) hpa hw hty hfit with
    ⟨e, he, _⟩ | ⟨s', hs', hB, ha, _, hbase, hchk, _, hmax, hmin⟩
  · rw [he] at hs; cases hs
  rw [hs] at hs'
  obtain rfl := Except.ok.inj hs'
  have hk1 : 16 ≤ k := by
    by_contra hn
    have := (pow_gt (a := 16) (b := k)).mpr (by omega)
    omega
  have hk2 : k ≤ 52 := by
    by_contra hn
    have h1 := (pow_gt (a := k) (b := 52)).mpr (by omega)
    have : 2 ^ k ≤ 2 ^ 52 := by
      refine Nat.le_trans hmax ?_
      split <;> decide
    omega
  have hkp : 0 < 2 ^ k := Nat.pow_pos (by decide)
  have hk52 : 2 ^ k ≤ 2 ^ 52 := Nat.pow_le_pow_right (by decide) hk2
  rw [ctxBase_eq hkp hk52] at hbase hchk hB
  rw [baseDepth_pow hk1 hk2] at hB
  obtain ⟨base, hbd⟩ : ∃ b, (if high = true then 2 ^ 64 - 2 ^ k else 0) = b := ⟨_, rfl⟩
  rw [hbd] at hbase hchk hB
  have hrange : (if high = true then 2 ^ 64 - 2 ^ k ≤ va else va < 2 ^ k) ↔
      base ≤ va ∧ va - base < 2 ^ k := by
    subst hbd
    cases high
    · simp
    · simp only [if_true]; omega
  have hend : ∀ r, r ∈ mms → r.baseVa + r.size ≤ base + 2 ^ k := by
    intro r hr
    have h1 := (hchk _ (List.mem_map_of_mem hr)).vaEnd
    have h2 := hbase r hr
    simp only [shift] at h1
    omega
  by_cases hin : base ≤ va ∧ va - base < 2 ^ k
  swap
  · refine ⟨?_, fun h => absurd (hrange.mp h) hin⟩
    intro r hr hc
    exfalso
    have h1 := hbase r hr
    have h2 := hend r hr
    have := hc.1
    have := hc.2
    omega
  obtain ⟨D, hD⟩ : ∃ D, (k - 13) / 9 = D := ⟨_, rfl⟩
  rw [hD] at hB ⊢
  obtain ⟨off, hoff⟩ : ∃ o, va - base = o := ⟨_, rfl⟩
  have hmodk : va % 2 ^ k = off := by
    have hdvd : 2 ^ k ∣ base := by
      subst hbd
      cases high
      · exact Nat.dvd_zero _
      · simp only [if_true]
        exact Nat.dvd_sub (Nat.pow_dvd_pow 2 (by omega)) (Nat.dvd_refl _)
    obtain ⟨q, hq⟩ := hdvd
    rw [show va = off + 2 ^ k * q by omega, Nat.add_mul_mod_self_left]
    exact Nat.mod_eq_of_lt (by omega)
  have hspan : 2 ^ k ≤ bsz (D + 1) := by
    rw [bsz_pow]; exact Nat.pow_le_pow_right (by decide) (by omega)
  have hmodD : va % bsz D = off % bsz D := by
    have hdv : bsz D ∣ 2 ^ k := by
      rw [bsz_pow]; exact Nat.pow_dvd_pow 2 (by omega)
    rw [← hmodk, Nat.mod_mod_of_dvd va hdv]
  obtain ⟨loc, wf, h0, hl0, hlook⟩ := hB
  have hidx : va % 2 ^ k / 2 ^ (12 + 9 * D) = off / bsz D % 512 := by
    rw [hmodk, ← bsz_pow]
    refine (Nat.mod_eq_of_lt ?_).symm
    apply Nat.div_lt_of_lt_mul
    rw [Nat.mul_comm, ← bsz_succ]
    omega
  have hwalk := walkWord_look wf hm va off D 0 h0 (by rw [hl0]) hmodD
  rw [Nat.mul_zero, Nat.add_zero, ha] at hwalk
  rw [hidx, hwalk]
  have hL := hlook off (by omega)
  have hshift : ∀ r, r ∈ mms → Spec.Contains r va → InR (shift base r) off := by
    intro r hr hc
    have := hbase r hr
    have := hc.1
    have := hc.2
    refine ⟨?_, ?_⟩
    · show r.baseVa - base ≤ off
      omega
    · show off < r.baseVa - base + r.size
      omega
  constructor
  · intro r hr hc hnt
    have hM := hL.1 _ (List.mem_map_of_mem hr) (hshift r hr hc)
    obtain ⟨m1, m2, m3, m4⟩ := hM
    have hK := hchk _ (List.mem_map_of_mem hr)
    have hb2 := hK.paEnd
    have hdD := look_le c s off D 0
    generalize look c s D 0 off = x at m1 m2 m3 m4 hdD ⊢
    obtain ⟨v, d⟩ := x
    simp only [shift] at m1 m2 m3 m4 hb2 hdD
    have hbp := bsz_pos d
    have hdm := Nat.div_add_mod off (bsz d)
    have hmc := Nat.mul_comm (bsz d) (off / bsz d)
    have hml := Nat.mod_lt off hbp
    have hbr := hbase r hr
    have hc1 := hc.1
    have hb : r.basePa + (off / bsz d * bsz d - (r.baseVa - base)) <
        2 ^ (if c.lpa2 then 52 else 48) := by
      refine Nat.lt_of_lt_of_le ?_ (Nat.le_trans hb2 (Nat.pow_le_pow_right (by decide) hpa))
      omega
    obtain ⟨d1, d2, d3, d4⟩ := xlatDesc_decode m4 hnt hb
    have hmodd : va % 2 ^ (12 + 9 * d) = off % bsz d := by
      rw [← bsz_pow]
      have hdb : bsz d ∣ base := by
        refine Nat.dvd_trans (?_ : bsz d ∣ 2 ^ k) ?_
        · rw [bsz_pow]; exact Nat.pow_dvd_pow 2 (by omega)
        · subst hbd
          cases high
          · exact Nat.dvd_zero _
          · simp only [if_true]
            exact Nat.dvd_sub (Nat.pow_dvd_pow 2 (by omega)) (Nat.dvd_refl _)
      obtain ⟨q, hq⟩ := hdb
      rw [show va = off + bsz d * q by omega, Nat.add_mul_mod_self_left]
    refine ⟨hrange.mpr hin, d, v, ?_, ?_, d4, ?_, ?_⟩
    · unfold leafWord
      simp only
      rw [if_pos]
      by_cases hd : d = 0
      · rw [if_pos hd] at d3
        exact Or.inl ⟨hd, d3⟩
      · rw [if_neg hd] at d3
        exact Or.inr ⟨hd, d3, m3⟩
    · rw [d1, hmodd, ← bsz_pow, Nat.div_mul_cancel (Nat.dvd_of_mod_eq_zero d2)]
      omega
    · exact fun hl hty => xlatDesc_share m4 hnt hl hty
    · have := hc.2
      have := hend r hr
      refine Nat.lt_of_lt_of_le ?_ hb2
      omega
  · intro _ hall
    have key : (look c s D 0 off).1.toNat % 4 = 0 := by
      by_cases hex : ∃ r, r ∈ mms ∧ Spec.Contains r va
      · obtain ⟨r, hr, hc⟩ := hex
        have ht := hall r hr hc
        have hM := (hL.1 _ (List.mem_map_of_mem hr) (hshift r hr hc)).2.2.2
        unfold xlatDesc at hM
        rw [if_pos (show mtType (shift base r).attr = MT_TRANSIENT from
          (mtType_eq r.attr 3 (by decide)).mpr ht)] at hM
        rw [← Except.ok.inj hM]
        decide
      · have hz := hL.2 (by
          intro a ha' hI
          obtain ⟨r, hr, rfl⟩ := List.mem_map.mp ha'
          refine hex ⟨r, hr, ?_⟩
          have := hbase r hr
          have h1 : r.baseVa - base ≤ off := hI.1
          have h2 : off < r.baseVa - base + r.size := hI.2
          exact ⟨by omega, by omega⟩)
        rw [hz]; rfl
    unfold leafWord
    rw [if_neg]
    rintro (⟨_, h⟩ | ⟨_, h, _⟩) <;> omega

end Verif.Xlat
