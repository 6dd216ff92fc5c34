import Verif.Run.Inv

/-!
# C27: emulated accesses
-/

namespace Verif.Run

open Spec

/-! ## The value of an emulated load -/

theorem accessLen_bits (e : W) : 8 * accessLen e = accessBits e := by
  unfold accessLen accessBits sas
  have h : (e.extractLsb' 22 2).toNat = e.toNat / 2 ^ 22 % 4 := by
    rw [BitVec.extractLsb'_toNat, Nat.shiftRight_eq_div_pow]
  rw [← h]
  generalize e.extractLsb' 22 2 = s
  revert s
  decide

theorem xor_top {n x : Nat} (hx : x < 2 ^ (n + 1)) :
    x ^^^ 2 ^ n = if x < 2 ^ n then x + 2 ^ n else x - 2 ^ n := by
  have key : ∀ y, y < 2 ^ n → y ^^^ 2 ^ n = y + 2 ^ n := by
    intro y hy
    have h1 : 2 ^ n * 1 + y = 2 ^ n * 1 ||| y := Nat.two_pow_add_eq_or_of_lt hy 1
    rw [Nat.add_comm y, ← Nat.mul_one (2 ^ n), h1, Nat.mul_one]
    apply Nat.eq_of_testBit_eq
    intro i
    rw [Nat.testBit_xor, Nat.testBit_or, Nat.testBit_two_pow]
    by_cases hi : n = i
    · subst hi
      rw [Nat.testBit_lt_two_pow hy]
      simp
    · simp [hi]
  split
  · exact key x ‹_›
  · rename_i h
    have hlt : x - 2 ^ n < 2 ^ n := by rw [Nat.pow_succ] at hx; omega
    have h1 := key (x - 2 ^ n) hlt
    have h2 : x - 2 ^ n + 2 ^ n = x := by omega
    rw [h2] at h1
    calc x ^^^ 2 ^ n = (x - 2 ^ n ^^^ 2 ^ n) ^^^ 2 ^ n := by rw [h1]
      _ = x - 2 ^ n := by rw [Nat.xor_assoc, Nat.xor_self, Nat.xor_zero]

theorem sign_ext {n : Nat} (hn : n < 64) (v m : W) (hm : m.toNat = 2 ^ (n + 1) - 1) :
    ((v &&& m) ^^^ ((1 : W) <<< n)) - ((1 : W) <<< n) = (v.setWidth (n + 1)).signExtend 64 := by
  have hb : ((1 : W) <<< n).toNat = 2 ^ n := by
    rw [BitVec.toNat_shiftLeft, Nat.shiftLeft_eq]
    show 1 * 2 ^ n % 2 ^ 64 = _
    rw [Nat.one_mul, Nat.mod_eq_of_lt (Nat.pow_lt_pow_right (by omega) hn)]
  apply BitVec.eq_of_toNat_eq
  rw [BitVec.toNat_sub, BitVec.toNat_xor, hb, and_low_toNat _ _ _ hm, BitVec.toNat_signExtend, BitVec.msb_eq_decide]
  simp only [BitVec.toNat_setWidth, Nat.add_sub_cancel, decide_eq_true_eq]
  have hx : v.toNat % 2 ^ (n + 1) < 2 ^ (n + 1) := Nat.mod_lt _ (Nat.two_pow_pos _)
  generalize v.toNat % 2 ^ (n + 1) = x at *
  rw [xor_top hx]
  have hp : 2 ^ (n + 1) = 2 * 2 ^ n := by rw [Nat.pow_succ]; omega
  have hle : 2 ^ n ≤ 2 ^ 63 := Nat.pow_le_pow_right (by omega) (by omega)
  rw [hp] at hx ⊢
  generalize 2 ^ n = q at *
  split
  · rw [if_neg (by omega)]
    omega
  · rw [if_pos (by omega)]
    omega

theorem low32 {k : Nat} (t : BitVec k) : t.signExtend 64 &&& 0xffffffff = (t.signExtend 32).setWidth 64 := by
  apply BitVec.eq_of_getLsbD_eq
  intro i hi
  have hm : ∀ j : Fin 64, (0xffffffff : W).getLsbD j = decide (j.val < 32) := by decide
  rw [BitVec.getLsbD_and, hm ⟨i, hi⟩, BitVec.getLsbD_setWidth, BitVec.getLsbD_signExtend, BitVec.getLsbD_signExtend]
  by_cases h : i < 32 <;> simp [h, hi]

/-- The value a load gets is the host's data, extended as the instruction asks. -/
theorem mmioValue_eq (e v : W) : mmioValue e v = loaded (accessBits e) (sse e) (sf e) v := by
  rw [← accessLen_bits]
  unfold mmioValue loaded accessMask accessLen
  have zext : ∀ (n : Nat) (m : W), n ≤ 64 → m.toNat = 2 ^ n - 1 → v &&& m = (v.setWidth n).setWidth 64 := by
    intro n m hn hm
    apply BitVec.eq_of_toNat_eq
    rw [and_low_toNat _ _ _ hm]
    simp only [BitVec.toNat_setWidth]
    exact (Nat.mod_eq_of_lt (lt_of_lt_of_le (Nat.mod_lt _ (Nat.two_pow_pos _)) (Nat.pow_le_pow_right (by omega) hn))).symm
  generalize sse e = s
  generalize sf e = f
  generalize sas e = z
  have hz : z = 0 ∨ z = 1 ∨ z = 2 ∨ z = 3 := by revert z; decide
  rcases hz with rfl | rfl | rfl | rfl <;> cases s <;> cases f
  all_goals simp (disch := decide) only [if_pos, if_neg, Bool.false_eq_true, if_true, if_false]
  · exact zext 8 _ (by omega) rfl
  · exact zext 8 _ (by omega) rfl
  · exact (congrArg (· &&& 0xffffffff) (sign_ext (n := 7) (by omega) v 0xff rfl)).trans (low32 _)
  · exact sign_ext (n := 7) (by omega) v 0xff rfl
  · exact zext 16 _ (by omega) rfl
  · exact zext 16 _ (by omega) rfl
  · exact (congrArg (· &&& 0xffffffff) (sign_ext (n := 15) (by omega) v 0xffff rfl)).trans (low32 _)
  · exact sign_ext (n := 15) (by omega) v 0xffff rfl
  · exact zext 32 _ (by omega) rfl
  · exact zext 32 _ (by omega) rfl
  · exact (congrArg (· &&& 0xffffffff) (sign_ext (n := 31) (by omega) v 0xffffffff rfl)).trans (low32 _)
  · exact sign_ext (n := 31) (by omega) v 0xffffffff rfl
  · exact zext 64 _ (by omega) rfl
  · exact zext 64 _ (by omega) rfl
  · exact (congrArg (· &&& 0xffffffff) (sign_ext (n := 63) (by omega) v (~~~0) rfl)).trans (low32 _)
  · exact sign_ext (n := 63) (by omega) v (~~~0) rfl

/-! ## The whole command -/

/-- After a data abort only the injection and the emulation apply. -/
theorem path_dabt {c : Call} {w : World} {r1 r2 r3 : Rec} {p : World × Bool} (hi : Inv w.rc)
    (hp : Path c w r1 r2 r3 p) (hd : ec w.rc.lastEsr = EC_DABT) :
    p.2 = true ∧ p.1.mem = w.mem ∧ p.1.rc = { r2 with ripas := p.1.rc.ripas } := by
  have hc : w.rc.hostCall = false := by
    by_contra h
    have := (hi.call (by simpa using h)).1
    rw [hd] at this
    exact absurd this (by decide)
  have hrip : w.rc.ripas.base = w.rc.ripas.top := by
    by_contra h
    have := (hi.ripas h).1
    rw [hd] at this
    exact absurd this (by decide)
  have ha := (completeSea_some hp.sea).1
  have hm := (completeMmio_some hp.mmio).1
  have hr2 : r2.ripas = w.rc.ripas := by rw [hm.ripas, ha.ripas]; rfl
  have hl2 : r2.lastEsr = w.rc.lastEsr := by rw [hm.lastEsr, ha.lastEsr]; rfl
  have hc2 : r2.hostCall = false := by rw [hm.hostCall, ha.hostCall]; exact hc
  have e3 : completeRipas r2 c.enter = { r2 with ripas := { r2.ripas with reject := c.enter.ripasReject } } := by
    unfold completeRipas
    dsimp only
    rw [if_pos (by rw [hr2]; exact hrip)]
  have e4 : r3 = { r2 with ripas := { r2.ripas with reject := c.enter.ripasReject } } := by
    rcases (completeSysreg_some hp.sysreg).2.2 with h | ⟨h, _⟩
    · rw [h, e3]
    · rw [e3] at h
      have : ec r2.lastEsr = EC_SYSREG := h
      rw [hl2, hd] at this; exact absurd this (by decide)
  have hcall := hp.call
  unfold completeHostCall at hcall
  have hc3 : r3.hostCall = false := by rw [e4]; exact hc2
  rw [if_pos (show ({ withGic c w with rc := r3 } : World).rc.hostCall = false from hc3)] at hcall
  obtain rfl := Option.some.inj hcall
  refine ⟨rfl, rfl, ?_⟩
  dsimp only
  rw [e4]

/-- **C27.**  When the host emulates an access, the last exit was a data abort with a valid syndrome at a
shared address; the REC starts with the PC advanced by 4, and for a load the destination register, and only
it, has the host's data as the instruction would have loaded it. -/
theorem C27_emulated {c : Call} {w : World} {o : Out} (hi : Inv w.rc) (h : recEnter c w = some o) (hran : o.ran = true)
    (hf : c.enter.flags.getLsbD 0 = true) (hf1 : c.enter.flags.getLsbD 1 = false) :
    LastEmulatable w.rc ∧ parSize w.rc ≤ fipaOf w.rc.lastHpfar ∧ fipaOf w.rc.lastHpfar < ipaSize w.rc ∧
    w.rc.pstate.getLsbD 4 = false ∧
    ∃ w1, runRec c w1 = some o ∧ w1.rc.pc = w.rc.pc + 4 ∧ w1.rc.pstate = w.rc.pstate ∧ w1.mem = w.mem ∧
      ∀ j, w1.rc.regs j =
        if wnr w.rc.lastEsr = false ∧ j = srt w.rc.lastEsr ∧ j ≠ 31 then
          loaded (accessBits w.rc.lastEsr) (sse w.rc.lastEsr) (sf w.rc.lastEsr) (c.enter.gprs 0)
        else w.rc.regs j := by
  obtain ⟨r1, r2, r3, p, hp, _, hrun⟩ := recEnter_ran h hran
  have e1 : r1 = (withGic c w).rc := by
    rcases (completeSea_some hp.sea).2.2 with ⟨_, h⟩ | ⟨h, _⟩
    · exact h
    · unfold Enter.injectSea at h
      exact absurd (h.symm.trans hf1) (by decide)
  subst e1
  rcases (completeMmio_some hp.mmio).2 with ⟨h1 | h1, _⟩ | ⟨_, _, hd, hv, hcase⟩
  · unfold Enter.emulMmio at h1
    exact absurd (h1.symm.trans hf) (by decide)
  · unfold Enter.injectSea at h1
    exact absurd (h1.symm.trans hf1) (by decide)
  have hd' : ec w.rc.lastEsr = EC_DABT := hd
  have hv' : isv w.rc.lastEsr = true := hv
  obtain ⟨ha, hb, hc⟩ := hi.mmio hd' hv'
  obtain ⟨_, hmem, hrc⟩ := path_dabt hi hp hd'
  refine ⟨⟨hd', hv'⟩, ha, hb, hc, p.1, hrun, ?_, ?_, hmem, ?_⟩
  · rw [hrc]
    rcases hcase with ⟨_, _, rfl⟩ | ⟨_, rfl⟩ <;> rfl
  · rw [hrc]
    rcases hcase with ⟨_, _, rfl⟩ | ⟨_, rfl⟩ <;> rfl
  · intro j
    rw [hrc]
    rcases hcase with ⟨hw, hlt, rfl⟩ | ⟨hor, rfl⟩
    · have hw' : wnr w.rc.lastEsr = false := hw
      have hlt' : srt w.rc.lastEsr < 31 := hlt
      show upd w.rc.regs (srt w.rc.lastEsr) (mmioValue w.rc.lastEsr (c.enter.gprs 0)) j = _
      unfold upd
      by_cases hj : j = srt w.rc.lastEsr
      · rw [if_pos hj, if_pos ⟨hw', hj, by omega⟩, mmioValue_eq]
      · rw [if_neg hj, if_neg (fun hh => hj hh.2.1)]
    · show w.rc.regs j = _
      rw [if_neg]
      rintro ⟨h1, h2, h3⟩
      rcases hor with h | h
      · have h' : wnr w.rc.lastEsr = true := h
        rw [h1] at h'; simp at h'
      · exact h3 (h2.trans h)

/-- **C27.**  If the last exit cannot be emulated, a request to emulate it fails and nothing of the REC but its
virtual interrupt state changes. -/
theorem C27_refused {c : Call} {w : World} {o : Out} (h : recEnter c w = some o)
    (hf : c.enter.flags.getLsbD 0 = true) (hf1 : c.enter.flags.getLsbD 1 = false) (hne : ¬ LastEmulatable w.rc) :
    o.code ≠ RMI_SUCCESS ∧ Refused w o := by
  obtain ⟨r, hfirst, hsome, _⟩ := C26_admission h
  have hcode : ∀ v, v ∈ (checks c w).map (·.2) → v ≠ RMI_SUCCESS := by
    unfold checks
    simp [RMI_ERROR_INPUT, RMI_ERROR_REC, RMI_ERROR_REALM, RMI_ERROR_REALM_OFF, RMI_SUCCESS]
  have hex : ∀ (l : List (Prop × W)) (r : Option W), First l r → (∃ q ∈ l, q.1) →
      ∃ code, r = some code ∧ code ∈ l.map (·.2) := by
    intro l r hl
    induction hl with
    | nil => rintro ⟨q, hq, _⟩; simp at hq
    | hit _ => exact fun _ => ⟨_, rfl, by simp⟩
    | skip hn _ ih =>
      rintro ⟨q, hq, hqp⟩
      rcases List.mem_cons.mp hq with rfl | hq
      · exact absurd hqp hn
      · obtain ⟨code, h1, h2⟩ := ih ⟨q, hq, hqp⟩
        exact ⟨code, h1, by simp only [List.map_cons, List.mem_cons]; exact .inr h2⟩
  have hin : ((c.enter.flags.getLsbD 0 = true ∧ c.enter.flags.getLsbD 1 = false ∧ ¬ LastEmulatable w.rc, RMI_ERROR_REC) :
      Prop × W) ∈ checks c w := by
    unfold checks
    simp
  obtain ⟨code, rfl, hmem⟩ := hex _ _ hfirst ⟨_, hin, hf, hf1, hne⟩
  obtain ⟨h1, h2⟩ := hsome code rfl
  exact ⟨by rw [h1]; exact hcode _ hmem, h2⟩

/-- **C27.**  Without these two flags the PC, and after a data abort every register, is as the realm left it. -/
theorem C27_no_request {c : Call} {w : World} {o : Out} (hi : Inv w.rc) (h : recEnter c w = some o) (hran : o.ran = true)
    (hf : c.enter.flags.getLsbD 0 = false) (hf1 : c.enter.flags.getLsbD 1 = false) (hd : ec w.rc.lastEsr = EC_DABT) :
    ∃ w1, runRec c w1 = some o ∧ w1.rc.pc = w.rc.pc ∧ w1.rc.pstate = w.rc.pstate ∧ w1.mem = w.mem ∧
      w1.rc.regs = w.rc.regs := by
  obtain ⟨r1, r2, r3, p, hp, _, hrun⟩ := recEnter_ran h hran
  have e1 : r1 = (withGic c w).rc := by
    rcases (completeSea_some hp.sea).2.2 with ⟨_, h⟩ | ⟨h, _⟩
    · exact h
    · unfold Enter.injectSea at h
      exact absurd (h.symm.trans hf1) (by decide)
  subst e1
  have e2 : r2 = (withGic c w).rc := by
    rcases (completeMmio_some hp.mmio).2 with ⟨_, h⟩ | ⟨h, _⟩
    · exact h
    · unfold Enter.emulMmio at h
      exact absurd (h.symm.trans hf) (by decide)
  subst e2
  obtain ⟨_, hmem, hrc⟩ := path_dabt hi hp hd
  refine ⟨p.1, hrun, ?_, ?_, hmem, ?_⟩ <;> rw [hrc] <;> rfl

/-- The architecture's vector offset for a synchronous exception taken to EL1 from the state `spsr`: current EL
with SP_EL0 or SP_ELx, lower EL in AArch64 or AArch32; with SCTLR2_EL1.EASE external aborts use the SError
vectors, 0x180 further. -/
def Spec.vectorOff (spsr : W) (ease : Bool) : W :=
  if spsr.toNat % 16 = 5 then (if ease then 0x380 else 0x200)
  else if spsr.toNat % 16 = 4 then (if ease then 0x180 else 0)
  else if spsr.getLsbD 4 then 0x600
  else (if ease then 0x580 else 0x400)

theorem vectorEntry_off {vbar spsr pc : W} {b : Bool} (h : vectorEntry vbar spsr b = some pc) :
    pc = vbar + Spec.vectorOff spsr b := by
  have hm : (spsr.extractLsb' 0 4).toNat = spsr.toNat % 16 := by
    rw [BitVec.extractLsb'_toNat, Nat.shiftRight_eq_div_pow]; simp
  have hz : ∀ k : BitVec 4, spsr.extractLsb' 0 4 = k ↔ spsr.toNat % 16 = k.toNat := by
    intro k
    rw [← hm]
    exact ⟨fun h => by rw [h], fun h => BitVec.eq_of_toNat_eq h⟩
  unfold vectorEntry at h
  unfold Spec.vectorOff
  dsimp only at h
  rw [show ∀ (x y : Option W), (if spsr.extractLsb' 0 4 = (5 : BitVec 4) then x else y) =
      if spsr.toNat % 16 = 5 then x else y from fun _ _ => if_congr (hz 5) rfl rfl,
    show ∀ (x y : Option W), (if spsr.extractLsb' 0 4 = (4 : BitVec 4) then x else y) =
      if spsr.toNat % 16 = 4 then x else y from fun _ _ => if_congr (hz 4) rfl rfl] at h
  rcases ite_or h with ⟨h1, h⟩ | ⟨h1, h⟩
  · rw [if_pos h1, ← Option.some.inj h]
    cases b <;> simp [BitVec.add_assoc]
  rw [if_neg h1]
  rcases ite_or h with ⟨h1, h⟩ | ⟨h1, h⟩
  · rw [if_pos h1, ← Option.some.inj h]
    cases b <;> simp [BitVec.add_assoc]
  rw [if_neg h1]
  rcases ite_or h with ⟨h1, h⟩ | ⟨h1, h⟩
  · rcases ite_or h with ⟨h2, h⟩ | ⟨h2, h⟩
    · rw [if_pos h2, ← Option.some.inj h]
    · rw [if_neg h2, ← Option.some.inj h]
      cases b <;> simp [BitVec.add_assoc]
  · simp at h

/-- **C27.**  Injecting an abort: general registers and memory stay, the REC starts at its exception vector with the
interrupted state saved, and the address is not that of a protected page. -/
theorem C27_injected {c : Call} {w : World} {o : Out} (hi : Inv w.rc) (h : recEnter c w = some o) (hran : o.ran = true)
    (hf1 : c.enter.flags.getLsbD 1 = true) :
    LastShared w.rc ∧
    ∃ w1, runRec c w1 = some o ∧ w1.rc.regs = w.rc.regs ∧ w1.mem = w.mem ∧
      w1.rc.pc = w.rc.vbar + vectorOff w.rc.pstate (w.rc.sctlr2.getLsbD 5) ∧
      w1.rc.elr1 = w.rc.pc ∧ w1.rc.spsr1 = w.rc.pstate ∧ w1.rc.far1 = w.rc.lastFar ∧ w1.rc.pstate = 0x3C5 := by
  obtain ⟨r1, r2, r3, p, hp, _, hrun⟩ := recEnter_ran h hran
  have hsh : LastShared w.rc := by
    by_contra hn
    exact completeSea_ok hp.sea ⟨hf1, hn⟩
  refine ⟨hsh, ?_⟩
  obtain ⟨_, hmem, hrc⟩ := path_dabt hi hp hsh.1
  have e2 : r2 = r1 := by
    rcases (completeMmio_some hp.mmio).2 with ⟨_, h⟩ | ⟨_, h, _⟩
    · exact h
    · unfold Enter.injectSea at h
      exact absurd (hf1.symm.trans h) (by decide)
  subst e2
  rcases (completeSea_some hp.sea).2.2 with ⟨h, _⟩ | ⟨_, _, _, hinj⟩
  · unfold Enter.injectSea at h
    exact absurd (hf1.symm.trans h) (by decide)
  obtain ⟨e, _, hinj⟩ := bind_some hinj
  obtain ⟨pc, hpc, rfl⟩ := map_some hinj
  refine ⟨p.1, hrun, ?_, hmem, ?_, ?_, ?_, ?_, ?_⟩
  · rw [hrc]; rfl
  · rw [hrc]
    exact vectorEntry_off hpc
  · rw [hrc]; rfl
  · rw [hrc]; rfl
  · rw [hrc]; rfl
  · rw [hrc]; rfl

/-! ## Concrete cases -/

/-- A REC whose last exit was a signed 16-bit load to X7 at a shared address. -/
def Demo.afterLoad : World :=
  { Demo.world with rc := { Demo.rc with lastEsr := Demo.dabt true 1 7 false ||| 0x208000, lastHpfar := Demo.hpfar 0x100000000 } }

example : Inv Demo.afterLoad.rc := by
  refine ⟨by decide, fun h => absurd h (by decide), fun h => absurd rfl h, fun _ _ => ?_, fun h => ?_⟩
  · decide
  · exact absurd h (by decide)

/-- The host answers 0x1234F00D: the realm sees the sign-extended low half in X7, at the next instruction. -/
example :
    let o := recEnter (Demo.call 1 0x1234F00D [Demo.ev .irq ⟨0, 0, 0⟩ fun _ => 0]) Demo.afterLoad
    (o.map (·.ran)) = some true ∧ mmioValue Demo.afterLoad.rc.lastEsr 0x1234F00D = 0xFFFFFFFFFFFFF00D ∧
    Demo.afterLoad.rc.lastEsr.getLsbD 15 = true ∧ accessBits Demo.afterLoad.rc.lastEsr = 16 := by
  decide +kernel

/-- The same request without a preceding data abort is refused. -/
example : ((recEnter (Demo.call 1 0 []) Demo.world).map (·.code)) = some RMI_ERROR_REC := by decide +kernel

/-- **Deviation from the rule that a failed command has no effect.**  The virtual interrupt state is
written before the last two checks, so a call that fails them leaves it changed. -/
theorem C26_gic_written_on_error :
    let c := { Demo.call 1 0 [] with enter := { Demo.enter 1 0 with gic := ⟨0, fun i => if i = 0 then 0x4000000000000020 else 0⟩ } }
    ((recEnter c Demo.world).map (·.code)) = some RMI_ERROR_REC ∧ Demo.world.rc.gic.lr 0 = 0 ∧
    ((recEnter c Demo.world).map (·.w.rc.gic.lr 0)) = some 0x4000000000000020 := by
  decide +kernel

/-- **Deviation.**  If the exit structure cannot be written the command fails although the REC ran. -/
theorem C26_ran_but_error :
    let c := { Demo.call 0 0 [Demo.ev .irq ⟨0, 0, 0⟩ fun _ => 0] with writeOk := false }
    ((recEnter c Demo.world).map fun o => (o.code, o.ran)) = some (RMI_ERROR_INPUT, true) := by
  decide +kernel

end Verif.Run
