import Verif.Run.PropTimer
import Verif.Run.PropMmio
import Verif.Run.PropCall

/-!
# C60, C85: where a REC continues, and hardware errors

C60: a REC that is entered continues from the state in which it stopped, except for the answers it has asked for.
C85: an SError taken while a realm runs is reported to the host and, if it is fatal to the realm, is delivered to the realm
once.  This is false of the code: it expects a fault status code that the architecture does not use, and stops on the
one that it does.
-/

namespace Verif.Run

open Spec

/-! ## C60 -/

/-- The host asked for the emulation of an access, the realm's last exit was such an access, a load to register `j`. -/
def Spec.Loads (c : Call) (r : Rec) (j : Nat) : Prop :=
  c.enter.flags.getLsbD 0 = true ∧ c.enter.flags.getLsbD 1 = false ∧ LastEmulatable r ∧ wnr r.lastEsr = false ∧
    j = srt r.lastEsr ∧ j < 31

/-- What an entry can change of a REC and its realm before the realm runs. -/
structure Spec.Continues (c : Call) (w w1 : World) : Prop where
  regs : ∀ j, w1.rc.regs j ≠ w.rc.regs j →
    (w.rc.ripas.base ≠ w.rc.ripas.top ∧ j ≤ 2) ∨ (w.rc.hostCall = true ∧ j = 0) ∨ Spec.Loads c w.rc j
  pc : w1.rc.pc ≠ w.rc.pc →
    (c.enter.flags.getLsbD 1 = true ∧ LastShared w.rc) ∨
    (c.enter.flags.getLsbD 0 = true ∧ c.enter.flags.getLsbD 1 = false ∧ LastEmulatable w.rc)
  exc : c.enter.flags.getLsbD 1 = false →
    w1.rc.pstate = w.rc.pstate ∧ w1.rc.elr1 = w.rc.elr1 ∧ w1.rc.spsr1 = w.rc.spsr1 ∧ w1.rc.esr1 = w.rc.esr1 ∧
      w1.rc.far1 = w.rc.far1
  sys : w1.rc.vbar = w.rc.vbar ∧ w1.rc.sctlr = w.rc.sctlr ∧ w1.rc.sctlr2 = w.rc.sctlr2
  who : w1.rc.idx = w.rc.idx ∧ w1.rc.ipaBits = w.rc.ipaBits ∧ w1.rc.sveEn = w.rc.sveEn ∧ w1.rc.commonHcr = w.rc.commonHcr
  timers : w1.rc.cntvCtl = w.rc.cntvCtl ∧ w1.rc.cntpCtl = w.rc.cntpCtl ∧ w1.rc.cnthctl = w.rc.cnthctl
  serror : w1.rc.serror = w.rc.serror ∧ w1.rc.vsesr = w.rc.vsesr
  mem : ∀ p, w1.mem p ≠ w.mem p → w.rc.hostCall = true ∧
    ∃ pa, c.env.walk (w.rc.regs 1 &&& ~~~0xfff) = .ram pa ∧
      pa + (w.rc.regs 1).toNat % 4096 + 8 ≤ p ∧ p < pa + (w.rc.regs 1).toNat % 4096 + 256
  realm : w1.slots = w.slots ∧ w1.att = w.att ∧ w1.state = w.state

theorem continues_of_path {c : Call} {w w1 : World} {r1 r2 r3 : Rec} (hi : Inv w.rc) (hp : Path c w r1 r2 r3 (w1, true)) :
    Spec.Continues c w w1 := by
  have hs1 := completeSea_some hp.sea
  have hm := completeMmio_some hp.mmio
  have a1 := hs1.1
  have a2 := hm.1
  have l1 : r1.lastEsr = w.rc.lastEsr := a1.lastEsr
  have l2 : r2.lastEsr = w.rc.lastEsr := a2.lastEsr.trans l1
  have p2 : r2.ripas = w.rc.ripas := a2.ripas.trans a1.ripas
  -- no register is written for a system register
  have h3 : r3 = completeRipas r2 c.enter := by
    have h := hp.sysreg
    have hl : (completeRipas r2 c.enter).lastEsr = w.rc.lastEsr := by
      rw [← l2]; unfold completeRipas; dsimp only; split <;> rfl
    unfold completeSysreg at h
    rcases ite_or h with ⟨_, h⟩ | ⟨h1, h⟩
    · exact (Option.some.inj h).symm
    · rw [hl] at h1 h
      rw [if_pos (hi.sysreg (by simpa using h1))] at h
      exact (Option.some.inj h).symm
  -- the steps one by one
  have rip : (∀ j, r3.regs j ≠ r2.regs j → w.rc.ripas.base ≠ w.rc.ripas.top ∧ j ≤ 2) ∧
      ({ r3 with regs := r2.regs, ripas := r2.ripas } : Rec) = r2 := by
    rw [h3]
    unfold completeRipas
    dsimp only
    rw [p2]
    split
    · exact ⟨fun j hj => absurd rfl hj, by rw [← p2]⟩
    · rename_i hne
      refine ⟨fun j hj => ⟨hne, ?_⟩, by rw [← p2]⟩
      by_contra hc
      apply hj
      show upd _ 2 _ j = _
      unfold upd
      rw [if_neg (by omega), if_neg (by omega), if_neg (by omega)]
  have hmm : (∀ j, r2.regs j ≠ r1.regs j → Spec.Loads c w.rc j) ∧
      (r2.pc ≠ r1.pc → c.enter.flags.getLsbD 0 = true ∧ c.enter.flags.getLsbD 1 = false ∧ LastEmulatable w.rc) ∧
      ({ r2 with regs := r1.regs, pc := r1.pc } : Rec) = r1 := by
    rcases hm.2 with ⟨_, h⟩ | ⟨f0, f1, e1, e2, ⟨e3, e4, h⟩ | ⟨e3, h⟩⟩
    · subst h
      exact ⟨fun j hj => absurd rfl hj, fun hj => absurd rfl hj, rfl⟩
    · rw [l1] at e1 e2 e3
      subst h
      refine ⟨fun j hj => ⟨f0, f1, ⟨e1, e2⟩, e3, ?_⟩, fun _ => ⟨f0, f1, e1, e2⟩, rfl⟩
      by_cases hj' : j = srt r1.lastEsr
      · exact ⟨hj'.trans (by rw [l1]), hj' ▸ e4⟩
      · exact absurd (if_neg hj') hj
    · rw [l1] at e1 e2
      subst h
      exact ⟨fun j hj => absurd rfl hj, fun _ => ⟨f0, f1, e1, e2⟩, rfl⟩
  have hsea : (c.enter.flags.getLsbD 1 = false → r1 = (withGic c w).rc) ∧
      (r1.pc ≠ w.rc.pc → c.enter.flags.getLsbD 1 = true ∧ LastShared w.rc) ∧ r1.regs = w.rc.regs := by
    refine ⟨fun hf => ?_, fun hpc => ?_, hs1.2.1⟩
    · rcases hs1.2.2 with ⟨_, h⟩ | ⟨h, _⟩
      · exact h
      · unfold Enter.injectSea at h; rw [hf] at h; cases h
    · rcases hs1.2.2 with ⟨_, h⟩ | ⟨h, h1, h2, _⟩
      · subst h; exact absurd rfl hpc
      · refine ⟨h, h1, ?_⟩
        have h2 : inPar w.rc (fipaOf w.rc.lastHpfar) = false := h2
        unfold inPar at h2
        simpa using h2
  obtain ⟨_, hst, hsl, hat, _, hcase⟩ := completeHostCall_true hp.call
  have hcall : w1.slots = w.slots ∧ w1.att = w.att ∧ w1.state = w.state := ⟨hsl, hat, hst⟩
  have hc3 : r3.hostCall = w.rc.hostCall := by
    have : r3.hostCall = r2.hostCall := by have := congrArg (fun r : Rec => r.hostCall) rip.2; exact this
    rw [this, a2.hostCall, a1.hostCall]; rfl
  have key : (∀ j, w1.rc.regs j ≠ r3.regs j → w.rc.hostCall = true ∧ j = 0) ∧
      ({ w1.rc with regs := r3.regs, hostCall := r3.hostCall } : Rec) = r3 := by
    rcases hcase with ⟨_, h⟩ | ⟨h1, _, ⟨l, _, h⟩ | ⟨pa, _, h⟩⟩
    · subst h; exact ⟨fun j hj => absurd rfl hj, rfl⟩
    · subst h; exact ⟨fun j hj => absurd rfl hj, rfl⟩
    · subst h
      refine ⟨fun j hj => ⟨hc3.symm.trans h1, ?_⟩, rfl⟩
      by_contra hc
      exact hj (if_neg hc)
  have hmem : ∀ p, w1.mem p ≠ w.mem p → w.rc.hostCall = true ∧
      ∃ pa, c.env.walk (w.rc.regs 1 &&& ~~~0xfff) = .ram pa ∧
        pa + (w.rc.regs 1).toNat % 4096 + 8 ≤ p ∧ p < pa + (w.rc.regs 1).toNat % 4096 + 256 := by
    intro p hne
    rcases hcase with ⟨_, h⟩ | ⟨h1, _, ⟨l, _, h⟩ | ⟨pa, hw, h⟩⟩
    · subst h; exact absurd rfl hne
    · subst h; exact absurd rfl hne
    · have hhc : w.rc.hostCall = true := hc3.symm.trans h1
      have hregs : r3.regs = w.rc.regs := by rw [path_call hi hp hhc]
      have hw : c.env.walk (r3.regs 1 &&& ~~~0xfff) = .ram pa := hw
      rw [hregs] at hw
      refine ⟨hhc, pa, hw, ?_⟩
      have hm2 := (hostCallIn_mem { withGic c w with rc := r3 } c.enter (hostCallPa r3 pa)).2 p
      rw [hostCallPa_eq, hregs] at hm2
      by_contra hc
      refine hne ?_
      rw [h]
      show (hostCallIn { withGic c w with rc := r3 } c.enter (hostCallPa r3 pa)).mem p = _
      rw [hostCallPa_eq, hregs]
      exact hm2 (by omega)
  have f {α : Type} (g : Rec → α) (hg : ∀ (r : Rec) x y z u v, g { r with regs := x, ripas := y, pc := z, hostCall := u } = v ↔ g r = v) :
      g w1.rc = g r1 := by
    have k1 := congrArg g key.2
    have k2 := congrArg g rip.2
    have k3 := congrArg g hmm.2.2
    have q1 : g w1.rc = g r3 := by
      rw [← (hg w1.rc r3.regs w1.rc.ripas w1.rc.pc r3.hostCall (g r3))]; exact k1
    have q2 : g r3 = g r2 := by
      rw [← (hg r3 r2.regs r2.ripas r3.pc r3.hostCall (g r2))]; exact k2
    have q3 : g r2 = g r1 := by
      rw [← (hg r2 r1.regs r2.ripas r1.pc r2.hostCall (g r1))]; exact k3
    exact q1.trans (q2.trans q3)
  have hpc : w1.rc.pc = r2.pc := by
    have k1 := congrArg (fun r : Rec => r.pc) key.2
    have k2 := congrArg (fun r : Rec => r.pc) rip.2
    exact Eq.trans k1 k2
  refine ⟨fun j hj => ?_, fun hne => ?_, fun hf => ?_, ?_, ?_, ?_, ?_, hmem, hcall⟩
  · by_cases h1 : w1.rc.regs j = r3.regs j
    · by_cases h2 : r3.regs j = r2.regs j
      · have h4 : r2.regs j ≠ r1.regs j := by
          intro h4
          exact hj (h1.trans (h2.trans (h4.trans (congrFun hsea.2.2 j))))
        exact .inr (.inr (hmm.1 j h4))
      · exact .inl (rip.1 j h2)
    · exact .inr (.inl (key.1 j h1))
  · rw [hpc] at hne
    by_cases h1 : r2.pc = r1.pc
    · exact .inl (hsea.2.1 (h1 ▸ hne))
    · exact .inr (hmm.2.1 h1)
  · have e := hsea.1 hf
    refine ⟨(f Rec.pstate fun _ _ _ _ _ _ => .rfl).trans ?_, (f Rec.elr1 fun _ _ _ _ _ _ => .rfl).trans ?_,
      (f Rec.spsr1 fun _ _ _ _ _ _ => .rfl).trans ?_, (f Rec.esr1 fun _ _ _ _ _ _ => .rfl).trans ?_,
      (f Rec.far1 fun _ _ _ _ _ _ => .rfl).trans ?_⟩ <;> rw [e] <;> rfl
  · exact ⟨(f Rec.vbar fun _ _ _ _ _ _ => .rfl).trans a1.vbar, (f Rec.sctlr fun _ _ _ _ _ _ => .rfl).trans a1.sctlr,
      (f Rec.sctlr2 fun _ _ _ _ _ _ => .rfl).trans a1.sctlr2⟩
  · exact ⟨(f Rec.idx fun _ _ _ _ _ _ => .rfl).trans a1.idx, (f Rec.ipaBits fun _ _ _ _ _ _ => .rfl).trans a1.ipaBits,
      (f Rec.sveEn fun _ _ _ _ _ _ => .rfl).trans a1.sveEn, (f Rec.commonHcr fun _ _ _ _ _ _ => .rfl).trans a1.commonHcr⟩
  · exact ⟨(f Rec.cntvCtl fun _ _ _ _ _ _ => .rfl).trans a1.cntvCtl, (f Rec.cntpCtl fun _ _ _ _ _ _ => .rfl).trans a1.cntpCtl,
      (f Rec.cnthctl fun _ _ _ _ _ _ => .rfl).trans a1.cnthctl⟩
  · exact ⟨(f Rec.serror fun _ _ _ _ _ _ => .rfl).trans a1.serror, (f Rec.vsesr fun _ _ _ _ _ _ => .rfl).trans a1.vsesr⟩

/-- **C60.**  A REC that is entered continues from the state in which it stopped.  The only exceptions are the answers to
what the realm has asked for: a RIPAS change (X0 to X2), a host call (X0 and the call structure), an emulated load (its
register and the PC), and an abort for an access to shared memory (the PC and the exception registers).  In particular the
host can give no value for a system register. -/
theorem C60_continues {c : Call} {w : World} {o : Out} (hi : Inv w.rc) (h : recEnter c w = some o) (hran : o.ran = true) :
    ∃ w1, runRec c w1 = some o ∧ Spec.Continues c w w1 := by
  obtain ⟨r1, r2, r3, ⟨w1, b⟩, hp, hb, hrun⟩ := recEnter_ran h hran
  simp only at hb
  subst hb
  exact ⟨w1, hrun, continues_of_path hi hp⟩

/-! ## C85 -/

namespace Spec

/-- AET, ISS bits 12:10 of an SError: 0 uncontainable, 1 unrecoverable, 2 restartable, 3 recoverable, 6 corrected. -/
def aet (esr : W) : Nat := esr.toNat / 2 ^ 10 % 8
/-- DFSC, ISS bits 5:0: the architecture has 0 (uncategorised) and 0b010001 (asynchronous SError, with AET). -/
def dfsc (esr : W) : Nat := esr.toNat % 2 ^ 6

/-- The error is fatal to what was running and nothing else. -/
def Fatal (esr : W) : Prop := aet esr = 1 ∨ aet esr = 3

/-- The software can go on. -/
def Harmless (esr : W) : Prop := aet esr = 2 ∨ aet esr = 6

/-- What the host may see of the syndrome: IDS, AET, EA, DFSC. -/
def serrorBit (k : Nat) : Bool := k == 24 || (10 ≤ k && k ≤ 12) || k == 9 || k ≤ 5

end Spec

theorem aet_eq (e : W) (k : BitVec 3) : (e.extractLsb' 10 3 = k) ↔ aet e = k.toNat := by
  have : (e.extractLsb' 10 3).toNat = aet e := by
    rw [BitVec.extractLsb'_toNat, Nat.shiftRight_eq_div_pow]; rfl
  rw [← this]
  exact ⟨fun h => by rw [h], fun h => BitVec.eq_of_toNat_eq h⟩

theorem dfsc_eq (e : W) (k : BitVec 6) : (e.extractLsb' 0 6 = k) ↔ dfsc e = k.toNat := by
  have : (e.extractLsb' 0 6).toNat = dfsc e := by
    rw [BitVec.extractLsb'_toNat, Nat.shiftRight_eq_div_pow, Nat.pow_zero, Nat.div_one]; rfl
  rw [← this]
  exact ⟨fun h => by rw [h], fun h => BitVec.eq_of_toNat_eq h⟩

theorem serror_mask : ∀ k : Fin 64, M_SERROR.getLsbD k = serrorBit k := by decide

/-- **C85, finding.**  RMM stops for every SError that the architecture can report: the code that stands for an asynchronous
SError is 0b010001, and `ESR_EL2_SERROR_DFSC_ASYNC` is 1. -/
theorem C85_stops (env : Env) (w : World) {hw : Hw} (hd : dfsc hw.esr = 0 ∨ dfsc hw.esr = 0x11) :
    handleExit env w .serror hw = none := by
  have h : ∀ w, serrorExit w hw = none := by
    intro w
    unfold serrorExit
    split
    · rfl
    · rw [if_pos]
      intro hc
      have := (dfsc_eq _ _).mp hc
      have h1 : dfsc hw.esr = 1 := this
      omega
  show Option.map _ (serrorExit _ hw) = none
  rw [h]
  rfl

/-- **C85.**  The rest of the claim, for the code that RMM takes for an asynchronous SError: exactly the contained errors
are reported, with the syndrome and without anything else; the fatal ones are kept for the realm with their syndrome, and
the state of the realm is as it was. -/
theorem C85_report_partial (env : Env) (w : World) {hw : Hw} (hi : hw.esr.getLsbD 24 = false) (hd : dfsc hw.esr = 1) :
    (¬ Fatal hw.esr → ¬ Harmless hw.esr → handleExit env w .serror hw = none) ∧
    (Fatal hw.esr ∨ Harmless hw.esr → ∃ w', handleExit env w .serror hw = some (w', false) ∧
      (∃ v, w'.ex = { w.ex with reason := EXIT_SERROR, esr := v } ∧
        ∀ k < 64, v.getLsbD k = (serrorBit k && hw.esr.getLsbD k)) ∧
      w'.mem = w.mem ∧ w'.state = w.state ∧ w'.slots = w.slots ∧ w'.att = w.att ∧
      w'.rc = { w.rc with
        serror := w'.rc.serror, vsesr := w'.rc.vsesr, lastEsr := hw.esr, lastFar := hw.far, lastHpfar := hw.hpfar } ∧
      (Fatal hw.esr → w'.rc.serror = true ∧ w'.rc.vsesr = hw.esr) ∧
      (Harmless hw.esr → w'.rc.serror = w.rc.serror ∧ w'.rc.vsesr = w.rc.vsesr)) := by
  have h0 : ∀ w, serrorExit w hw =
      if hw.esr.extractLsb' 10 3 = (1 : BitVec 3) ∨ hw.esr.extractLsb' 10 3 = (3 : BitVec 3) then
        some { w with rc := { w.rc with vsesr := hw.esr, serror := true }, ex := { w.ex with esr := hw.esr &&& M_SERROR } }
      else if hw.esr.extractLsb' 10 3 = (6 : BitVec 3) ∨ hw.esr.extractLsb' 10 3 = (2 : BitVec 3) then
        some { w with ex := { w.ex with esr := hw.esr &&& M_SERROR } }
      else none := by
    intro w
    unfold serrorExit
    rw [if_neg (by rw [hi]; decide), if_neg (fun hc => hc ((dfsc_eq _ _).mpr hd))]
  have hF : (hw.esr.extractLsb' 10 3 = (1 : BitVec 3) ∨ hw.esr.extractLsb' 10 3 = (3 : BitVec 3)) ↔ Fatal hw.esr := by
    rw [aet_eq, aet_eq]; exact .rfl
  have hH : (hw.esr.extractLsb' 10 3 = (6 : BitVec 3) ∨ hw.esr.extractLsb' 10 3 = (2 : BitVec 3)) ↔ Harmless hw.esr := by
    rw [aet_eq, aet_eq]; exact Or.comm
  have hex : ¬ (Fatal hw.esr ∧ Harmless hw.esr) := by unfold Fatal Harmless; omega
  have hv : ∀ k < 64, (hw.esr &&& M_SERROR).getLsbD k = (serrorBit k && hw.esr.getLsbD k) := by
    intro k hk
    rw [BitVec.getLsbD_and, serror_mask ⟨k, hk⟩, Bool.and_comm]
  constructor
  · intro h1 h2
    show Option.map _ (serrorExit _ hw) = none
    rw [h0, if_neg (hF.not.mpr h1), if_neg (hH.not.mpr h2)]
    rfl
  · intro h1
    by_cases hf : Fatal hw.esr
    · refine ⟨{ w with
          rc := { w.rc with vsesr := hw.esr, serror := true, lastEsr := hw.esr, lastFar := hw.far, lastHpfar := hw.hpfar }
          ex := { w.ex with reason := EXIT_SERROR, esr := hw.esr &&& M_SERROR } }, ?_, ⟨_, rfl, hv⟩, rfl, rfl, rfl, rfl, rfl,
        fun _ => ⟨rfl, rfl⟩, fun hh => absurd ⟨hf, hh⟩ hex⟩
      show Option.map _ (serrorExit _ hw) = _
      rw [h0, if_pos (hF.mpr hf)]
      rfl
    · have hh : Harmless hw.esr := h1.resolve_left hf
      refine ⟨{ w with
          rc := { w.rc with lastEsr := hw.esr, lastFar := hw.far, lastHpfar := hw.hpfar }
          ex := { w.ex with reason := EXIT_SERROR, esr := hw.esr &&& M_SERROR } }, ?_, ⟨_, rfl, hv⟩, rfl, rfl, rfl, rfl, rfl,
        fun h => absurd h hf, fun _ => ⟨rfl, rfl⟩⟩
      show Option.map _ (serrorExit _ hw) = _
      rw [h0, if_neg (hF.not.mpr hf), if_pos (hH.mpr hh)]
      rfl

/-- **C85.**  A syndrome with implementation-defined contents (IDS, bit 24) stops the RMM. -/
theorem C85_implementation_defined (env : Env) (w : World) {hw : Hw} (hi : hw.esr.getLsbD 24 = true) :
    handleExit env w .serror hw = none := by
  show Option.map _ (serrorExit _ hw) = none
  unfold serrorExit
  rw [if_pos hi]
  rfl

/-- An exit for another reason than an SError leaves the pending one alone. -/
theorem handleExit_err {env : Env} {w w' : World} {e : Exc} {hw : Hw} {b : Bool} (he : e ≠ .serror)
    (h : handleExit env w e hw = some (w', b)) : w'.rc.serror = w.rc.serror := by
  cases e with
  | irq => obtain rfl := (Prod.mk.inj (Option.some.inj h)).1; rfl
  | fiq => obtain rfl := (Prod.mk.inj (Option.some.inj h)).1; rfl
  | other => obtain rfl := (Prod.mk.inj (Option.some.inj h)).1; rfl
  | serror => exact absurd rfl he
  | sync =>
    obtain ⟨⟨w1, b1⟩, h1, h2⟩ := map_some h
    cases b1
    case true =>
      obtain rfl : w1 = w' := by simpa using (Prod.mk.inj h2).1
      exact (syncExit_true h1).1.serror
    obtain rfl := (Prod.mk.inj h2).1
    show w1.rc.serror = w.rc.serror
    unfold syncExit at h1
    rcases ite_or h1 with ⟨hc, h1⟩ | ⟨_, h1⟩
    · obtain rfl := (Prod.mk.inj (Option.some.inj h1)).1
      rfl
    rcases ite_or h1 with ⟨hc, h1⟩ | ⟨_, h1⟩
    · obtain ⟨_, _, h3⟩ := map_some h1; simp at h3
    rcases ite_or h1 with ⟨hc, h1⟩ | ⟨_, h1⟩
    · obtain ⟨p, hp, h1⟩ := bind_some h1
      have hk := (rsiSwitch_rsiKept hp).2.1
      unfold rsiFinish at h1
      dsimp only at h1
      obtain ⟨w2, h3, h4⟩ := map_some h1
      obtain rfl := (Prod.mk.inj h4).1
      rcases ite_or h3 with ⟨_, h3⟩ | ⟨_, h3⟩
      · unfold emulateS2Abort at h3
        rcases ite_or h3 with ⟨_, h3⟩ | ⟨_, h3⟩
        · obtain rfl := Option.some.inj h3
          exact hk
        · simp at h3
      · obtain rfl := Option.some.inj h3
        exact hk
    rcases ite_or h1 with ⟨hc, h1⟩ | ⟨hns, h1⟩
    · obtain ⟨⟨w2, b⟩, h3, h4⟩ := map_some h1
      obtain ⟨rfl, hb⟩ := Prod.mk.inj h4
      simp only at hb
      subst hb
      obtain ⟨hr, _⟩ := sysregTrap_false h3
      show (advancePc w2.rc).serror = _
      rw [hr]
      rfl
    rcases ite_or h1 with ⟨hc, h1⟩ | ⟨_, h1⟩
    · exact (instrAbort_false h1).serror
    rcases ite_or h1 with ⟨hc, h1⟩ | ⟨hnd, h1⟩
    · exact (dataAbort_false h1).1.serror
    rcases ite_or h1 with ⟨hc, h1⟩ | ⟨_, h1⟩
    · obtain ⟨_, _, h3⟩ := map_some h1; simp at h3
    · obtain rfl := (Prod.mk.inj (Option.some.inj h1)).1
      rfl

/-- One turn of the loop: the timers end it before the realm runs, or the realm has run and only a new SError is
pending. -/
theorem iter_err {w w' : World} {e : Ev} {b : Bool} (h : iter w e = some (w', b)) :
    (b = false ∧ (checkTimers w.rc e.ctlV e.ctlP).2 = true ∧ w'.rc.serror = w.rc.serror ∧ w'.rc.vsesr = w.rc.vsesr ∧
      w'.ex.reason = EXIT_IRQ) ∨
    (w'.rc.serror = true → b = false ∧ e.exc = .serror ∧ Fatal e.hw.esr ∧ w'.rc.vsesr = e.hw.esr ∧
      w'.ex.reason = EXIT_SERROR) := by
  unfold iter at h
  dsimp only at h
  rcases ite_or h with ⟨ht, h⟩ | ⟨_, h⟩
  · obtain ⟨rfl, rfl⟩ := Prod.mk.inj (Option.some.inj h)
    exact .inl ⟨rfl, ht, rfl, rfl, rfl⟩
  · refine .inr fun hs => ?_
    generalize hw1 : afterRun _ e = w1 at h
    have hs1 : w1.rc.serror = false := by subst hw1; rfl
    by_cases he : e.exc = .serror
    · rw [he] at h
      obtain ⟨w2, h1, h2⟩ := map_some h
      obtain ⟨rfl, rfl⟩ := Prod.mk.inj h2
      unfold serrorExit at h1
      dsimp only at h1
      rcases ite_or h1 with ⟨_, h1⟩ | ⟨_, h1⟩
      · simp at h1
      rcases ite_or h1 with ⟨_, h1⟩ | ⟨_, h1⟩
      · simp at h1
      rcases ite_or h1 with ⟨ha, h1⟩ | ⟨_, h1⟩
      · obtain rfl := Option.some.inj h1
        rw [aet_eq, aet_eq] at ha
        exact ⟨rfl, he, ha, rfl, rfl⟩
      rcases ite_or h1 with ⟨_, h1⟩ | ⟨_, h1⟩
      · obtain rfl := Option.some.inj h1
        exact absurd (hs.symm.trans hs1) (by decide)
      · simp at h1
    · rw [handleExit_err he h, hs1] at hs
      cases hs

theorem loop_err : ∀ {es : List Ev} {w w' : World}, loop es w = some (w', true) → w'.rc.serror = true →
    (∃ e ∈ es, e.exc = .serror ∧ Fatal e.hw.esr ∧ w'.rc.vsesr = e.hw.esr ∧ w'.ex.reason = EXIT_SERROR) ∨
    (w.rc.serror = true ∧ w'.rc.vsesr = w.rc.vsesr ∧ w'.ex.reason = EXIT_IRQ ∧
      ∃ e es', es = e :: es' ∧ (checkTimers w.rc e.ctlV e.ctlP).2 = true)
  | [], _, _, h, _ => by cases h
  | e :: es, w, w', h, hs => by
    obtain ⟨⟨w1, b⟩, h1, h2⟩ := bind_some h
    cases b with
    | false =>
      obtain rfl : w1 = w' := by simpa using h2
      rcases iter_err h1 with ⟨_, a1, a2, a3, a4⟩ | a
      · exact .inr ⟨a2.symm.trans hs, a3, a4, e, es, rfl, a1⟩
      · exact .inl ⟨e, List.mem_cons_self, (a hs).2⟩
    | true =>
      rcases loop_err (es := es) (w := w1) (by simpa using h2) hs with ⟨f, hf, a⟩ | ⟨a, _⟩
      · exact .inl ⟨f, List.mem_cons_of_mem _ hf, a⟩
      · rcases iter_err h1 with ⟨hb, _⟩ | a'
        · cases hb
        · cases (a' a).1

/-- **C85.**  An SError is delivered once.  One that is pending after a run was taken in that run, as its last exit; or it
was pending before and the realm has not run, because the host had to be told of a timer first. -/
theorem C85_once {c : Call} {w : World} {o : Out} (hi : Inv w.rc) (h : recEnter c w = some o) (hran : o.ran = true)
    (hs : o.w.rc.serror = true) :
    (∃ e ∈ c.evs, e.exc = .serror ∧ Fatal e.hw.esr ∧ o.w.rc.vsesr = e.hw.esr ∧ o.w.ex.reason = EXIT_SERROR) ∨
    (w.rc.serror = true ∧ o.w.rc.vsesr = w.rc.vsesr ∧ o.w.ex.reason = EXIT_IRQ ∧
      ∃ e es, c.evs = e :: es ∧ ¬ Tim.SameOutputs e.ctlV e.ctlP w.rc.cntvCtl w.rc.cntpCtl) := by
  obtain ⟨r1, r2, r3, ⟨w1, b⟩, hp, hb, hrun⟩ := recEnter_ran h hran
  simp only at hb
  subst hb
  have hk := continues_of_path hi hp
  obtain ⟨w2, hl, ho⟩ := runRec_some hrun
  subst ho
  rw [leave_w] at hs ⊢
  rcases loop_err hl hs with h1 | ⟨h1, h2, h3, e, es, h4, h5⟩
  · exact .inl h1
  · refine .inr ⟨hk.serror.1.symm.trans h1, h2.trans hk.serror.2, h3, e, es, h4, fun hc => ?_⟩
    have hs' := (checkTimers_same (startRun c w1).rc e.ctlV e.ctlP).mpr (by
      show Tim.SameOutputs _ _ w1.rc.cntvCtl w1.rc.cntpCtl
      rw [hk.timers.1, hk.timers.2.1]; exact hc)
    rw [hs'] at h5
    cases h5

/-- **C85.**  A run that ends because of a timer, before the realm has run, keeps it, with its syndrome. -/
theorem C85_timer_keeps {c : Call} {w : World} {o : Out} {e : Ev} {es : List Ev} (hi : Inv w.rc) (h : recEnter c w = some o)
    (hran : o.ran = true) (he : c.evs = e :: es)
    (ht : ¬ Tim.SameOutputs e.ctlV e.ctlP w.rc.cntvCtl w.rc.cntpCtl) :
    o.w.rc.serror = w.rc.serror ∧ o.w.rc.vsesr = w.rc.vsesr := by
  obtain ⟨r1, r2, r3, ⟨w1, b⟩, hp, hb, hrun⟩ := recEnter_ran h hran
  simp only at hb
  subst hb
  have hk := continues_of_path hi hp
  obtain ⟨w2, hl, ho⟩ := runRec_some hrun
  subst ho
  rw [leave_w]
  have hc : (checkTimers (startRun c w1).rc e.ctlV e.ctlP).2 = true := by
    cases hc : (checkTimers (startRun c w1).rc e.ctlV e.ctlP).2
    · have h2 : Tim.SameOutputs e.ctlV e.ctlP w1.rc.cntvCtl w1.rc.cntpCtl := (checkTimers_same _ _ _).mp hc
      rw [hk.timers.1, hk.timers.2.1] at h2
      exact absurd h2 ht
    · rfl
  rw [he] at hl
  obtain ⟨⟨w3, b⟩, h1, h2⟩ := bind_some hl
  unfold iter at h1
  dsimp only at h1
  rw [if_pos hc] at h1
  obtain ⟨rfl, rfl⟩ := Prod.mk.inj (Option.some.inj h1)
  obtain rfl : _ = w2 := (Prod.mk.inj (Option.some.inj h2)).1
  exact hk.serror

/-- **C85.**  An entry that does not run the realm keeps it. -/
theorem C85_kept {c : Call} {w : World} {o : Out} (h : recEnter c w = some o) (hran : o.ran = false) :
    o.w.rc.serror = w.rc.serror ∧ o.w.rc.vsesr = w.rc.vsesr := by
  rcases recEnter_cases h with ⟨_, _, h1, _⟩ | ⟨_, _, _, _, h1, _⟩ | ⟨_, _, _, _, r1, h1, h2, h3⟩ |
    ⟨r1, r2, r3, p, hp, ⟨hb, h1⟩ | ⟨hb, h1⟩⟩
  · rw [h1]; exact ⟨rfl, rfl⟩
  · rw [h1]; exact ⟨rfl, rfl⟩
  · rw [h1]
    have := (completeSea_some h2).1
    exact ⟨this.serror, this.vsesr⟩
  · rw [h1, leave_w]
    have a := (completeSysreg_some hp.sysreg).1
    have b : (completeRipas r2 c.enter).serror = r2.serror ∧ (completeRipas r2 c.enter).vsesr = r2.vsesr := by
      unfold completeRipas
      dsimp only
      split <;> exact ⟨rfl, rfl⟩
    have d := (completeMmio_some hp.mmio).1
    have f := (completeSea_some hp.sea).1
    have h3 : r3.serror = w.rc.serror ∧ r3.vsesr = w.rc.vsesr :=
      ⟨by rw [a.serror, b.1, d.serror, f.serror]; rfl, by rw [a.vsesr, b.2, d.vsesr, f.vsesr]; rfl⟩
    obtain ⟨w1, q⟩ := p
    simp only at hb
    subst hb
    obtain ⟨_, _, _, _, _, _, h⟩ := completeHostCall_false hp.call
    unfold emulateS2Abort at h
    rcases ite_or h with ⟨_, h⟩ | ⟨_, h⟩
    · obtain rfl := Option.some.inj h
      exact h3
    · simp at h
  · rw [runRec_ran h1] at hran; simp at hran

/-! ### Examples -/

/-- The architecture's code with a corrected error, and the two codes that RMM takes. -/
example : dfsc 0xbe001811 = 0x11 ∧ handleExit Demo.env Demo.world .serror ⟨0xbe001811, 0, 0⟩ = none :=
  ⟨by decide, C85_stops _ _ (.inr (by decide))⟩

example : (0xbe000401 : W).getLsbD 24 = false ∧ dfsc 0xbe000401 = 1 ∧ Fatal 0xbe000401 ∧ Harmless 0xbe001801 ∧
    ¬ Fatal 0xbe000001 ∧ ¬ Harmless 0xbe000001 := by
  unfold Fatal Harmless
  decide

/-- An unrecoverable error is left pending, with its syndrome. -/
example : ((recEnter (Demo.call 0 0 [Demo.ev .serror ⟨0xbe000601, 0, 0⟩ (fun _ => 0)]) Demo.world).any fun o =>
    o.ran && o.w.rc.serror && o.w.rc.vsesr == 0xbe000601 &&
      o.host.any fun x => x.reason == EXIT_SERROR && x.esr == 0x601) = true := by
  decide +kernel

/-- A pending error, and a timer that has to be reported first. -/
example : ((recEnter (Demo.call 0 0 [{ Demo.ev .irq ⟨0, 0, 0⟩ (fun _ => 0) with ctlV := 5 }])
    { Demo.world with rc := { Demo.rc with serror := true, vsesr := 0x601 } }).any fun o =>
    o.ran && o.w.rc.serror && o.w.rc.vsesr == 0x601 && o.host.any fun x => x.reason == EXIT_IRQ) = true := by
  decide +kernel

example : ¬ Tim.SameOutputs 5 0 Demo.rc.cntvCtl Demo.rc.cntpCtl ∧ (0xbf000001 : W).getLsbD 24 = true :=
  ⟨fun h => absurd (h.1.mp ⟨rfl, rfl, rfl⟩).1 (by decide), by decide⟩

/-- A pending error that is delivered. -/
example : ((recEnter (Demo.call 0 0 [Demo.ev .irq ⟨0, 0, 0⟩ (fun _ => 0)])
    { Demo.world with rc := { Demo.rc with serror := true, vsesr := 0x601 } }).any fun o => o.ran && !o.w.rc.serror) = true := by
  decide +kernel

/-- An entry that is refused. -/
example : ((recEnter { Demo.call 0 0 [] with readOk := false }
    { Demo.world with rc := { Demo.rc with serror := true, vsesr := 0x601 } }).any fun o => !o.ran && o.w.rc.serror) = true := by
  decide +kernel

end Verif.Run
