import Verif.Run.Sys
import Verif.Run.PropCall

/-!
# C31: the PSCI handshake
-/

namespace Verif.Run

namespace Spec

/-- A request for another REC that the host has to complete: `f` is CPU_ON or AFFINITY_INFO (the function identifier is
in the low half of X0), X1 names a REC of the realm other than the caller, and the entry point of CPU_ON is a protected
address.  `n` is the number of RECs of the realm. -/
structure PsciReq (r : Rec) (n : Nat) : Prop where
  fn : (r.regs 0).toNat % 2 ^ 32 = 0x84000003 ∨ (r.regs 0).toNat % 2 ^ 32 = 0xC4000003 ∨
    (r.regs 0).toNat % 2 ^ 32 = 0x84000004 ∨ (r.regs 0).toNat % 2 ^ 32 = 0xC4000004
  target : (Mpidr.el1ToIdx (r.regs 1)).toNat < n
  other : Mpidr.el1ToIdx (r.regs 1) ≠ r.idx
  entry : (r.regs 0).toNat % 2 ^ 32 = 0x84000003 ∨ (r.regs 0).toNat % 2 ^ 32 = 0xC4000003 →
    (r.regs 2).toNat < 2 ^ (r.ipaBits - 1)

end Spec

open Spec

/-! ## Realm calls -/

/-- What a realm call does to the fields a handshake depends on. -/
structure Calm (r r' : Rec) : Prop where
  idx : r'.idx = r.idx
  bits : r'.ipaBits = r.ipaBits
  off : r'.runnable = true → r.runnable = true
  pending : r'.pending = r.pending

theorem Calm.refl (r : Rec) : Calm r r := ⟨rfl, rfl, id, rfl⟩

theorem calm_same {r r' : Rec} (h : r' = r) : Calm r r' := h ▸ Calm.refl r

theorem calm_of_admin {r r' : Rec} (h : SameAdmin r r') : Calm r r' :=
  ⟨h.idx, h.ipaBits, fun x => h.runnable.symm.trans x, h.pending⟩

theorem Calm.trans {a b c : Rec} (h : Calm a b) (h' : Calm b c) : Calm a c :=
  ⟨h'.idx.trans h.idx, h'.bits.trans h.bits, fun x => h.off (h'.off x), h'.pending.trans h.pending⟩

theorem low_word (x : W) : (x.setWidth 32).toNat = x.toNat % 2 ^ 32 := BitVec.toNat_setWidth 32 x

theorem psci_calm (env : Env) (w : World) (hb : 32 ≤ w.rc.ipaBits ∧ w.rc.ipaBits ≤ 52) :
    Calm w.rc (psci env w).1.rc ∨
    (PsciReq w.rc env.recCount.toNat ∧ (psci env w).1.rc = { w.rc with pending := true } ∧
      (psci env w).2.act = EXIT_TO_HOST) := by
  have calm : ∀ {x : World × Res}, psci env w = x → Calm w.rc x.1.rc → Calm w.rc (psci env w).1.rc := by
    intro x h q; rw [h]; exact q
  unfold psci at calm ⊢
  dsimp only at calm ⊢
  have fn : ∀ {k : BitVec 32}, (w.rc.regs 0).setWidth 32 = k → (w.rc.regs 0).toNat % 2 ^ 32 = k.toNat := by
    intro k h; rw [← low_word, h]
  by_cases h0 : (w.rc.regs 0).setWidth 32 = 0x84000000
  · rw [if_pos h0]; exact .inl (Calm.refl _)
  rw [if_neg h0]
  by_cases h1 : (w.rc.regs 0).setWidth 32 = 0x84000001 ∨ (w.rc.regs 0).setWidth 32 = 0xC4000001
  · rw [if_pos h1]; exact .inl (Calm.refl _)
  rw [if_neg h1]
  by_cases h2 : (w.rc.regs 0).setWidth 32 = 0x84000002
  · rw [if_pos h2]; exact .inl ⟨rfl, rfl, fun x => by simp [psciOff, psciReason, forwardArgs] at x, rfl⟩
  rw [if_neg h2]
  by_cases h3 : (w.rc.regs 0).setWidth 32 = 0x84000003 ∨ (w.rc.regs 0).setWidth 32 = 0xC4000003
  · rw [if_pos h3]
    unfold psciOn
    by_cases p1 : inPar w.rc (w.rc.regs 2) = false
    · rw [if_pos p1]; exact .inl (Calm.refl _)
    rw [if_neg p1]
    by_cases p2 : env.recCount ≤ Mpidr.el1ToIdx (w.rc.regs 1)
    · rw [if_pos p2]; exact .inl (Calm.refl _)
    rw [if_neg p2]
    by_cases p3 : Mpidr.el1ToIdx (w.rc.regs 1) = w.rc.idx
    · rw [if_pos p3]; exact .inl (Calm.refl _)
    rw [if_neg p3]
    refine .inr ⟨⟨?_, ?_, p3, fun _ => ?_⟩, rfl, rfl⟩
    · rcases h3 with h | h
      · exact .inl (fn h)
      · exact .inr (.inl (fn h))
    · rw [BitVec.le_def] at p2; omega
    · exact (inPar_iff hb _).mp (by simpa using p1)
  rw [if_neg h3]
  by_cases h4 : (w.rc.regs 0).setWidth 32 = 0x84000004 ∨ (w.rc.regs 0).setWidth 32 = 0xC4000004
  · rw [if_pos h4]
    unfold psciAffinity
    by_cases p1 : w.rc.regs 2 ≠ 0
    · rw [if_pos p1]; exact .inl (Calm.refl _)
    rw [if_neg p1]
    by_cases p2 : env.recCount ≤ Mpidr.el1ToIdx (w.rc.regs 1)
    · rw [if_pos p2]; exact .inl (Calm.refl _)
    rw [if_neg p2]
    by_cases p3 : Mpidr.el1ToIdx (w.rc.regs 1) = w.rc.idx
    · rw [if_pos p3]; exact .inl (Calm.refl _)
    rw [if_neg p3]
    refine .inr ⟨⟨?_, ?_, p3, fun h => ?_⟩, rfl, rfl⟩
    · rcases h4 with h | h
      · exact .inr (.inr (.inl (fn h)))
      · exact .inr (.inr (.inr (fn h)))
    · rw [BitVec.le_def] at p2; omega
    · rcases h4 with h' | h' <;> have := fn h' <;> rcases h with h | h <;> rw [h] at this <;> exact absurd this (by decide)
  rw [if_neg h4]
  by_cases h5 : (w.rc.regs 0).setWidth 32 = 0x84000008 ∨ (w.rc.regs 0).setWidth 32 = 0x84000009
  · rw [if_pos h5]; exact .inl (Calm.refl _)
  rw [if_neg h5]
  by_cases h6 : (w.rc.regs 0).setWidth 32 = 0x8400000A
  · rw [if_pos h6]; exact .inl (Calm.refl _)
  rw [if_neg h6]; exact .inl (Calm.refl _)

theorem rsiSwitch_calm {env : Env} {w : World} {p : World × Res} (hb : 32 ≤ w.rc.ipaBits ∧ w.rc.ipaBits ≤ 52)
    (h : rsiSwitch env w (fid w.rc) = some p) :
    Calm w.rc p.1.rc ∨
    (PsciReq w.rc env.recCount.toNat ∧ p.1.rc = { w.rc with pending := true } ∧ p.2.act = EXIT_TO_HOST) := by
  unfold rsiSwitch at h
  rcases ite_or h with ⟨_, h⟩ | ⟨_, h⟩
  · obtain rfl := Option.some.inj h
    exact .inl (Calm.refl _)
  rcases ite_or h with ⟨_, h⟩ | ⟨_, h⟩
  · obtain rfl := Option.some.inj h
    exact psci_calm env w hb
  rcases ite_or h with ⟨_, h⟩ | ⟨_, h⟩
  · obtain rfl := Option.some.inj h
    exact .inl (Calm.refl _)
  rcases ite_or h with ⟨_, h⟩ | ⟨_, h⟩
  · obtain rfl := Option.some.inj h
    exact .inl (Calm.refl _)
  rcases ite_or h with ⟨_, h⟩ | ⟨_, h⟩
  · obtain rfl := Option.some.inj h
    unfold rsiTokenInit
    dsimp only
    repeat' split
    all_goals exact .inl (calm_same rfl)
  rcases ite_or h with ⟨_, h⟩ | ⟨_, h⟩
  · unfold rsiTokenContinue at h
    dsimp only at h
    rcases ite_or h with ⟨_, h⟩ | ⟨hargs, h⟩
    · obtain rfl := Option.some.inj h
      exact .inl (calm_same rfl)
    rcases ite_or h with ⟨_, h⟩ | ⟨_, h⟩
    · obtain rfl := Option.some.inj h
      exact .inl (calm_same rfl)
    obtain ⟨q, _, rfl⟩ := map_some h
    unfold tokenWrite
    dsimp only
    repeat' split
    all_goals exact .inl (calm_same rfl)
  rcases ite_or h with ⟨_, h⟩ | ⟨_, h⟩
  · obtain rfl := Option.some.inj h
    exact .inl ⟨rfl, rfl, id, rfl⟩
  rcases ite_or h with ⟨_, h⟩ | ⟨_, h⟩
  · obtain rfl := Option.some.inj h
    exact .inl (calm_same rfl)
  rcases ite_or h with ⟨_, h⟩ | ⟨_, h⟩
  · obtain rfl := Option.some.inj h
    unfold rsiConfig
    dsimp only
    repeat' split
    all_goals exact .inl (calm_same rfl)
  rcases ite_or h with ⟨hf, h⟩ | ⟨_, h⟩
  · obtain rfl := Option.some.inj h
    unfold rsiIpaStateSet
    dsimp only
    split
    · exact .inl (calm_same rfl)
    · exact .inl ⟨rfl, rfl, id, rfl⟩
  rcases ite_or h with ⟨_, h⟩ | ⟨_, h⟩
  · obtain rfl := Option.some.inj h
    unfold rsiIpaStateGet
    dsimp only
    repeat' split
    all_goals exact .inl (calm_same rfl)
  rcases ite_or h with ⟨hf, h⟩ | ⟨_, h⟩
  · unfold rsiHostCall at h
    dsimp only at h
    rcases ite_or h with ⟨_, h⟩ | ⟨ha, h⟩
    · obtain rfl := Option.some.inj h
      exact .inl (calm_same rfl)
    rcases ite_or h with ⟨_, h⟩ | ⟨_, h⟩
    · obtain rfl := Option.some.inj h
      exact .inl (calm_same rfl)
    rcases ite_or h with ⟨_, h⟩ | ⟨hpar, h⟩
    · obtain rfl := Option.some.inj h
      exact .inl (calm_same rfl)
    obtain ⟨k, hk, h⟩ := map_some h
    split at h
    · subst h; exact .inl (calm_same rfl)
    · subst h; exact .inl (calm_same rfl)
    · subst h; exact .inl ⟨rfl, rfl, id, rfl⟩
  · obtain rfl := Option.some.inj h
    exact .inl (calm_same rfl)

/-- The realm's last exit, with registers `regs` and syndrome `hw`, was the request that is now pending in `r`. -/
structure Spec.AskedBy (e : Ev) (r : Rec) : Prop where
  sync : e.exc = .sync
  smc : ec e.hw.esr = EC_SMC
  regs : r.regs = e.regs
  pc : r.pc = e.pc + 4
  pending : r.pending = true
  req : PsciReq r e.env.recCount.toNat

theorem handleExit_calm {env : Env} {w w' : World} {e : Exc} {hw : Hw} (hb : 32 ≤ w.rc.ipaBits ∧ w.rc.ipaBits ≤ 52)
    (h : handleExit env w e hw = some (w', false)) :
    Calm w.rc w'.rc ∨
    (e = .sync ∧ ec hw.esr = EC_SMC ∧ w'.rc.regs = w.rc.regs ∧ w'.rc.pc = w.rc.pc + 4 ∧ w'.rc.pending = true ∧
      w'.rc.runnable = w.rc.runnable ∧ w'.rc.idx = w.rc.idx ∧ w'.rc.ipaBits = w.rc.ipaBits ∧
      PsciReq w.rc env.recCount.toNat) := by
  cases e with
  | irq =>
    obtain rfl := (Prod.mk.inj (Option.some.inj h)).1
    exact .inl (Calm.refl _)
  | fiq =>
    obtain rfl := (Prod.mk.inj (Option.some.inj h)).1
    exact .inl (Calm.refl _)
  | other =>
    obtain rfl := (Prod.mk.inj (Option.some.inj h)).1
    exact .inl (Calm.refl _)
  | serror =>
    obtain ⟨w1, h1, h2⟩ := map_some h
    obtain rfl := (Prod.mk.inj h2).1
    have hi1 : Calm w.rc w1.rc := by
      unfold serrorExit at h1
      dsimp only at h1
      rcases ite_or h1 with ⟨_, h1⟩ | ⟨_, h1⟩
      · simp at h1
      rcases ite_or h1 with ⟨_, h1⟩ | ⟨_, h1⟩
      · simp at h1
      rcases ite_or h1 with ⟨_, h1⟩ | ⟨_, h1⟩
      · obtain rfl := Option.some.inj h1
        exact ⟨rfl, rfl, id, rfl⟩
      rcases ite_or h1 with ⟨_, h1⟩ | ⟨_, h1⟩
      · obtain rfl := Option.some.inj h1
        exact Calm.refl _
      · simp at h1
    exact .inl (hi1.trans ⟨rfl, rfl, id, rfl⟩)
  | sync =>
    obtain ⟨⟨w1, b⟩, h1, h2⟩ := map_some h
    cases b
    case true => simp at h2
    obtain rfl := (Prod.mk.inj h2).1
    have hr : Calm w1.rc (recordSync w1 hw).rc := ⟨rfl, rfl, id, rfl⟩
    unfold syncExit at h1
    rcases ite_or h1 with ⟨hc, h1⟩ | ⟨_, h1⟩
    · obtain rfl := (Prod.mk.inj (Option.some.inj h1)).1
      exact .inl ⟨rfl, rfl, id, rfl⟩
    rcases ite_or h1 with ⟨hc, h1⟩ | ⟨_, h1⟩
    · obtain ⟨_, _, h3⟩ := map_some h1; simp at h3
    rcases ite_or h1 with ⟨hc, h1⟩ | ⟨_, h1⟩
    · obtain ⟨p, hp, h1⟩ := bind_some h1
      have hask := rsiSwitch_calm (w := { w with ex := { w.ex with reason := EXIT_SYNC } }) hb hp
      unfold rsiFinish at h1
      dsimp only at h1
      obtain ⟨w2, h3, h4⟩ := map_some h1
      obtain rfl := (Prod.mk.inj h4).1
      rcases hask with hq | ⟨hreq, hrc, hact⟩
      · refine .inl (Calm.trans (b := p.1.rc) hq (Calm.trans ?_ hr))
        rcases ite_or h3 with ⟨_, h3⟩ | ⟨_, h3⟩
        · unfold emulateS2Abort at h3
          rcases ite_or h3 with ⟨_, h3⟩ | ⟨_, h3⟩
          · obtain rfl := Option.some.inj h3
            exact ⟨rfl, rfl, id, rfl⟩
          · simp at h3
        · obtain rfl := Option.some.inj h3
          exact ⟨rfl, rfl, id, rfl⟩
      · refine .inr ⟨rfl, hc, ?_⟩
        rw [hact] at h3
        simp only [EXIT_TO_HOST, Bool.false_eq_true, if_false] at h3
        obtain rfl := Option.some.inj h3
        have e : p.1.rc.regs = w.rc.regs ∧ p.1.rc.pc = w.rc.pc ∧ p.1.rc.pending = true ∧
            p.1.rc.runnable = w.rc.runnable ∧ p.1.rc.idx = w.rc.idx ∧ p.1.rc.ipaBits = w.rc.ipaBits := by
          rw [hrc]; exact ⟨rfl, rfl, rfl, rfl, rfl, rfl⟩
        obtain ⟨e1, e2, e3, e4, e5, e6⟩ := e
        refine ⟨e1, ?_, e3, e4, e5, e6, hreq⟩
        show p.1.rc.pc + 4 = _
        rw [e2]
    rcases ite_or h1 with ⟨hc, h1⟩ | ⟨hns, h1⟩
    · obtain ⟨⟨w2, b⟩, h3, h4⟩ := map_some h1
      obtain ⟨rfl, hb⟩ := Prod.mk.inj h4
      simp only at hb
      subst hb
      obtain ⟨hr2, hwrite⟩ := sysregTrap_false h3
      refine .inl (Calm.trans ?_ hr)
      show Calm w.rc (advancePc w2.rc)
      rw [hr2]
      exact ⟨rfl, rfl, id, rfl⟩
    rcases ite_or h1 with ⟨hc, h1⟩ | ⟨_, h1⟩
    · have q := calm_of_admin (instrAbort_false h1)
      exact .inl ⟨q.idx, q.bits, q.off, q.pending⟩
    rcases ite_or h1 with ⟨hc, h1⟩ | ⟨hnd, h1⟩
    · have q := calm_of_admin (dataAbort_false h1).1
      exact .inl ⟨q.idx, q.bits, q.off, q.pending⟩
    rcases ite_or h1 with ⟨hc, h1⟩ | ⟨_, h1⟩
    · obtain ⟨_, _, h3⟩ := map_some h1; simp at h3
    · obtain rfl := (Prod.mk.inj (Option.some.inj h1)).1
      exact .inl ⟨rfl, rfl, id, rfl⟩


theorem iter_calm {w w' : World} {e : Ev} (hb : 32 ≤ w.rc.ipaBits ∧ w.rc.ipaBits ≤ 52) (h : iter w e = some (w', false)) :
    Calm w.rc w'.rc ∨ (AskedBy e w'.rc ∧ w'.rc.runnable = w.rc.runnable ∧ w'.rc.idx = w.rc.idx ∧
      w'.rc.ipaBits = w.rc.ipaBits) := by
  unfold iter at h
  dsimp only at h
  rcases ite_or h with ⟨_, h⟩ | ⟨_, h⟩
  · obtain rfl := (Prod.mk.inj (Option.some.inj h)).1
    exact .inl ⟨rfl, rfl, id, rfl⟩
  · generalize hw1 : afterRun _ e = w1 at h
    have h1 : Calm w.rc w1.rc ∧ w1.rc.regs = e.regs ∧ w1.rc.pc = e.pc ∧ w1.rc.runnable = w.rc.runnable := by
      subst hw1
      exact ⟨⟨rfl, rfl, id, rfl⟩, rfl, rfl, rfl⟩
    obtain ⟨hc, hregs, hpc, hrn⟩ := h1
    rcases handleExit_calm (by rw [hc.bits]; exact hb) h with hq | ⟨a, b, c, d, f, g, i, j, k⟩
    · exact .inl (hc.trans hq)
    · refine .inr ⟨⟨a, b, c.trans hregs, by rw [d, hpc], f, ?_⟩, g.trans hrn, i.trans hc.idx, j.trans hc.bits⟩
      exact ⟨by rw [c]; exact k.fn, by rw [c]; exact k.target, by rw [c, i]; exact k.other, by rw [c, j]; exact k.entry⟩

theorem path_calm {c : Call} {w : World} {r1 r2 r3 : Rec} {p : World × Bool} (hp : Path c w r1 r2 r3 p) :
    Calm w.rc p.1.rc := by
  have q1 := calm_of_admin (completeSea_some hp.sea).1
  have q2 := calm_of_admin (completeMmio_some hp.mmio).1
  have qs := calm_of_admin (completeSysreg_some hp.sysreg).1
  obtain ⟨f1, f2, f3, f4, f5, f6, f7, f8, f9, f10, f11, f12, f13⟩ := completeRipas_fields r2 c.enter
  have qr : Calm r2 (completeRipas r2 c.enter) := ⟨f7, f8, fun x => f5.symm.trans x, f4⟩
  have q3 : Calm w.rc r3 := by
    have := ((q1.trans q2).trans qr).trans qs
    exact ⟨this.idx, this.bits, this.off, this.pending⟩
  obtain ⟨w1, b⟩ := p
  cases b with
  | true =>
    obtain ⟨_, _, _, _, _, hcase⟩ := completeHostCall_true hp.call
    rcases hcase with ⟨_, rfl⟩ | ⟨_, _, ⟨_, _, rfl⟩ | ⟨_, _, rfl⟩⟩
    · exact q3
    · exact ⟨q3.idx, q3.bits, q3.off, q3.pending⟩
    · exact ⟨q3.idx, q3.bits, q3.off, q3.pending⟩
  | false =>
    obtain ⟨_, _, _, l, _, _, hab⟩ := completeHostCall_false hp.call
    unfold emulateS2Abort at hab
    rcases ite_or hab with ⟨_, hab⟩ | ⟨_, hab⟩
    · obtain rfl := Option.some.inj hab; exact q3
    · simp at hab

theorem path_runnable {c : Call} {w : World} {r1 r2 r3 : Rec} {p : World × Bool} (hp : Path c w r1 r2 r3 p) :
    p.1.rc.runnable = w.rc.runnable := by
  have q1 := (completeSea_some hp.sea).1.runnable
  have q2 := (completeMmio_some hp.mmio).1.runnable
  have qs := (completeSysreg_some hp.sysreg).1.runnable
  obtain ⟨f1, f2, f3, f4, f5, f6, f7, f8, f9, f10, f11, f12, f13⟩ := completeRipas_fields r2 c.enter
  have q3 : r3.runnable = w.rc.runnable := qs.trans (f5.trans (q2.trans q1))
  obtain ⟨w1, b⟩ := p
  cases b with
  | true =>
    obtain ⟨_, _, _, _, _, hcase⟩ := completeHostCall_true hp.call
    rcases hcase with ⟨_, rfl⟩ | ⟨_, _, ⟨_, _, rfl⟩ | ⟨_, _, rfl⟩⟩ <;> exact q3
  | false =>
    obtain ⟨_, _, _, l, _, _, hab⟩ := completeHostCall_false hp.call
    unfold emulateS2Abort at hab
    rcases ite_or hab with ⟨_, hab⟩ | ⟨_, hab⟩
    · obtain rfl := Option.some.inj hab; exact q3
    · simp at hab

/-- Running a REC starts no REC, and leaves a PSCI request pending only if the realm has just made it. -/
theorem recEnter_calm {c : Call} {w : World} {o : Out} (hb : 32 ≤ w.rc.ipaBits ∧ w.rc.ipaBits ≤ 52)
    (h : recEnter c w = some o) :
    o.w.rc.idx = w.rc.idx ∧ o.w.rc.ipaBits = w.rc.ipaBits ∧ (o.w.rc.runnable = true → w.rc.runnable = true) ∧
    (w.rc.pending = true → o.w.rc = w.rc) ∧
    (w.rc.pending = false → o.w.rc.pending = true → ∃ e ∈ c.evs, AskedBy e o.w.rc ∧ o.w.rc.runnable = true) := by
  have same : ∀ {r : Rec}, Calm w.rc r → Admitted c w → r.idx = w.rc.idx ∧ r.ipaBits = w.rc.ipaBits ∧
      (r.runnable = true → w.rc.runnable = true) ∧ (w.rc.pending = true → r = w.rc) ∧
      (w.rc.pending = false → r.pending = true → ∃ e ∈ c.evs, AskedBy e r ∧ r.runnable = true) := fun q ha =>
    ⟨q.idx, q.bits, q.off, fun x => absurd (ha.pending.symm.trans x) (by decide),
     fun x y => absurd (x.symm.trans (q.pending.symm.trans y)) (by decide)⟩
  rcases recEnter_cases h with ⟨_, _, h1, hna⟩ | ⟨_, _, _, ha, h1, _⟩ | ⟨_, _, _, ha, r1, h1, h2, h3⟩ |
    ⟨r1, r2, r3, ⟨w1, b⟩, hp, ⟨hb2, h1⟩ | ⟨hb2, h1⟩⟩
  · rw [h1]
    exact ⟨rfl, rfl, id, fun _ => rfl, fun x y => absurd (x.symm.trans y) (by decide)⟩
  · rw [h1]; exact same ⟨rfl, rfl, id, rfl⟩ ha
  · rw [h1]
    have q : Calm (withGic c w).rc r1 := calm_of_admin (completeSea_some h2).1
    exact same ⟨q.idx, q.bits, q.off, q.pending⟩ ha
  · rw [h1, leave_w]
    exact same (path_calm hp) hp.adm
  · have q := path_calm hp
    obtain ⟨w2, hloop, rfl⟩ := runRec_some h1
    rw [leave_w]
    obtain ⟨pre, e, post, w3, hes, hcont, hiter⟩ := loop_ended hloop
    have he : e ∈ c.evs := by rw [hes]; simp
    have q3 : Calm w.rc w3.rc :=
      ⟨hcont.idx.trans q.idx, hcont.ipaBits.trans q.bits, fun x => q.off (hcont.runnable.symm.trans x),
       hcont.pending.trans q.pending⟩
    rcases iter_calm (by rw [q3.bits]; exact hb) hiter with hq | ⟨hask, hrn, hidx, hbits⟩
    · have q4 := q3.trans hq
      exact same ⟨q4.idx, q4.bits, q4.off, q4.pending⟩ hp.adm
    · refine ⟨hidx.trans q3.idx, hbits.trans q3.bits, fun x => q3.off (hrn.symm.trans x),
        fun x => absurd (hp.adm.pending.symm.trans x) (by decide), fun _ _ => ⟨e, he, ?_, ?_⟩⟩
      swap
      · exact hrn.trans (hcont.runnable.trans ((path_runnable hp).trans hp.adm.runnable))
      exact ⟨hask.sync, hask.smc, hask.regs, hask.pc, hask.pending,
        hask.req.fn, hask.req.target, hask.req.other, hask.req.entry⟩

/-! ## The system -/

/-- The target of a successful CPU_ON. -/
def started (t : Vcpu) (entry ctx sctlr : W) : Vcpu :=
  { t with rc := { t.rc with
      regs := upd t.rc.regs 0 ctx, pc := entry, pstate := 0x3C5, sctlr := SCTLR_EL1_FLAGS ||| (sctlr &&& SCTLR_EE)
      runnable := true } }

/-- Everything `psci_complete_request` can do. -/
theorem completeRequest_cases {c t : Vcpu} {status : W} {p : Vcpu × Vcpu × W} (h : completeRequest c t status = some p) :
    p = (c, t, RMI_ERROR_INPUT) ∨
    (c.rc.pending = true ∧ c.rd = t.rd ∧ Mpidr.el1ToIdx (c.rc.regs 1) = t.rc.idx ∧ (∃ v, p.1 = answer c v) ∧
      (p.2.1 = t ∨ (isOn (c.rc.regs 0) = true ∧ status = PSCI_SUCCESS ∧ t.on = false ∧
        p.2.1 = started t (c.rc.regs 2) (c.rc.regs 3) c.rc.sctlr))) := by
  unfold completeRequest at h
  rcases ite_or h with ⟨_, h⟩ | ⟨h1, h⟩
  · exact .inl (Option.some.inj h).symm
  rcases ite_or h with ⟨_, h⟩ | ⟨h2, h⟩
  · exact .inl (Option.some.inj h).symm
  rcases ite_or h with ⟨_, h⟩ | ⟨h3, h⟩
  · exact .inl (Option.some.inj h).symm
  have h1 : c.rc.pending = true := by simpa using h1
  push Not at h2 h3
  rcases ite_or h with ⟨h4, h⟩ | ⟨h4, h⟩
  · rcases ite_or h with ⟨_, h⟩ | ⟨h5, h⟩
    · exact .inl (Option.some.inj h).symm
    obtain rfl := Option.some.inj h
    refine .inr ⟨h1, h2, h3, ⟨_, rfl⟩, ?_⟩
    dsimp only
    unfold completeOn
    by_cases ho : t.on = true
    · rw [if_pos ho]; exact .inl rfl
    rw [if_neg ho]
    by_cases hd : status = PSCI_DENIED
    · rw [if_pos hd]; exact .inl rfl
    rw [if_neg hd]
    refine .inr ⟨h4, ?_, by simpa using ho, rfl⟩
    by_contra hs
    exact h5 ⟨hs, hd⟩
  rcases ite_or h with ⟨h5, h⟩ | ⟨h5, h⟩
  · rcases ite_or h with ⟨_, h⟩ | ⟨h6, h⟩
    · exact .inl (Option.some.inj h).symm
    obtain rfl := Option.some.inj h
    exact .inr ⟨h1, h2, h3, ⟨_, rfl⟩, .inl rfl⟩
  · simp at h

theorem upd_same {β : Type} (f : Nat → β) (i : Nat) (v : β) : upd f i v i = v := by simp [upd]
theorem upd_other {β : Type} (f : Nat → β) {i j : Nat} (v : β) (h : j ≠ i) : upd f i v j = f j := by simp [upd, h]

/-- Where the REC at `a` comes from. -/
inductive From (s : Sys) (a : Nat) (v' : Vcpu) : Op → Prop
  | same {o : Op} {v : Vcpu} (h : s.recs a = some v) (hr : v'.rc = v.rc) (hd : v'.rd = v.rd) : From s a v' o
  | create {rd : Nat} {r : Rec} (h : s.recs a = none) (hv : v' = ⟨r, rd, false⟩) : From s a v' (.create a rd r)
  | finish {c : Call} {w : World} {v : Vcpu} {o : Out} (h : s.recs a = some v)
      (he : recEnter c { w with rc := v.rc } = some o) (hr : v'.rc = o.w.rc) (hd : v'.rd = v.rd) : From s a v' (.finish a c w)
  | caller {ta : Nat} {status : W} {c t : Vcpu} {p : Vcpu × Vcpu × W} (hne : a ≠ ta) (h : s.recs a = some c)
      (ht : s.recs ta = some t) (hrun : c.running = false) (hc : completeRequest c t status = some p) (hv : v' = p.1) :
      From s a v' (.complete a ta status)
  | target {ca : Nat} {status : W} {c t : Vcpu} {p : Vcpu × Vcpu × W} (hne : ca ≠ a) (h : s.recs a = some t)
      (hc0 : s.recs ca = some c) (hrun : c.running = false) (hc : completeRequest c t status = some p) (hv : v' = p.2.1) :
      From s a v' (.complete ca a status)
  | progress {top : W} {v : Vcpu} (h : s.recs a = some v) (hne : v.rc.ripas.base ≠ v.rc.ripas.top)
      (h1 : v.rc.ripas.addr ≤ top) (h2 : top ≤ v.rc.ripas.top)
      (hr : v'.rc = { v.rc with ripas := { v.rc.ripas with addr := top } }) (hd : v'.rd = v.rd) :
      From s a v' (.progress a top)

theorem set_recs (s : Sys) (a b : Nat) (v : Option Vcpu) : (s.set a v).recs b = if b = a then v else s.recs b := rfl

theorem step_from {s s' : Sys} {o : Op} (h : step s o = some s') {a : Nat} {v' : Vcpu} (ha : s'.recs a = some v') :
    From s a v' o := by
  cases o with
  | realm rd =>
    obtain rfl := Option.some.inj h
    exact .same ha rfl rfl
  | create b rd r =>
    rw [step] at h
    cases hb : s.recs b with
    | some v => rw [hb] at h; obtain rfl := Option.some.inj h; exact .same ha rfl rfl
    | none =>
      rw [hb] at h
      obtain rfl := Option.some.inj h
      by_cases hab : a = b
      · subst hab
        simp only [upd_same] at ha
        exact .create hb (Option.some.inj ha).symm
      · simp only [upd_other _ _ hab] at ha
        exact .same ha rfl rfl
  | destroy b =>
    rw [step] at h
    cases hb : s.recs b with
    | none => rw [hb] at h; obtain rfl := Option.some.inj h; exact .same ha rfl rfl
    | some v =>
      rw [hb] at h
      rcases ite_or h with ⟨_, h⟩ | ⟨_, h⟩
      · obtain rfl := Option.some.inj h; exact .same ha rfl rfl
      · obtain rfl := Option.some.inj h
        rw [set_recs] at ha
        rcases ite_or ha with ⟨_, ha⟩ | ⟨_, ha⟩
        · simp at ha
        · exact .same ha rfl rfl
  | start b =>
    rw [step] at h
    cases hb : s.recs b with
    | none => rw [hb] at h; obtain rfl := Option.some.inj h; exact .same ha rfl rfl
    | some v =>
      rw [hb] at h
      rcases ite_or h with ⟨_, h⟩ | ⟨_, h⟩
      · obtain rfl := Option.some.inj h; exact .same ha rfl rfl
      · obtain rfl := Option.some.inj h
        rw [set_recs] at ha
        rcases ite_or ha with ⟨hab, ha2⟩ | ⟨_, ha⟩
        · subst hab
          obtain rfl := Option.some.inj ha2
          exact .same hb rfl rfl
        · exact .same ha rfl rfl
  | finish b c w =>
    rw [step] at h
    cases hb : s.recs b with
    | none => rw [hb] at h; obtain rfl := Option.some.inj h; exact .same ha rfl rfl
    | some v =>
      rw [hb] at h
      rcases ite_or h with ⟨_, h⟩ | ⟨_, h⟩
      · obtain ⟨o, ho, rfl⟩ := map_some h
        rw [set_recs] at ha
        rcases ite_or ha with ⟨hab, ha2⟩ | ⟨_, ha⟩
        · subst hab
          obtain rfl := Option.some.inj ha2
          exact .finish hb ho rfl rfl
        · exact .same ha rfl rfl
      · obtain rfl := Option.some.inj h; exact .same ha rfl rfl
  | complete ca ta status =>
    rw [step] at h
    obtain ⟨⟨s1, x⟩, h0, rfl⟩ := map_some h
    clear h
    have h := h0
    clear h0
    unfold smcComplete at h
    dsimp only at ha
    rcases ite_or h with ⟨_, h⟩ | ⟨hne, h⟩
    · obtain rfl := (Prod.mk.inj (Option.some.inj h)).1; exact .same ha rfl rfl
    cases hc : s.recs ca with
    | none => rw [hc] at h; obtain rfl := (Prod.mk.inj (Option.some.inj h)).1; exact .same ha rfl rfl
    | some c =>
      cases ht : s.recs ta with
      | none => rw [hc, ht] at h; obtain rfl := (Prod.mk.inj (Option.some.inj h)).1; exact .same ha rfl rfl
      | some t =>
        rw [hc, ht] at h
        dsimp only at h
        rcases ite_or h with ⟨_, h⟩ | ⟨hrun, h⟩
        · obtain rfl := (Prod.mk.inj (Option.some.inj h)).1; exact .same ha rfl rfl
        obtain ⟨p, hp, h⟩ := map_some h
        obtain rfl := (Prod.mk.inj h).1
        have hrun : c.running = false := by simpa using hrun
        rw [set_recs] at ha
        rcases ite_or ha with ⟨hab, ha2⟩ | ⟨hac, ha⟩
        · subst hab
          exact .caller hne hc ht hrun hp (Option.some.inj ha2).symm
        rw [set_recs] at ha
        rcases ite_or ha with ⟨hab, ha2⟩ | ⟨_, ha⟩
        · subst hab
          exact .target hne ht hc hrun hp (Option.some.inj ha2).symm
        · exact .same ha rfl rfl
  | progress b top =>
    rw [step] at h
    cases hb : s.recs b with
    | none => rw [hb] at h; obtain rfl := Option.some.inj h; exact .same ha rfl rfl
    | some v =>
      rw [hb] at h
      rcases ite_or h with ⟨_, h⟩ | ⟨_, h⟩
      · obtain rfl := Option.some.inj h; exact .same ha rfl rfl
      rcases ite_or h with ⟨⟨h1, h2, h3⟩, h⟩ | ⟨_, h⟩
      · obtain rfl := Option.some.inj h
        rw [set_recs] at ha
        rcases ite_or ha with ⟨hab, ha2⟩ | ⟨_, ha⟩
        · subst hab
          obtain rfl := Option.some.inj ha2
          exact .progress hb h1 h2 h3 rfl rfl
        · exact .same ha rfl rfl
      · obtain rfl := Option.some.inj h; exact .same ha rfl rfl

/-- What holds in every state of the system. -/
structure SysOk (s : Sys) : Prop where
  idx : ∀ a v, s.recs a = some v → v.rc.idx.toNat < s.count v.rd
  uniq : ∀ a b v v', s.recs a = some v → s.recs b = some v' → v.rd = v'.rd → v.rc.idx = v'.rc.idx → a = b
  inv : ∀ a v, s.recs a = some v → Inv v.rc
  req : ∀ a v, s.recs a = some v → v.rc.pending = true → PsciReq v.rc (s.count v.rd) ∧ v.rc.runnable = true

theorem step_count {s s' : Sys} {o : Op} (hok : o.ok s) (h : step s o = some s') {a : Nat} {v : Vcpu}
    (ha : s.recs a = some v) : s.count v.rd ≤ s'.count v.rd := by
  cases o with
  | realm rd =>
    obtain rfl := Option.some.inj h
    exact le_of_eq (upd_other _ _ (hok a v ha)).symm
  | create b rd r =>
    rw [step] at h
    cases hb : s.recs b with
    | some v => rw [hb] at h; obtain rfl := Option.some.inj h; exact le_refl _
    | none =>
      rw [hb] at h
      obtain rfl := Option.some.inj h
      show _ ≤ upd s.count rd _ v.rd
      by_cases hr : v.rd = rd
      · rw [hr, upd_same]; omega
      · rw [upd_other _ _ hr]
  | destroy b =>
    rw [step] at h
    cases hb : s.recs b with
    | none => rw [hb] at h; obtain rfl := Option.some.inj h; exact le_refl _
    | some v =>
      rw [hb] at h
      rcases ite_or h with ⟨_, h⟩ | ⟨_, h⟩ <;> obtain rfl := Option.some.inj h <;> exact le_refl _
  | start b =>
    rw [step] at h
    cases hb : s.recs b with
    | none => rw [hb] at h; obtain rfl := Option.some.inj h; exact le_refl _
    | some v =>
      rw [hb] at h
      rcases ite_or h with ⟨_, h⟩ | ⟨_, h⟩ <;> obtain rfl := Option.some.inj h <;> exact le_refl _
  | finish b c w =>
    rw [step] at h
    cases hb : s.recs b with
    | none => rw [hb] at h; obtain rfl := Option.some.inj h; exact le_refl _
    | some v =>
      rw [hb] at h
      rcases ite_or h with ⟨_, h⟩ | ⟨_, h⟩
      · obtain ⟨o, ho, rfl⟩ := map_some h; exact le_refl _
      · obtain rfl := Option.some.inj h; exact le_refl _
  | complete ca ta status =>
    rw [step] at h
    obtain ⟨⟨s1, x⟩, h0, rfl⟩ := map_some h
    clear h
    unfold smcComplete at h0
    rcases ite_or h0 with ⟨_, h1⟩ | ⟨_, h1⟩
    · obtain rfl := (Prod.mk.inj (Option.some.inj h1)).1; exact le_refl _
    cases hc : s.recs ca with
    | none => rw [hc] at h1; obtain rfl := (Prod.mk.inj (Option.some.inj h1)).1; exact le_refl _
    | some c =>
      cases ht : s.recs ta with
      | none => rw [hc, ht] at h1; obtain rfl := (Prod.mk.inj (Option.some.inj h1)).1; exact le_refl _
      | some t =>
        rw [hc, ht] at h1
        dsimp only at h1
        rcases ite_or h1 with ⟨_, h2⟩ | ⟨_, h2⟩
        · obtain rfl := (Prod.mk.inj (Option.some.inj h2)).1; exact le_refl _
        · obtain ⟨p, hp, h3⟩ := map_some h2
          obtain rfl := (Prod.mk.inj h3).1
          exact le_refl _
  | progress b top =>
    rw [step] at h
    cases hb : s.recs b with
    | none => rw [hb] at h; obtain rfl := Option.some.inj h; exact le_refl _
    | some v =>
      rw [hb] at h
      rcases ite_or h with ⟨_, h⟩ | ⟨_, h⟩
      · obtain rfl := Option.some.inj h; exact le_refl _
      rcases ite_or h with ⟨_, h⟩ | ⟨_, h⟩ <;> obtain rfl := Option.some.inj h <;> exact le_refl _

theorem inv_idle_pending {r : Rec} (hi : Inv r) (h : r.pending = true ∨ r.runnable = false) :
    r.hostCall = false ∧ r.ripas.base = r.ripas.top := by
  constructor
  · cases hc : r.hostCall with
    | false => rfl
    | true =>
      obtain ⟨_, _, _, _, h1, h2⟩ := hi.call hc
      rcases h with h | h
      · exact absurd (h2.symm.trans h) (by decide)
      · exact absurd (h1.symm.trans h) (by decide)
  · by_contra hc
    obtain ⟨_, h1, h2, _⟩ := hi.ripas hc
    rcases h with h | h
    · exact absurd (h2.symm.trans h) (by decide)
    · exact absurd (h1.symm.trans h) (by decide)

theorem inv_answer {c : Vcpu} (v : W) (hi : Inv c.rc) (hp : c.rc.pending = true) : Inv (answer c v).rc := by
  obtain ⟨h1, h2⟩ := inv_idle_pending hi (.inl hp)
  exact ⟨hi.bits, fun h => absurd (h1.symm.trans h) (by decide), fun h => absurd h2 h, hi.mmio, hi.sysreg⟩

theorem inv_started {t : Vcpu} (x y z : W) (hi : Inv t.rc) (hr : t.rc.runnable = false) : Inv (started t x y z).rc := by
  obtain ⟨h1, h2⟩ := inv_idle_pending hi (.inr hr)
  refine ⟨hi.bits, fun h => absurd (h1.symm.trans h) (by decide), fun h => absurd h2 h, fun a b => ?_, hi.sysreg⟩
  obtain ⟨m1, m2, _⟩ := hi.mmio a b
  exact ⟨m1, m2, by show (0x3C5 : W).getLsbD 4 = false; decide⟩

theorem fresh_inv {r : Rec} {n : Nat} (h : Fresh0 r n) : Inv r := by
  refine ⟨h.bits, fun x => absurd (h.call.symm.trans x) (by decide), fun x => absurd (h.ripas.1.trans h.ripas.2.symm) x,
    fun x => ?_, fun x => ?_⟩
  · rw [h.last] at x; exact absurd x (by decide)
  · rw [h.last] at x; exact absurd x (by decide)

theorem off_of_on {t : Vcpu} (h : t.on = false) : t.running = false ∧ t.rc.runnable = false := by
  unfold Vcpu.on at h
  simpa using h

/-- A REC keeps its realm and its index. -/
theorem from_id {s : Sys} (hs : SysOk s) {a : Nat} {v' : Vcpu} {o : Op} (hf : From s a v' o) :
    (∃ v, s.recs a = some v ∧ v'.rd = v.rd ∧ v'.rc.idx = v.rc.idx ∧ v'.rc.ipaBits = v.rc.ipaBits) ∨
    (∃ rd r, o = .create a rd r ∧ s.recs a = none ∧ v' = ⟨r, rd, false⟩) := by
  cases hf with
  | same h hr hd => exact .inl ⟨_, h, hd, by rw [hr], by rw [hr]⟩
  | create h hv => exact .inr ⟨_, _, rfl, h, hv⟩
  | finish h he hr hd =>
    obtain ⟨q1, q2, _⟩ := recEnter_calm (hs.inv _ _ h).bits he
    exact .inl ⟨_, h, hd, by rw [hr]; exact q1, by rw [hr]; exact q2⟩
  | caller hne h ht hrun hc hv =>
    rcases completeRequest_cases hc with hp | ⟨_, _, _, ⟨x, hx⟩, _⟩
    · rw [hp] at hv; subst hv; exact .inl ⟨_, h, rfl, rfl, rfl⟩
    · rw [hv, hx]; exact .inl ⟨_, h, rfl, rfl, rfl⟩
  | target hne h hc0 hrun hc hv =>
    rcases completeRequest_cases hc with hp | ⟨_, _, _, _, hx | ⟨_, _, _, hx⟩⟩
    · rw [hp] at hv; subst hv; exact .inl ⟨_, h, rfl, rfl, rfl⟩
    · rw [hv, hx]; exact .inl ⟨_, h, rfl, rfl, rfl⟩
    · rw [hv, hx]; exact .inl ⟨_, h, rfl, rfl, rfl⟩
  | progress h hne h1 h2 hr hd => exact .inl ⟨_, h, hd, by rw [hr], by rw [hr]⟩

/-- A step leaves the invariant of every REC true. -/
theorem from_inv {s : Sys} (hs : SysOk s) {a : Nat} {v' : Vcpu} {o : Op} (hok : o.ok s) (hf : From s a v' o) :
    Inv v'.rc := by
  cases hf with
  | same h hr hd => rw [hr]; exact hs.inv _ _ h
  | create h hv => rw [hv]; exact fresh_inv hok
  | finish h he hr hd =>
    rw [hr]
    exact recEnter_inv (hs.inv _ _ h) (fun e hm => (hok _ h e hm).1) he
  | caller hne h ht hrun hc hv =>
    rcases completeRequest_cases hc with hp | ⟨hp, _, _, ⟨x, hx⟩, _⟩
    · rw [hp] at hv; rw [hv]; exact hs.inv _ _ h
    · rw [hv, hx]; exact inv_answer _ (hs.inv _ _ h) hp
  | target hne h hc0 hrun hc hv =>
    rcases completeRequest_cases hc with hp | ⟨_, _, _, _, hx | ⟨_, _, hon, hx⟩⟩
    · rw [hp] at hv; rw [hv]; exact hs.inv _ _ h
    · rw [hv, hx]; exact hs.inv _ _ h
    · rw [hv, hx]; exact inv_started _ _ _ (hs.inv _ _ h) (off_of_on hon).2
  | progress h hne h1 h2 hr hd =>
    rw [hr]
    obtain ⟨i1, i2, i3, i4, i5⟩ := hs.inv _ _ h
    obtain ⟨j1, j2, j3, j4, j5⟩ := i3 hne
    refine ⟨i1, i2, fun _ => ⟨j1, j2, j3, j4, ?_⟩, i4, i5⟩
    exact ⟨j5.base, j5.top, j5.lt, j5.par, j5.val, le_trans j5.addr.1 h1, h2⟩

theorem req_mono {r : Rec} {n m : Nat} (h : PsciReq r n) (hnm : n ≤ m) : PsciReq r m :=
  ⟨h.fn, lt_of_lt_of_le h.target hnm, h.other, h.entry⟩

/-- A PSCI request is pending at a REC after a step only if it was pending before, and the REC is the same, or the step
is an entry in which the realm made it. -/
theorem from_pending {s : Sys} (hs : SysOk s) {a : Nat} {v' : Vcpu} {o : Op} (hok : o.ok s) (hf : From s a v' o)
    (hp : v'.rc.pending = true) :
    (∃ v, s.recs a = some v ∧ v'.rd = v.rd ∧ v.rc.pending = true ∧ v'.rc = v.rc) ∨
    (∃ v c w e, o = .finish a c w ∧ s.recs a = some v ∧ v'.rd = v.rd ∧ v.rc.pending = false ∧ e ∈ c.evs ∧ AskedBy e v'.rc ∧
      v'.rc.runnable = true ∧      e.env.recCount.toNat = s.count v.rd) := by
  cases hf with
  | same h hr hd => exact .inl ⟨_, h, hd, hr ▸ hp, hr⟩
  | create h hv => rw [hv] at hp; exact absurd (hok.pending.symm.trans hp) (by decide)
  | @finish c w v _ h he hr hd =>
    obtain ⟨_, _, _, q4, q5⟩ := recEnter_calm (hs.inv _ _ h).bits he
    cases hv : v.rc.pending with
    | true => exact .inl ⟨_, h, hd, hv, hr.trans (q4 hv)⟩
    | false =>
      obtain ⟨e, he, hq, hrun⟩ := q5 hv (hr ▸ hp)
      exact .inr ⟨v, _, _, e, rfl, h, hd, hv, he, hr ▸ hq, hr ▸ hrun, (hok v h e he).2⟩
  | caller hne h ht hrun hc hv =>
    rcases completeRequest_cases hc with hq | ⟨_, _, _, ⟨x, hx⟩, _⟩
    · rw [hq] at hv; subst hv; exact .inl ⟨_, h, rfl, hp, rfl⟩
    · rw [hv, hx] at hp; exact absurd hp (by simp [answer])
  | target hne h hc0 hrun hc hv =>
    rcases completeRequest_cases hc with hq | ⟨_, _, _, _, hx | ⟨_, hst, hon, hx⟩⟩
    · rw [hq] at hv; subst hv; exact .inl ⟨_, h, rfl, hp, rfl⟩
    · rw [hx] at hv; subst hv; exact .inl ⟨_, h, rfl, hp, rfl⟩
    · rw [hx] at hv; subst hv
      exact absurd ((off_of_on hon).2.symm.trans (hs.req _ _ h hp).2) (by decide)
  | progress h hne h1 h2 hr hd =>
    obtain ⟨_, _, j3, _⟩ := (hs.inv _ _ h).ripas hne
    rw [hr] at hp
    exact absurd (j3.symm.trans hp) (by decide)

theorem step_ok {s s' : Sys} {o : Op} (hs : SysOk s) (hok : o.ok s) (h : step s o = some s') : SysOk s' := by
  have hold : ∀ {a : Nat} {v' : Vcpu}, s'.recs a = some v' →
      (∃ v, s.recs a = some v ∧ v'.rd = v.rd ∧ v'.rc.idx = v.rc.idx ∧ v'.rc.ipaBits = v.rc.ipaBits) ∨
      (∃ r, v' = ⟨r, v'.rd, false⟩ ∧ r.idx.toNat = s.count v'.rd ∧ o = .create a v'.rd r ∧
        s'.count v'.rd = s.count v'.rd + 1) := by
    intro a v' ha
    rcases from_id hs (step_from h ha) with hq | ⟨rd, r, rfl, hn, rfl⟩
    · exact .inl hq
    · refine .inr ⟨r, rfl, hok.idx, rfl, ?_⟩
      rw [step, hn] at h
      obtain rfl := Option.some.inj h
      exact upd_same _ _ _
  refine ⟨?_, ?_, fun a v ha => from_inv hs hok (step_from h ha), ?_⟩
  · intro a v' ha
    rcases hold ha with ⟨v, hv, hd, hi, _⟩ | ⟨r, hv, hi, _, hc⟩
    · rw [hd, hi]
      exact lt_of_lt_of_le (hs.idx _ _ hv) (step_count hok h hv)
    · have h2 : v'.rc.idx = r.idx := by rw [hv]
      rw [h2, hi, hc]; omega
  · intro a b v' u' ha hb hrd hidx
    rcases hold ha with ⟨v, hv, hd, hi, _⟩ | ⟨r, hv, hi, ho, hc⟩ <;>
      rcases hold hb with ⟨u, hu, hud, hui, _⟩ | ⟨q, hu, hui, huo, huc⟩
    · exact hs.uniq a b v u hv hu (by rw [← hd, ← hud, hrd]) (by rw [← hi, ← hui, hidx])
    · exfalso
      have h1 := hs.idx _ _ hv
      have h2 : u'.rc.idx = q.idx := by rw [hu]
      rw [← hi, hidx, h2, hui, ← hd, hrd] at h1
      omega
    · exfalso
      have h1 := hs.idx _ _ hu
      have h2 : v'.rc.idx = r.idx := by rw [hv]
      rw [← hui, ← hidx, h2, hi, ← hud, ← hrd] at h1
      omega
    · rw [ho] at huo
      injection huo
  · intro a v' ha hp
    rcases from_pending hs hok (step_from h ha) hp with ⟨v, hv, hd, hp, hr⟩ | ⟨v, c, w, e, _, hv, hd, _, _, hask, hrun, hn⟩
    · obtain ⟨h1, h2⟩ := hs.req _ _ hv hp
      rw [hr, hd]
      exact ⟨req_mono h1 (step_count hok h hv), h2⟩
    · rw [hd]
      exact ⟨req_mono (hn ▸ hask.req) (step_count hok h hv), hrun⟩

theorem hist_ok {h : List Op} {s : Sys} (hh : Hist h s) : SysOk s := by
  induction hh with
  | nil => exact ⟨by simp [Sys.init], by simp [Sys.init], by simp [Sys.init], by simp [Sys.init]⟩
  | snoc _ hok hst ih => exact step_ok ih hok hst

/-! ## The theorems -/

namespace Spec

/-- In the history `h`, which leads to `s`, the REC at `a` is now `r`; the last time it ran it stopped with the realm
call in `e`, which asked for something to be done to another REC, and it has not changed since. -/
inductive Since : List Op → Sys → Nat → Rec → Ev → Prop
  | ask {h : List Op} {s s' : Sys} {a : Nat} {c : Call} {w : World} {v v' : Vcpu} {e : Ev} :
      Hist h s → s.recs a = some v → v.rc.pending = false → e ∈ c.evs → step s (.finish a c w) = some s' →
      s'.recs a = some v' → AskedBy e v'.rc → Since (h ++ [.finish a c w]) s' a v'.rc e
  | keep {h : List Op} {s s' : Sys} {a : Nat} {r : Rec} {e : Ev} {o : Op} {v' : Vcpu} :
      Since h s a r e → step s o = some s' → s'.recs a = some v' → v'.rc = r → Since (h ++ [o]) s' a r e

/-- Function identifiers of CPU_ON and AFFINITY_INFO (Arm DEN0022, 5.1.4 and 5.1.5), 32 and 64 bit. -/
def CpuOn (x : W) : Prop := x.toNat = 0x84000003 ∨ x.toNat = 0xC4000003
def AffinityInfo (x : W) : Prop := x.toNat = 0x84000004 ∨ x.toNat = 0xC4000004

/-- PSCI return values (DEN0022, 5.2.2): SUCCESS 0, DENIED -3, ALREADY_ON -4. -/
def neg (n : Int) : W := BitVec.ofInt 64 n

/-- A REC after its PSCI call has been answered with `x`: X0 is `x`, X1 to X3 are zero, and it may run again. -/
structure Answered (c c' : Vcpu) (x : W) : Prop where
  x0 : c'.rc.regs 0 = x
  x123 : ∀ i, 1 ≤ i → i ≤ 3 → c'.rc.regs i = 0
  rest : ∀ i, 4 ≤ i → c'.rc.regs i = c.rc.regs i
  pending : c'.rc.pending = false
  frame : c' = { c with rc := { c.rc with regs := c'.rc.regs, pending := false } }

/-- A REC that has been started at `entry` with context `ctx`: EL1h with all exceptions masked, MMU and caches off, and
the endianness of the caller; everything else as it was. -/
structure StartedAt (t t' : Vcpu) (entry ctx callerSctlr : W) : Prop where
  pc : t'.rc.pc = entry
  x0 : t'.rc.regs 0 = ctx
  rest : ∀ i, 1 ≤ i → t'.rc.regs i = t.rc.regs i
  el1 : t'.rc.pstate = 0x3C5
  mmu : t'.rc.sctlr.getLsbD 0 = false ∧ t'.rc.sctlr.getLsbD 2 = false ∧ t'.rc.sctlr.getLsbD 12 = false
  ee : t'.rc.sctlr.getLsbD 25 = callerSctlr.getLsbD 25
  runnable : t'.rc.runnable = true
  frame : t' = { t with rc := { t.rc with
    regs := t'.rc.regs, pc := entry, pstate := 0x3C5, sctlr := t'.rc.sctlr, runnable := true } }

/-- A REC that runs or may run. -/
def IsOn (t : Vcpu) : Prop := t.running = true ∨ t.rc.runnable = true

/-- The conditions on the two RECs named in PSCI_COMPLETE: they are different RECs of the same realm, the caller does
not run and waits for an answer, and its X1 names the target. -/
structure Pair (s : Sys) (ca ta : Nat) (c t : Vcpu) : Prop where
  ne : ca ≠ ta
  caller : s.recs ca = some c
  target : s.recs ta = some t
  stopped : c.running = false
  waits : c.rc.pending = true
  realm : c.rd = t.rd
  named : Mpidr.el1ToIdx (c.rc.regs 1) = t.rc.idx

end Spec

theorem answered (c : Vcpu) (x : W) : Answered c (answer c x) x := by
  refine ⟨rfl, ?_, ?_, rfl, rfl⟩
  · intro i h1 h2
    obtain rfl | rfl | rfl : i = 1 ∨ i = 2 ∨ i = 3 := by omega
    all_goals rfl
  · intro i hi
    show upd _ 3 0 i = _
    rw [upd_other _ _ (by omega), upd_other _ _ (by omega), upd_other _ _ (by omega), upd_other _ _ (by omega)]

theorem sctlr_bits (x : W) (k : Nat) (hk : k < 64) :
    (SCTLR_EL1_FLAGS ||| (x &&& SCTLR_EE)).getLsbD k =
      (SCTLR_EL1_FLAGS.getLsbD k || (x.getLsbD k && SCTLR_EE.getLsbD k)) := by
  rw [BitVec.getLsbD_or, BitVec.getLsbD_and]

theorem started_spec (t : Vcpu) (entry ctx sctlr : W) : StartedAt t (started t entry ctx sctlr) entry ctx sctlr := by
  refine ⟨rfl, rfl, fun i hi => upd_other _ _ (by omega), rfl, ⟨?_, ?_, ?_⟩, ?_, rfl, rfl⟩
  all_goals
    show (SCTLR_EL1_FLAGS ||| (sctlr &&& SCTLR_EE)).getLsbD _ = _
    rw [sctlr_bits _ _ (by decide)]
    simp [SCTLR_EL1_FLAGS, SCTLR_EE]

theorem isOn_iff (x : W) : isOn x = true ↔ CpuOn x := by
  unfold isOn CpuOn
  rw [Bool.or_eq_true, beq_iff_eq, beq_iff_eq, BitVec.toNat_eq, BitVec.toNat_eq]
  rfl

theorem isAff_iff (x : W) : isAff x = true ↔ AffinityInfo x := by
  unfold isAff AffinityInfo
  rw [Bool.or_eq_true, beq_iff_eq, beq_iff_eq, BitVec.toNat_eq, BitVec.toNat_eq]
  rfl

theorem on_iff (t : Vcpu) : t.on = true ↔ IsOn t := by
  unfold Vcpu.on IsOn
  rw [Bool.or_eq_true]

theorem hist_since {h : List Op} {s : Sys} (hh : Hist h s) {a : Nat} {v : Vcpu} (ha : s.recs a = some v)
    (hp : v.rc.pending = true) : ∃ e, Since h s a v.rc e := by
  induction hh generalizing a v with
  | nil => simp [Sys.init] at ha
  | snoc hprev hok hst ih =>
    rcases from_pending (hist_ok hprev) hok (step_from hst ha) hp with
      ⟨u, hu, _, hup, hr⟩ | ⟨u, c, w, e, rfl, hu, _, hup, he, hask, _, _⟩
    · obtain ⟨e, he⟩ := ih hu hup
      exact ⟨e, .keep (hr ▸ he) hst ha rfl⟩
    · exact ⟨e, .ask hprev hu hup he hst ha hask⟩

theorem since_asked {h : List Op} {s : Sys} {a : Nat} {r : Rec} {e : Ev} (hs : Since h s a r e) : AskedBy e r := by
  induction hs with
  | ask _ _ _ _ _ _ hask => exact hask
  | keep _ _ _ _ ih => exact ih

/-- **C31.**  In every history: a REC that was off is started only by PSCI_COMPLETE with SUCCESS, naming a different REC
of the same realm that is not running, whose last instruction was CPU_ON for exactly this REC (no other REC of the realm
has that index) with a protected entry point, and which has not changed since.  The REC starts at that entry point with
that context, in a clean EL1 state, and the caller gets SUCCESS. -/
theorem C31_started {h : List Op} {s s' : Sys} {o : Op} (hh : Hist h s) (hst : step s o = some s')
    {ta : Nat} {t t' : Vcpu} (ht : s.recs ta = some t) (ht' : s'.recs ta = some t')
    (hoff : t.rc.runnable = false) (hon : t'.rc.runnable = true) :
    ∃ ca c c' e, o = .complete ca ta 0 ∧ Pair s ca ta c t ∧ t.running = false ∧ Since h s ca c.rc e ∧
      CpuOn (e.regs 0) ∧ Mpidr.el1ToIdx (e.regs 1) = t.rc.idx ∧
      (∀ b u, s.recs b = some u → u.rd = c.rd → u.rc.idx = Mpidr.el1ToIdx (e.regs 1) → b = ta) ∧
      (e.regs 2).toNat < 2 ^ (c.rc.ipaBits - 1) ∧
      StartedAt t t' (e.regs 2) (e.regs 3) c.rc.sctlr ∧
      s'.recs ca = some c' ∧ Answered c c' 0 := by
  have hs := hist_ok hh
  have hf := step_from hst ht'
  cases hf with
  | same h hr hd =>
    obtain rfl := Option.some.inj (ht.symm.trans h)
    rw [hr] at hon; exact absurd (hoff.symm.trans hon) (by decide)
  | create h hv => exact absurd (ht.symm.trans h) (by simp)
  | finish h he hr hd =>
    obtain rfl := Option.some.inj (ht.symm.trans h)
    obtain ⟨_, _, q3, _⟩ := recEnter_calm (hs.inv _ _ h).bits he
    rw [hr] at hon; exact absurd (hoff.symm.trans (q3 hon)) (by decide)
  | caller hne h ht2 hrun hc hv =>
    obtain rfl := Option.some.inj (ht.symm.trans h)
    rcases completeRequest_cases hc with hp | ⟨hp, _, _, ⟨x, hx⟩, _⟩
    · rw [hp] at hv; rw [hv] at hon; exact absurd (hoff.symm.trans hon) (by decide)
    · rw [hv, hx] at hon; exact absurd (hoff.symm.trans hon) (by decide)
  | progress h hne h1 h2 hr hd =>
    obtain rfl := Option.some.inj (ht.symm.trans h)
    rw [hr] at hon; exact absurd (hoff.symm.trans hon) (by decide)
  | @target ca status c t0 p hne h hc0 hrun hc hv =>
    obtain rfl := Option.some.inj (ht.symm.trans h)
    rcases completeRequest_cases hc with hp | ⟨hp, hrd, hid, hx, hq | ⟨hcon, hstat, hoff2, hq⟩⟩
    · rw [hp] at hv; rw [hv] at hon; exact absurd (hoff.symm.trans hon) (by decide)
    · rw [hv, hq] at hon; exact absurd (hoff.symm.trans hon) (by decide)
    · obtain ⟨e, he⟩ := hist_since hh hc0 hp
      have hask := since_asked he
      have hreq := (hs.req _ _ hc0 hp).1
      have hregs := hask.regs
      have hcpu := (isOn_iff _).1 hcon
      subst hstat
      rw [hregs] at hcpu hid
      refine ⟨ca, c, answer c 0, e, rfl, ⟨hne, hc0, ht, hrun, hp, hrd, by rw [hregs]; exact hid⟩, (off_of_on hoff2).1, he,
        hcpu, hid, ?_, ?_, ?_, ?_, answered c 0⟩
      · intro b u hu hurd huid
        exact hs.uniq b ta u t hu ht (hurd.trans hrd) (huid.trans hid)
      · rw [← hregs]
        apply hreq.entry
        rw [hregs]
        rcases hcpu with h | h <;> rw [h]
        · exact .inl rfl
        · exact .inr rfl
      · rw [hv, hq, ← hregs]
        exact started_spec _ _ _ _
      · rw [step] at hst
        have : smcComplete s ca ta PSCI_SUCCESS =
            some ((s.set ta (some (started t (c.rc.regs 2) (c.rc.regs 3) c.rc.sctlr))).set ca (some (answer c 0)),
              RMI_SUCCESS) := by
          unfold smcComplete
          rw [if_neg hne, hc0, ht]
          dsimp only
          rw [if_neg (by simp [hrun])]
          have : completeRequest c t PSCI_SUCCESS =
              some (answer c 0, started t (c.rc.regs 2) (c.rc.regs 3) c.rc.sctlr, RMI_SUCCESS) := by
            unfold completeRequest
            rw [if_neg (by simp [hp]), if_neg (by simp [hrd]), if_neg (by simp [hregs, hid]), if_pos hcon,
              if_neg (by simp)]
            unfold completeOn
            rw [if_neg (by simp [hoff2]), if_neg (by decide)]
            rfl
          rw [this]
          rfl
        rw [this] at hst
        obtain rfl := Option.some.inj hst
        exact upd_same _ _ _

/-- **C31.**  PSCI_COMPLETE never changes a target that runs or may run. -/
theorem C31_untouched {s s' : Sys} {ca ta : Nat} {status ret : W} {t : Vcpu} (hne : ca ≠ ta) (ht : s.recs ta = some t)
    (hon : IsOn t) (h : smcComplete s ca ta status = some (s', ret)) : s'.recs ta = some t := by
  unfold smcComplete at h
  rw [if_neg hne] at h
  cases hc : s.recs ca with
  | none => rw [hc] at h; obtain rfl := (Prod.mk.inj (Option.some.inj h)).1; exact ht
  | some c =>
    rw [hc, ht] at h
    dsimp only at h
    rcases ite_or h with ⟨_, h⟩ | ⟨_, h⟩
    · obtain rfl := (Prod.mk.inj (Option.some.inj h)).1; exact ht
    obtain ⟨p, hp, h⟩ := map_some h
    obtain rfl := (Prod.mk.inj h).1
    rw [set_recs, if_neg (Ne.symm hne), set_recs, if_pos rfl]
    rcases completeRequest_cases hp with hq | ⟨_, _, _, _, hq | ⟨_, _, hoff, _⟩⟩
    · rw [hq]
    · rw [hq]
    · exact absurd (hoff.symm.trans ((on_iff t).2 hon)) (by decide)

/-- **C31.**  PSCI_COMPLETE for anything but a caller that waits for this very target is refused and changes nothing. -/
theorem C31_refused {s : Sys} {ca ta : Nat} {status : W} (h : ¬ ∃ c t, Pair s ca ta c t) :
    smcComplete s ca ta status = some (s, 1) := by
  unfold smcComplete
  by_cases hne : ca = ta
  · rw [if_pos hne]; rfl
  rw [if_neg hne]
  cases hc : s.recs ca with
  | none => rfl
  | some c =>
    cases ht : s.recs ta with
    | none => rfl
    | some t =>
      dsimp only
      by_cases hrun : c.running = true
      · rw [if_pos hrun]; rfl
      rw [if_neg hrun]
      have same : completeRequest c t status = some (c, t, RMI_ERROR_INPUT) := by
        unfold completeRequest
        by_cases h1 : c.rc.pending = false
        · rw [if_pos h1]
        rw [if_neg h1]
        by_cases h2 : c.rd ≠ t.rd
        · rw [if_pos h2]
        rw [if_neg h2]
        by_cases h3 : Mpidr.el1ToIdx (c.rc.regs 1) ≠ t.rc.idx
        · rw [if_pos h3]
        push Not at h2 h3
        exact absurd ⟨c, t, hne, hc, ht, by simpa using hrun, by simpa using h1, h2, h3⟩ h
      rw [same]
      show some (((s.set ta (some t)).set ca (some c)), RMI_ERROR_INPUT) = _
      congr 2
      obtain ⟨recs, count⟩ := s
      unfold Sys.set
      dsimp only at hc ht ⊢
      congr 1
      funext b
      by_cases hb : b = ca
      · rw [hb, upd_same, hc]
      · rw [upd_other _ _ hb]
        by_cases hb2 : b = ta
        · rw [hb2, upd_same, ht]
        · rw [upd_other _ _ hb2]

theorem pair_complete {s : Sys} {ca ta : Nat} {c t : Vcpu} (hp : Pair s ca ta c t) (status : W) :
    smcComplete s ca ta status =
      (completeRequest c t status).map fun p => ((s.set ta (some p.2.1)).set ca (some p.1), p.2.2) := by
  unfold smcComplete
  rw [if_neg hp.ne, hp.caller, hp.target]
  dsimp only
  rw [if_neg (by simp [hp.stopped])]

/-- The state after a completion. -/
structure Spec.Completed (s s' : Sys) (ca ta : Nat) (c' t' : Vcpu) : Prop where
  caller : s'.recs ca = some c'
  target : s'.recs ta = some t'
  others : ∀ b, b ≠ ca → b ≠ ta → s'.recs b = s.recs b
  count : s'.count = s.count

theorem completed {s : Sys} {ca ta : Nat} (c' t' : Vcpu) (hne : ca ≠ ta) :
    Completed s ((s.set ta (some t')).set ca (some c')) ca ta c' t' := by
  refine ⟨upd_same _ _ _, ?_, ?_, rfl⟩
  · rw [set_recs, if_neg (Ne.symm hne), set_recs, if_pos rfl]
  · intro b h1 h2
    rw [set_recs, if_neg h1, set_recs, if_neg h2]

/-- **C31.**  The answer to CPU_ON: a status other than SUCCESS or DENIED is refused; a target that is on stays as it is
and the caller gets ALREADY_ON (and the host an error, if it said DENIED); otherwise with DENIED the caller gets DENIED,
and with SUCCESS the target starts and the caller gets SUCCESS. -/
theorem C31_cpu_on {s : Sys} {ca ta : Nat} {c t : Vcpu} (hp : Pair s ca ta c t) (hf : CpuOn (c.rc.regs 0)) (status : W) :
    ∃ s' ret c' t', smcComplete s ca ta status = some (s', ret) ∧ Completed s s' ca ta c' t' ∧
    (status ≠ 0 → status ≠ neg (-3) → ret = 1 ∧ c' = c ∧ t' = t) ∧
    (status = 0 → IsOn t → ret = 0 ∧ Answered c c' (neg (-4)) ∧ t' = t) ∧
    (status = 0 → ¬ IsOn t → ret = 0 ∧ Answered c c' 0 ∧ StartedAt t t' (c.rc.regs 2) (c.rc.regs 3) c.rc.sctlr) ∧
    (status = neg (-3) → IsOn t → ret = 1 ∧ Answered c c' (neg (-4)) ∧ t' = t) ∧
    (status = neg (-3) → ¬ IsOn t → ret = 0 ∧ Answered c c' (neg (-3)) ∧ t' = t) := by
  rw [pair_complete hp]
  unfold completeRequest
  rw [if_neg (by simp [hp.waits]), if_neg (by simp [hp.realm]), if_neg (by simp [hp.named]), if_pos ((isOn_iff _).2 hf)]
  have hden : PSCI_DENIED = neg (-3) := rfl
  have hsuc : PSCI_SUCCESS = 0 := rfl
  have hd0 : neg (-3) ≠ 0 := by decide
  by_cases h1 : status ≠ PSCI_SUCCESS ∧ status ≠ PSCI_DENIED
  · rw [if_pos h1]
    refine ⟨_, _, c, t, rfl, completed c t hp.ne, fun _ _ => ⟨rfl, rfl, rfl⟩, fun h => absurd h h1.1, fun h => absurd h h1.1,
      fun h => absurd h h1.2, fun h => absurd h h1.2⟩
  rw [if_neg h1]
  have h2 : status = 0 ∨ status = neg (-3) := by
    by_contra hc; push Not at hc; exact h1 hc
  unfold completeOn
  by_cases ho : t.on = true
  · have hi := (on_iff t).1 ho
    rw [if_pos ho]
    refine ⟨_, _, _, t, rfl, completed _ t hp.ne, fun a b => absurd (h2.resolve_left a) b, fun a _ => ?_,
      fun _ h => absurd hi h, fun a _ => ?_, fun _ h => absurd hi h⟩
    · refine ⟨?_, answered c _, rfl⟩
      show (if status = PSCI_DENIED ∧ _ then _ else _) = _
      rw [if_neg (by rw [a, hden]; exact fun h => hd0 h.1.symm)]; rfl
    · refine ⟨?_, answered c _, rfl⟩
      show (if status = PSCI_DENIED ∧ _ then _ else _) = _
      rw [if_pos ⟨a, rfl⟩]; rfl
  · have hi : ¬ IsOn t := fun h => ho ((on_iff t).2 h)
    rw [if_neg ho]
    rcases h2 with h2 | h2
    · rw [if_neg (by rw [h2, hden]; exact hd0.symm)]
      refine ⟨_, _, _, _, rfl, completed _ _ hp.ne, fun a => absurd h2 a, fun _ h => absurd h hi, fun _ _ => ?_,
        fun a => absurd (a.symm.trans h2) hd0, fun a => absurd (a.symm.trans h2) hd0⟩
      refine ⟨?_, answered c _, started_spec t _ _ _⟩
      show (if status = PSCI_DENIED ∧ _ then _ else _) = _
      rw [if_neg (by rw [h2, hden]; exact fun h => hd0 h.1.symm)]; rfl
    · rw [if_pos (by rw [h2, hden])]
      refine ⟨_, _, _, _, rfl, completed _ _ hp.ne, fun _ a => absurd h2 a, fun a => absurd (h2.symm.trans a) hd0,
        fun a => absurd (h2.symm.trans a) hd0, fun _ h => absurd h hi, fun _ _ => ?_⟩
      refine ⟨?_, answered c _, rfl⟩
      show (if status = PSCI_DENIED ∧ _ then _ else _) = _
      rw [if_neg (fun h => absurd (show PSCI_DENIED = PSCI_ALREADY_ON from h.2) (by decide))]; rfl

/-- **C31.**  The answer to AFFINITY_INFO: a status other than SUCCESS is refused; otherwise the caller learns whether the
target is on (0) or off (1), and the target stays as it is. -/
theorem C31_affinity_info {s : Sys} {ca ta : Nat} {c t : Vcpu} (hp : Pair s ca ta c t) (hf : AffinityInfo (c.rc.regs 0))
    (status : W) :
    ∃ s' ret c', smcComplete s ca ta status = some (s', ret) ∧ Completed s s' ca ta c' t ∧
    (status ≠ 0 → ret = 1 ∧ c' = c) ∧
    (status = 0 → IsOn t → ret = 0 ∧ Answered c c' 0) ∧
    (status = 0 → ¬ IsOn t → ret = 0 ∧ Answered c c' 1) := by
  have hn : isOn (c.rc.regs 0) = false := by
    cases h : isOn (c.rc.regs 0) with
    | false => rfl
    | true =>
      have := (isOn_iff _).1 h
      unfold CpuOn at this
      unfold AffinityInfo at hf
      omega
  rw [pair_complete hp]
  unfold completeRequest
  rw [if_neg (by simp [hp.waits]), if_neg (by simp [hp.realm]), if_neg (by simp [hp.named]), if_neg (by simp [hn]),
    if_pos ((isAff_iff _).2 hf)]
  by_cases h1 : status ≠ PSCI_SUCCESS
  · rw [if_pos h1]
    exact ⟨_, _, c, rfl, completed c t hp.ne, fun _ => ⟨rfl, rfl⟩, fun h => absurd h h1, fun h => absurd h h1⟩
  · rw [if_neg h1]
    refine ⟨_, _, _, rfl, completed _ t hp.ne, fun h => absurd h h1, fun _ h => ⟨rfl, ?_⟩, fun _ h => ⟨rfl, ?_⟩⟩
    · rw [if_pos ((on_iff t).2 h)]; exact answered c 0
    · rw [if_neg (fun x => h ((on_iff t).1 x))]; exact answered c 1

/-- **C31.**  In every history, a REC whose answer is awaited has stopped with a request that PSCI allows: for another
REC of its realm that was created, with a protected entry point.  Together with `C31_cpu_on` and `C31_affinity_info`:
PSCI_COMPLETE can always answer it, unless the realm set bits 63:32 of X0. -/
theorem C31_waiting_partial {h : List Op} {s : Sys} (hh : Hist h s) {a : Nat} {v : Vcpu} (ha : s.recs a = some v)
    (hp : v.rc.pending = true) :
    ∃ e, Since h s a v.rc e ∧ e.regs = v.rc.regs ∧ PsciReq v.rc (s.count v.rd) ∧
      ((v.rc.regs 0).toNat < 2 ^ 32 → CpuOn (v.rc.regs 0) ∨ AffinityInfo (v.rc.regs 0)) := by
  obtain ⟨e, he⟩ := hist_since hh ha hp
  have hreq := ((hist_ok hh).req _ _ ha hp).1
  refine ⟨e, he, (since_asked he).regs.symm, hreq, fun hlt => ?_⟩
  have hf := hreq.fn
  rw [Nat.mod_eq_of_lt hlt] at hf
  rcases hf with h | h | h | h
  · exact .inl (.inl h)
  · exact .inl (.inr h)
  · exact .inr (.inl h)
  · exact .inr (.inr h)

/-- **C31.**  In every history all RECs of a realm have different indices, and `Inv` (see C26 to C30) holds of every REC. -/
theorem C31_unique {h : List Op} {s : Sys} (hh : Hist h s) :
    (∀ a b v v', s.recs a = some v → s.recs b = some v' → v.rd = v'.rd → v.rc.idx = v'.rc.idx → a = b) ∧
    (∀ a v, s.recs a = some v → Inv v.rc) :=
  ⟨(hist_ok hh).uniq, (hist_ok hh).inv⟩

/-! ### The realm's side -/

namespace Spec

/-- The call returns `x` in X0 to the realm, which goes on with the next instruction; nothing else happens. -/
def Returns (w : World) (p : Option (World × Bool)) (x : W) : Prop :=
  ∃ regs, p = some ({ w with rc := { w.rc with regs := regs, pc := w.rc.pc + 4 } }, true) ∧
    regs 0 = x ∧ regs 1 = 0 ∧ regs 2 = 0 ∧ regs 3 = 0 ∧ ∀ j, 4 ≤ j → regs j = w.rc.regs j

/-- The call stops the REC with exit reason PSCI (3), and shows X0 and X1 to the host; the REC waits. -/
def Asks (w : World) (p : Option (World × Bool)) : Prop :=
  ∃ ex, p = some ({ w with rc := { w.rc with pending := true, pc := w.rc.pc + 4 }, ex := ex }, false) ∧
    ex.reason = 3 ∧ ex.gprs 0 = w.rc.regs 0 ∧ ex.gprs 1 = w.rc.regs 1 ∧ (∀ i, 2 ≤ i → i < 31 → ex.gprs i = 0) ∧
    ex = { w.ex with reason := ex.reason, gprs := ex.gprs }

end Spec

theorem finish_ret (w : World) (x : W) : Returns w (rsiFinish (w, ret w.rc x)) x := by
  refine ⟨_, rfl, rfl, rfl, rfl, rfl, ?_⟩
  intro j hj
  show (if j < 5 then _ else w.rc.regs j) = _
  by_cases h5 : j < 5
  · have : j = 4 := by omega
    subst this
    rfl
  · rw [if_neg h5]

theorem finish_ask (w : World) :
    Asks w (rsiFinish (psciReason (forwardArgs 2 { w with rc := { w.rc with pending := true } }), ⟨EXIT_TO_HOST, 0, res0 w.rc⟩)) := by
  refine ⟨_, rfl, rfl, rfl, rfl, ?_, rfl⟩
  intro i h1 h2
  show (if i < 2 then _ else if i < 31 then (0 : W) else _) = 0
  rw [if_neg (by omega), if_pos h2]

theorem switch_psci {env : Env} {w : World} {k : BitVec 32} (hk : (w.rc.regs 0).setWidth 32 = k)
    (hm : k &&& ~~~0x10000 = k) (h0 : k ≠ 0x80000000)
    (hr : (0x84000000 ≤ k ∧ k ≤ 0x84000014) ∨ (0xC4000000 ≤ k ∧ k ≤ 0xC4000014)) :
    realmRsi env w = rsiFinish (psci env w) := by
  unfold realmRsi
  have hf : fid w.rc = k := by unfold fid; rw [hk, hm]
  rw [hf]
  unfold rsiSwitch
  rw [if_neg h0, if_pos hr]
  rfl

theorem low_eq {x : W} {k : BitVec 32} (h : x.toNat % 2 ^ 32 = k.toNat) : x.setWidth 32 = k := by
  apply BitVec.eq_of_toNat_eq
  rw [low_word, h]

/-- **C31.**  What the realm gets from CPU_ON, at once: INVALID_ADDRESS (-9) if the entry point is not protected,
INVALID_PARAMETERS (-2) if no such REC has been created, ALREADY_ON (-4) for itself; otherwise the REC stops and waits. -/
theorem C31_asks_on (env : Env) {w : World} (hb : 32 ≤ w.rc.ipaBits ∧ w.rc.ipaBits ≤ 52)
    (hf : (w.rc.regs 0).toNat % 2 ^ 32 = 0x84000003 ∨ (w.rc.regs 0).toNat % 2 ^ 32 = 0xC4000003) :
    (2 ^ (w.rc.ipaBits - 1) ≤ (w.rc.regs 2).toNat → Returns w (realmRsi env w) (neg (-9))) ∧
    ((w.rc.regs 2).toNat < 2 ^ (w.rc.ipaBits - 1) → env.recCount.toNat ≤ (Mpidr.el1ToIdx (w.rc.regs 1)).toNat →
      Returns w (realmRsi env w) (neg (-2))) ∧
    ((w.rc.regs 2).toNat < 2 ^ (w.rc.ipaBits - 1) → (Mpidr.el1ToIdx (w.rc.regs 1)).toNat < env.recCount.toNat →
      Mpidr.el1ToIdx (w.rc.regs 1) = w.rc.idx → Returns w (realmRsi env w) (neg (-4))) ∧
    ((w.rc.regs 2).toNat < 2 ^ (w.rc.ipaBits - 1) → (Mpidr.el1ToIdx (w.rc.regs 1)).toNat < env.recCount.toNat →
      Mpidr.el1ToIdx (w.rc.regs 1) ≠ w.rc.idx → Asks w (realmRsi env w)) := by
  have hrun : realmRsi env w = rsiFinish (psciOn env w) := by
    rcases hf with h | h
    · have hk : (w.rc.regs 0).setWidth 32 = 0x84000003 := low_eq h
      rw [switch_psci hk (by decide) (by decide) (by decide)]
      unfold psci
      dsimp only
      rw [hk]
      rfl
    · have hk : (w.rc.regs 0).setWidth 32 = 0xC4000003 := low_eq h
      rw [switch_psci hk (by decide) (by decide) (by decide)]
      unfold psci
      dsimp only
      rw [hk]
      rfl
  rw [hrun]
  unfold psciOn
  have hin := inPar_iff hb (w.rc.regs 2)
  refine ⟨fun h1 => ?_, fun h1 h2 => ?_, fun h1 h2 h3 => ?_, fun h1 h2 h3 => ?_⟩
  · have : inPar w.rc (w.rc.regs 2) = false := by
      cases h : inPar w.rc (w.rc.regs 2) with
      | false => rfl
      | true => have := hin.1 h; omega
    rw [if_pos this]; exact finish_ret _ _
  · rw [if_neg (by rw [hin.2 h1]; decide), if_pos (BitVec.le_def.2 h2)]; exact finish_ret _ _
  · rw [if_neg (by rw [hin.2 h1]; decide), if_neg (by rw [BitVec.le_def]; omega), if_pos h3]; exact finish_ret _ _
  · rw [if_neg (by rw [hin.2 h1]; decide), if_neg (by rw [BitVec.le_def]; omega), if_neg h3]; exact finish_ask _

/-- **C31.**  What the realm gets from AFFINITY_INFO, at once: INVALID_PARAMETERS (-2) for an affinity level other than 0
or a REC that has not been created, ON (0) for itself; otherwise the REC stops and waits. -/
theorem C31_asks_affinity (env : Env) {w : World}
    (hf : (w.rc.regs 0).toNat % 2 ^ 32 = 0x84000004 ∨ (w.rc.regs 0).toNat % 2 ^ 32 = 0xC4000004) :
    (w.rc.regs 2 ≠ 0 ∨ env.recCount.toNat ≤ (Mpidr.el1ToIdx (w.rc.regs 1)).toNat →
      Returns w (realmRsi env w) (neg (-2))) ∧
    (w.rc.regs 2 = 0 → (Mpidr.el1ToIdx (w.rc.regs 1)).toNat < env.recCount.toNat →
      Mpidr.el1ToIdx (w.rc.regs 1) = w.rc.idx → Returns w (realmRsi env w) 0) ∧
    (w.rc.regs 2 = 0 → (Mpidr.el1ToIdx (w.rc.regs 1)).toNat < env.recCount.toNat →
      Mpidr.el1ToIdx (w.rc.regs 1) ≠ w.rc.idx → Asks w (realmRsi env w)) := by
  have hrun : realmRsi env w = rsiFinish (psciAffinity env w) := by
    rcases hf with h | h
    · have hk : (w.rc.regs 0).setWidth 32 = 0x84000004 := low_eq h
      rw [switch_psci hk (by decide) (by decide) (by decide)]
      unfold psci
      dsimp only
      rw [hk]
      rfl
    · have hk : (w.rc.regs 0).setWidth 32 = 0xC4000004 := low_eq h
      rw [switch_psci hk (by decide) (by decide) (by decide)]
      unfold psci
      dsimp only
      rw [hk]
      rfl
  rw [hrun]
  unfold psciAffinity
  refine ⟨fun h1 => ?_, fun h1 h2 h3 => ?_, fun h1 h2 h3 => ?_⟩
  · by_cases h2 : w.rc.regs 2 ≠ 0
    · rw [if_pos h2]; exact finish_ret _ _
    · rw [if_neg h2, if_pos (BitVec.le_def.2 (h1.resolve_left h2))]; exact finish_ret _ _
  · rw [if_neg (by simp [h1]), if_neg (by rw [BitVec.le_def]; omega), if_pos h3]; exact finish_ret _ _
  · rw [if_neg (by simp [h1]), if_neg (by rw [BitVec.le_def]; omega), if_neg h3]; exact finish_ask _

/-! ## Concrete cases -/

namespace Demo

/-- A realm call with X0 to X3. -/
def psciCall (x0 x1 x2 x3 : W) : Ev :=
  ev .sync ⟨0x5E000000, 0, 0⟩ fun i => if i = 0 then x0 else if i = 1 then x1 else if i = 2 then x2 else if i = 3 then x3 else 0

/-- A realm at 0x80000000 with four RECs; the first one is on and asks for the second one to be started at 0x3000. -/
def boot (x0 : W) : List Op :=
  [.realm 0x80000000, .create 0x80001000 0x80000000 { rc with runnable := true },
   .create 0x80002000 0x80000000 { rc with idx := 1, runnable := false },
   .create 0x80003000 0x80000000 { rc with idx := 2, runnable := false },
   .create 0x80004000 0x80000000 { rc with idx := 3, runnable := true },
   .start 0x80001000,
   .finish 0x80001000 (call 0 0 [psciCall x0 1 0x3000 0x99]) world]

def runAll (ops : List Op) : Option Sys := ops.foldlM step Sys.init

/-- The history starts the second REC, which then runs at 0x3000 with 0x99 in X0. -/
theorem booted :
    ((runAll (boot 0xC4000003 ++ [.complete 0x80001000 0x80002000 0])).bind fun s =>
      (s.recs 0x80001000).bind fun c => (s.recs 0x80002000).map fun t =>
        (c.rc.pending, c.rc.regs 0, t.rc.runnable, t.rc.pc, t.rc.regs 0, t.rc.pstate)) =
      some (false, 0, true, 0x3000, 0x99, 0x3C5) := by decide +kernel

end Demo

namespace Demo

theorem fresh (i : W) (b : Bool) : Fresh0 { rc with idx := i, runnable := b } i.toNat :=
  ⟨rfl, rfl, rfl, ⟨rfl, rfl⟩, rfl, show 32 ≤ rc.ipaBits by decide, show rc.ipaBits ≤ 52 by decide⟩

def stepD (s : Sys) (o : Op) : Sys := (step s o).getD s

theorem hist_step {h : List Op} {s : Sys} {o : Op} (hh : Hist h s) (hok : o.ok s) (hs : (step s o).isSome = true) :
    Hist (h ++ [o]) (stepD s o) := by
  refine .snoc hh hok ?_
  unfold stepD
  cases hq : step s o with
  | none => rw [hq] at hs; simp at hs
  | some s' => rfl

def s1 := stepD Sys.init (.realm 0x80000000)
def s2 := stepD s1 (.create 0x80001000 0x80000000 { rc with idx := 0, runnable := true })
def s3 := stepD s2 (.create 0x80002000 0x80000000 { rc with idx := 1, runnable := false })
def s4 := stepD s3 (.create 0x80003000 0x80000000 { rc with idx := 2, runnable := false })
def s5 := stepD s4 (.create 0x80004000 0x80000000 { rc with idx := 3, runnable := true })
def s6 := stepD s5 (.start 0x80001000)
def s7 (x0 : W) := stepD s6 (.finish 0x80001000 (call 0 0 [psciCall x0 1 0x3000 0x99]) world)

theorem count1 : (s1.count 0x80000000 = 0 ∧ s2.count 0x80000000 = 1 ∧ s3.count 0x80000000 = 2 ∧ s4.count 0x80000000 = 3) ∧
    s6.count 0x80000000 = 4 ∧ (s6.recs 0x80001000).map (·.rd) = some 0x80000000 := by decide +kernel

theorem asked (x0 : W) (hx : (step s6 (.finish 0x80001000 (call 0 0 [psciCall x0 1 0x3000 0x99]) world)).isSome = true) :
    ∃ h, Hist h (s7 x0) := by
  obtain ⟨⟨c1, c2, c3, c4⟩, c6, cr⟩ := count1
  have h1 := hist_step (o := .realm 0x80000000) Hist.nil (by intro a v h; simp [Sys.init] at h) rfl
  have h2 := hist_step (o := .create 0x80001000 0x80000000 { rc with idx := 0, runnable := true }) h1
    (by show Fresh0 _ (s1.count 0x80000000); rw [c1]; exact fresh 0 true) (by decide +kernel)
  have h3 := hist_step (o := .create 0x80002000 0x80000000 { rc with idx := 1, runnable := false }) h2
    (by show Fresh0 _ (s2.count 0x80000000); rw [c2]; exact fresh 1 false) (by decide +kernel)
  have h4 := hist_step (o := .create 0x80003000 0x80000000 { rc with idx := 2, runnable := false }) h3
    (by show Fresh0 _ (s3.count 0x80000000); rw [c3]; exact fresh 2 false) (by decide +kernel)
  have h5 := hist_step (o := .create 0x80004000 0x80000000 { rc with idx := 3, runnable := true }) h4
    (by show Fresh0 _ (s4.count 0x80000000); rw [c4]; exact fresh 3 true) (by decide +kernel)
  have h6 := hist_step (o := .start 0x80001000) h5 trivial (by decide +kernel)
  have h7 := hist_step (o := .finish 0x80001000 (call 0 0 [psciCall x0 1 0x3000 0x99]) world) h6
    (by
      intro v hv e he
      change s6.recs 0x80001000 = some v at hv
      rw [hv] at cr
      have hrd : v.rd = 0x80000000 := Option.some.inj cr
      have he : e = psciCall x0 1 0x3000 0x99 := by simpa [call] using he
      subst he
      refine ⟨fun h => absurd h (by simp [psciCall, ev]), ?_⟩
      show (4 : W).toNat = s6.count v.rd
      rw [hrd, c6]; rfl) hx
  exact ⟨_, h7⟩

end Demo

/-- The hypotheses of `C31_started` are met by a history in which one REC starts another. -/
example : ∃ h s s' t t', Hist h s ∧ step s (.complete 0x80001000 0x80002000 0) = some s' ∧ s.recs 0x80002000 = some t ∧
    s'.recs 0x80002000 = some t' ∧ t.rc.runnable = false ∧ t'.rc.runnable = true := by
  obtain ⟨h, hh⟩ := Demo.asked 0xC4000003 (by decide +kernel)
  have hq : ((step (Demo.s7 0xC4000003) (.complete 0x80001000 0x80002000 0)).bind fun s' =>
      ((Demo.s7 0xC4000003).recs 0x80002000).bind fun t => (s'.recs 0x80002000).map fun t' =>
        (t.rc.runnable, t'.rc.runnable)) = some (false, true) := by decide +kernel
  obtain ⟨s', h1, hq⟩ := bind_some hq
  obtain ⟨t, h2, hq⟩ := bind_some hq
  obtain ⟨t', h3, hq⟩ := map_some hq
  exact ⟨h, _, s', t, t', hh, h1, h2, h3, (Prod.mk.inj hq).1, (Prod.mk.inj hq).2⟩

/-- The hypotheses of `C31_cpu_on` are met by the same state: the two RECs are a pair, for SUCCESS and for DENIED. -/
example : ∃ c t, Pair (Demo.s7 0xC4000003) 0x80001000 0x80002000 c t ∧ CpuOn (c.rc.regs 0) ∧ ¬ IsOn t := by
  have hq : (((Demo.s7 0xC4000003).recs 0x80001000).bind fun c => ((Demo.s7 0xC4000003).recs 0x80002000).map fun t =>
      (c.running, c.rc.pending, decide (c.rd = t.rd), decide (Mpidr.el1ToIdx (c.rc.regs 1) = t.rc.idx), c.rc.regs 0,
        t.on)) = some (false, true, true, true, 0xC4000003, false) := by decide +kernel
  obtain ⟨c, h1, hq⟩ := bind_some hq
  obtain ⟨t, h2, hq⟩ := map_some hq
  simp only [Prod.mk.injEq, decide_eq_true_eq] at hq
  obtain ⟨a, b, d, e, f, g⟩ := hq
  refine ⟨c, t, ⟨by decide, h1, h2, a, b, d, e⟩, by rw [f]; right; rfl, fun x => ?_⟩
  exact absurd (g.symm.trans ((on_iff t).2 x)) (by decide)

/-- AFFINITY_INFO for a REC that is on: the caller learns 0. -/
example : ((step (Demo.stepD Demo.s6 (.finish 0x80001000 (Demo.call 0 0 [Demo.psciCall 0xC4000004 3 0 0]) Demo.world))
    (.complete 0x80001000 0x80004000 0)).bind fun s => (s.recs 0x80001000).map fun c => (c.rc.pending, c.rc.regs 0)) =
      some (false, 0) := by decide +kernel

/-- The hypotheses of `C31_asks_on` are met in all four cases. -/
example : let w := fun x1 x2 : W => { Demo.world with rc := { Demo.rc with
        regs := fun i => if i = 0 then 0xC4000003 else if i = 1 then x1 else x2 } }
    [w 1 0x100000000, w 4 0x3000, w 0 0x3000, w 1 0x3000].map (fun w => (realmRsi Demo.env w).map fun p =>
      (p.2, p.1.rc.regs 0, p.1.rc.pending)) =
    [some (true, neg (-9), false), some (true, neg (-2), false), some (true, neg (-4), false),
      some (false, 0xC4000003, true)] := by decide +kernel

/-- **Deviation.**  `handle_psci` looks at the low half of X0, `psci_complete_request` at all of it: a realm that sets
bit 32 of X0 waits for an answer which PSCI_COMPLETE cannot give (an assertion fails), whatever the host does. -/
theorem C31_upper_bits :
    ((Demo.runAll (Demo.boot 0x1C4000003)).map fun s => (s.recs 0x80001000).map (·.rc.pending)) = some (some true) ∧
    ((Demo.runAll (Demo.boot 0x1C4000003 ++ [.complete 0x80001000 0x80002000 0])).isNone) = true := by
  decide +kernel

end Verif.Run
