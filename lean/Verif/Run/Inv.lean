import Verif.Run.PropEnter

/-!
# What is known about a REC that is not running

`Inv` holds of every REC between calls: a pending host call, a pending RIPAS change and an emulatable data
abort are each the last thing that happened, so at most one of the completions of REC_ENTER applies.
-/

namespace Verif.Run

/-- The arguments of a pending RIPAS change. -/
structure RangeOk (r : Rec) : Prop where
  base : r.ripas.base.toNat % 4096 = 0
  top : r.ripas.top.toNat % 4096 = 0
  lt : r.ripas.base.toNat < r.ripas.top.toNat
  par : r.ripas.top.toNat ≤ 2 ^ (r.ipaBits - 1)
  val : r.ripas.val.toNat ≤ 1
  addr : r.ripas.base.toNat ≤ r.ripas.addr.toNat ∧ r.ripas.addr.toNat ≤ r.ripas.top.toNat

structure Inv (r : Rec) : Prop where
  bits : 32 ≤ r.ipaBits ∧ r.ipaBits ≤ 52
  call : r.hostCall = true →
    ec r.lastEsr = EC_SMC ∧ inPar r (r.regs 1) = true ∧ (r.regs 1).toNat % 256 = 0 ∧ r.ripas.base = r.ripas.top ∧
    r.runnable = true ∧ r.pending = false
  ripas : r.ripas.base ≠ r.ripas.top →
    ec r.lastEsr = EC_SMC ∧ r.runnable = true ∧ r.pending = false ∧ r.hostCall = false ∧ RangeOk r
  mmio : ec r.lastEsr = EC_DABT → isv r.lastEsr = true →
    parSize r ≤ fipaOf r.lastHpfar ∧ fipaOf r.lastHpfar < ipaSize r ∧ r.pstate.getLsbD 4 = false
  sysreg : ec r.lastEsr = EC_SYSREG → srWrite r.lastEsr = true

/-- Nothing is pending. -/
structure Idle (r : Rec) : Prop where
  bits : 32 ≤ r.ipaBits ∧ r.ipaBits ≤ 52
  call : r.hostCall = false
  ripas : r.ripas.base = r.ripas.top
  runnable : r.runnable = true
  pending : r.pending = false

/-- The architecture gives an SError exception the class 0x2F. -/
def HwOk (e : Exc) (hw : Hw) : Prop := e = .serror → ec hw.esr = 0x2F

theorem inv_of_idle {r : Rec} (h : Idle r)
    (hm : ec r.lastEsr = EC_DABT → isv r.lastEsr = true →
      parSize r ≤ fipaOf r.lastHpfar ∧ fipaOf r.lastHpfar < ipaSize r ∧ r.pstate.getLsbD 4 = false)
    (hs : ec r.lastEsr = EC_SYSREG → srWrite r.lastEsr = true) : Inv r :=
  ⟨h.bits, fun hc => by simp [h.call] at hc, fun hr => absurd h.ripas hr, hm, hs⟩

theorem ipaSize_toNat {r : Rec} (h : r.ipaBits ≤ 52) : (ipaSize r).toNat = 2 ^ r.ipaBits := by
  unfold ipaSize
  rw [BitVec.toNat_shiftLeft, Nat.shiftLeft_eq]
  show 1 * 2 ^ r.ipaBits % 2 ^ 64 = _
  rw [Nat.one_mul, Nat.mod_eq_of_lt (Nat.pow_lt_pow_right (by omega) (by omega))]

theorem parSize_toNat {r : Rec} (h : 32 ≤ r.ipaBits ∧ r.ipaBits ≤ 52) : (parSize r).toNat = 2 ^ (r.ipaBits - 1) := by
  unfold parSize
  rw [BitVec.toNat_ushiftRight, ipaSize_toNat h.2, Nat.shiftRight_eq_div_pow]
  obtain ⟨n, hn⟩ : ∃ n, r.ipaBits = n + 1 := ⟨r.ipaBits - 1, by omega⟩
  rw [hn, Nat.pow_succ]
  simp

theorem isv_clear (e : W) : isv (e &&& ~~~B_ISV) = false := by
  unfold isv B_ISV
  rw [BitVec.getLsbD_and, show (~~~(0x1000000 : W)).getLsbD 24 = false by decide, Bool.and_false]

theorem ec_clear (e : W) : ec (e &&& ~~~B_ISV) = ec e := by
  unfold ec B_ISV
  exact extract_mask _ _ _ _ (by decide)

theorem wr_clear (e : W) : srWrite (e &&& ~~~B_ISV) = srWrite e := by
  unfold srWrite B_ISV
  rw [BitVec.getLsbD_and, show (~~~(0x1000000 : W)).getLsbD 0 = true by decide, Bool.and_true]

theorem isv_of_and {x : W} (h : ¬ x &&& B_ISV = 0) : isv x = true := by
  by_contra hc
  apply h
  apply BitVec.eq_of_getLsbD_eq
  intro i hi
  have : ∀ k : Fin 64, B_ISV.getLsbD k = decide (k.val = 24) := by decide
  rw [BitVec.getLsbD_and, this ⟨i, hi⟩]
  by_cases h24 : i = 24
  · subst h24
    unfold isv at hc
    simp only [Bool.not_eq_true] at hc
    rw [hc]
    rfl
  · simp [h24]

theorem recordSync_ec (w : World) (hw : Hw) : ec (recordSync w hw).rc.lastEsr = ec hw.esr := by
  unfold recordSync
  dsimp only
  split
  · exact ec_clear _
  · rfl

theorem recordSync_wr (w : World) (hw : Hw) : srWrite (recordSync w hw).rc.lastEsr = srWrite hw.esr := by
  unfold recordSync
  dsimp only
  split
  · exact wr_clear _
  · rfl

theorem recordSync_isv (w : World) (hw : Hw) (h : isv (recordSync w hw).rc.lastEsr = true) : isv w.ex.esr = true := by
  unfold recordSync at h
  dsimp only at h
  split at h
  · rw [isv_clear] at h; simp at h
  · exact isv_of_and ‹_›

/-! ## Handlers -/

theorem isv_nonemul (e : W) : isv (e &&& M_NONEMUL) = false := by
  unfold isv M_NONEMUL
  rw [BitVec.getLsbD_and, show (0xFC001E3F : W).getLsbD 24 = false by decide, Bool.and_false]

theorem idle_of_admin {r r' : Rec} (h : Idle r) (ha : SameAdmin r r') : Idle r' :=
  ⟨by rw [ha.ipaBits]; exact h.bits, ha.hostCall.trans h.call, by rw [ha.ripas]; exact h.ripas,
   ha.runnable.trans h.runnable, ha.pending.trans h.pending⟩

/-- What a data abort that exits leaves: nothing pending, and a valid syndrome only for shared addresses. -/
theorem dataAbort_false {env : Env} {w w' : World} {hw : Hw} (h : dataAbort env w hw = some (w', false)) :
    SameAdmin w.rc w'.rc ∧ (isv w'.ex.esr = true →
      parSize w.rc ≤ fipaOf hw.hpfar ∧ fipaOf hw.hpfar < ipaSize w.rc ∧ w.rc.pstate.getLsbD 4 = false ∧
      w'.rc.pstate = w.rc.pstate) := by
  unfold dataAbort at h
  dsimp only at h
  rcases ite_or h with ⟨_, h⟩ | ⟨_, h⟩
  · obtain ⟨w1, h1, h2⟩ := map_some h
    obtain rfl := (Prod.mk.inj h2).1
    obtain ⟨ha, _, _, he, _⟩ := externalAbort_some h1
    refine ⟨ha, fun hi => ?_⟩
    rw [he, isv_nonemul] at hi
    simp at hi
  obtain ⟨bad, hbad, h⟩ := bind_some h
  rcases ite_or h with ⟨_, h⟩ | ⟨hb, h⟩
  · obtain ⟨_, _, h2⟩ := map_some h; simp at h2
  rcases ite_or h with ⟨hp, h⟩ | ⟨hp, h⟩
  · obtain rfl := (Prod.mk.inj (Option.some.inj h)).1
    refine ⟨.rfl _, fun hi => ?_⟩
    dsimp only at hi
    rw [isv_nonemul] at hi
    simp at hi
  · obtain ⟨v, hv, h2⟩ := map_some h
    obtain rfl := (Prod.mk.inj h2).1
    have hps : w.rc.pstate.getLsbD 4 = false ∧ inPar w.rc (fipaOf hw.hpfar) = false := by simpa using hp
    have hsz : fipaOf hw.hpfar < ipaSize w.rc := by
      rcases ite_or hbad with ⟨_, h3⟩ | ⟨h3, _⟩
      · simp at h3; simp [← h3] at hb
      · exact BitVec.not_le.mp h3
    refine ⟨.rfl _, fun _ => ⟨?_, hsz, hps.1, rfl⟩⟩
    have := hps.2
    unfold inPar at this
    exact BitVec.not_lt.mp (by simpa using this)

theorem instrAbort_false {env : Env} {w w' : World} {hw : Hw} (h : instrAbort env w hw = some (w', false)) :
    SameAdmin w.rc w'.rc := by
  unfold instrAbort at h
  dsimp only at h
  rcases ite_or h with ⟨_, h⟩ | ⟨_, h⟩
  · obtain ⟨w1, h1, h2⟩ := map_some h
    obtain rfl := (Prod.mk.inj h2).1
    exact (externalAbort_some h1).1
  obtain ⟨bad, hbad, h⟩ := bind_some h
  rcases ite_or h with ⟨_, h⟩ | ⟨hb, h⟩
  · obtain ⟨_, _, h2⟩ := map_some h; simp at h2
  rcases ite_or h with ⟨hp, h⟩ | ⟨hp, h⟩
  · obtain rfl := (Prod.mk.inj (Option.some.inj h)).1
    exact .rfl _
  · obtain rfl := (Prod.mk.inj (Option.some.inj h)).1
    exact .rfl _

theorem sysregTrap_false {env : Env} {w w' : World} {esr : W} (h : sysregTrap env w esr = some (w', false)) :
    w'.rc = w.rc ∧ srWrite esr = true := by
  have key : ∀ w1, iccTrap w esr = some w1 → w1.rc = w.rc ∧ srWrite esr = true := by
    intro w1 h1
    unfold iccTrap at h1
    dsimp only at h1
    rcases ite_or h1 with ⟨⟨_, hwr⟩, h1⟩ | ⟨_, h1⟩
    · obtain ⟨v, hv, rfl⟩ := map_some h1
      exact ⟨rfl, hwr⟩
    · simp at h1
  unfold sysregTrap at h
  rcases ite_or h with ⟨_, h⟩ | ⟨_, h⟩
  · simp at h
  rcases ite_or h with ⟨_, h⟩ | ⟨_, h⟩
  · obtain ⟨_, _, h2⟩ := map_some h; simp at h2
  rcases ite_or h with ⟨_, h⟩ | ⟨_, h⟩
  · obtain ⟨w1, h1, h2⟩ := map_some h
    obtain rfl := (Prod.mk.inj h2).1
    exact key _ h1
  rcases ite_or h with ⟨_, h⟩ | ⟨_, h⟩
  · obtain ⟨w1, h1, h2⟩ := map_some h
    obtain rfl := (Prod.mk.inj h2).1
    exact key _ h1
  rcases ite_or h with ⟨_, h⟩ | ⟨_, h⟩
  · obtain ⟨_, _, h2⟩ := map_some h; simp at h2
  · simp at h

/-- What is pending after a call that exits to the host. -/
structure Asked (w : World) (p : World × Res) : Prop where
  bits : p.1.rc.ipaBits = w.rc.ipaBits
  call : p.1.rc.hostCall = true → p.2.act.upd = false ∧ p.1.rc.regs = w.rc.regs ∧ inPar w.rc (w.rc.regs 1) = true ∧
    (w.rc.regs 1).toNat % 256 = 0 ∧ p.1.rc.ripas = w.rc.ripas ∧ p.1.rc.runnable = w.rc.runnable ∧
    p.1.rc.pending = w.rc.pending
  ripas : p.1.rc.ripas.base ≠ p.1.rc.ripas.top → RangeOk p.1.rc ∧ p.1.rc.hostCall = w.rc.hostCall ∧
    p.1.rc.runnable = w.rc.runnable ∧ p.1.rc.pending = w.rc.pending

theorem asked_same {w w' : World} {r : Res} (hi : Idle w.rc) (h : w'.rc = w.rc) : Asked w (w', r) :=
  ⟨by rw [h], fun hc => by simp only [h] at hc; simp [hi.call] at hc,
   fun hr => by simp only [h] at hr; exact absurd hi.ripas hr⟩

theorem regionInPar_iff {r : Rec} (h : 32 ≤ r.ipaBits ∧ r.ipaBits ≤ 52) (base top : W) (hlt : base.toNat < top.toNat) :
    regionInPar r base top = true ↔ top.toNat ≤ 2 ^ (r.ipaBits - 1) := by
  have hp := parSize_toNat h
  have hpos : 0 < 2 ^ (r.ipaBits - 1) := Nat.two_pow_pos _
  unfold regionInPar
  dsimp only
  have t1 : (top - 1).toNat = top.toNat - 1 := by
    rw [BitVec.toNat_sub_of_le (by rw [BitVec.le_def]; show 1 ≤ _; omega)]; rfl
  have p1 : (parSize r - 1).toNat = 2 ^ (r.ipaBits - 1) - 1 := by
    rw [BitVec.toNat_sub_of_le (by rw [BitVec.le_def, hp]; show 1 ≤ _; omega), hp]; rfl
  rw [if_neg (by rw [gt_iff_lt, BitVec.lt_def, t1]; omega)]
  simp only [gt_iff_lt, ge_iff_le, BitVec.lt_def, BitVec.le_def, p1, t1, Bool.and_eq_true, Bool.not_eq_true',
    decide_eq_true_eq, decide_eq_false_iff_not]
  simp
  omega

theorem psci_asked {env : Env} {w : World} (hi : Idle w.rc) : Asked w (psci env w) := by
  unfold psci psciSuspend psciOff psciOn psciAffinity psciSystemOff psciFeatures psciReason forwardArgs
  dsimp only
  repeat' split
  all_goals first
    | exact asked_same hi rfl
    | exact ⟨rfl, fun hc => by simp [hi.call] at hc, fun hr => absurd hi.ripas hr⟩

theorem rsiSwitch_asked {env : Env} {w : World} {p : World × Res} (hi : Idle w.rc)
    (h : rsiSwitch env w (fid w.rc) = some p) : Asked w p := by
  unfold rsiSwitch at h
  rcases ite_or h with ⟨_, h⟩ | ⟨_, h⟩
  · obtain rfl := Option.some.inj h
    exact asked_same hi rfl
  rcases ite_or h with ⟨_, h⟩ | ⟨_, h⟩
  · obtain rfl := Option.some.inj h
    exact psci_asked hi
  rcases ite_or h with ⟨_, h⟩ | ⟨_, h⟩
  · obtain rfl := Option.some.inj h
    exact asked_same hi rfl
  rcases ite_or h with ⟨_, h⟩ | ⟨_, h⟩
  · obtain rfl := Option.some.inj h
    exact asked_same hi rfl
  rcases ite_or h with ⟨_, h⟩ | ⟨_, h⟩
  · obtain rfl := Option.some.inj h
    unfold rsiTokenInit
    dsimp only
    repeat' split
    all_goals exact asked_same hi rfl
  rcases ite_or h with ⟨_, h⟩ | ⟨_, h⟩
  · unfold rsiTokenContinue at h
    dsimp only at h
    rcases ite_or h with ⟨_, h⟩ | ⟨hargs, h⟩
    · obtain rfl := Option.some.inj h
      exact asked_same hi rfl
    rcases ite_or h with ⟨_, h⟩ | ⟨_, h⟩
    · obtain rfl := Option.some.inj h
      exact asked_same hi rfl
    obtain ⟨q, _, rfl⟩ := map_some h
    unfold tokenWrite
    dsimp only
    repeat' split
    all_goals exact asked_same hi rfl
  rcases ite_or h with ⟨_, h⟩ | ⟨_, h⟩
  · obtain rfl := Option.some.inj h
    exact ⟨rfl, fun hc => by simp [rsiRead, hi.call] at hc, fun hr => absurd hi.ripas hr⟩
  rcases ite_or h with ⟨_, h⟩ | ⟨_, h⟩
  · obtain rfl := Option.some.inj h
    exact asked_same hi rfl
  rcases ite_or h with ⟨_, h⟩ | ⟨_, h⟩
  · obtain rfl := Option.some.inj h
    unfold rsiConfig
    dsimp only
    repeat' split
    all_goals exact asked_same hi rfl
  rcases ite_or h with ⟨hf, h⟩ | ⟨_, h⟩
  · obtain rfl := Option.some.inj h
    unfold rsiIpaStateSet
    dsimp only
    split
    · exact asked_same hi rfl
    · rename_i hargs
      push Not at hargs
      obtain ⟨h1, h2, h3, h4, h5⟩ := hargs
      refine ⟨rfl, fun hc => by simp [hi.call] at hc, fun _ => ⟨?_, rfl, rfl, rfl⟩⟩
      have hlt : (w.rc.regs 1).toNat < (w.rc.regs 2).toNat := by
        simpa [BitVec.lt_def, BitVec.le_def] using h4
      constructor
      · exact aligned_toNat (by simpa using h2)
      · exact aligned_toNat (by simpa using h3)
      · exact hlt
      · exact (regionInPar_iff hi.bits _ _ hlt).mp (by simpa using h5)
      · simpa [BitVec.le_def] using h1
      · exact ⟨le_refl _, le_of_lt hlt⟩
  rcases ite_or h with ⟨_, h⟩ | ⟨_, h⟩
  · obtain rfl := Option.some.inj h
    unfold rsiIpaStateGet
    dsimp only
    repeat' split
    all_goals exact asked_same hi rfl
  rcases ite_or h with ⟨hf, h⟩ | ⟨_, h⟩
  · unfold rsiHostCall at h
    dsimp only at h
    rcases ite_or h with ⟨_, h⟩ | ⟨ha, h⟩
    · obtain rfl := Option.some.inj h
      exact asked_same hi rfl
    rcases ite_or h with ⟨_, h⟩ | ⟨_, h⟩
    · obtain rfl := Option.some.inj h
      exact asked_same hi rfl
    rcases ite_or h with ⟨_, h⟩ | ⟨hpar, h⟩
    · obtain rfl := Option.some.inj h
      exact asked_same hi rfl
    obtain ⟨k, hk, h⟩ := map_some h
    split at h
    · subst h; exact asked_same hi rfl
    · subst h; exact asked_same hi rfl
    · subst h
      refine ⟨rfl, fun _ => ⟨rfl, rfl, by simpa using hpar, ?_, rfl, rfl, rfl⟩, fun hr => absurd hi.ripas hr⟩
      have : aligned256 (w.rc.regs 1) = true := by simpa using ha
      unfold aligned256 at this
      have h1 := congrArg BitVec.toNat (by simpa using this : w.rc.regs 1 &&& 0xff = 0)
      rwa [and_low_toNat _ _ 8 rfl] at h1
  · obtain rfl := Option.some.inj h
    exact asked_same hi rfl

/-! ## Exits -/

theorem handleExit_inv {env : Env} {w w' : World} {e : Exc} {hw : Hw} (hi : Idle w.rc) (h0 : w.rc.lastEsr = 0)
    (hok : HwOk e hw) (h : handleExit env w e hw = some (w', false)) : Inv w'.rc := by
  have h0' : ec w.rc.lastEsr = 0 := by rw [h0]; decide
  have same : ∀ x, Inv ({ w with ex := x } : World).rc := fun x =>
    inv_of_idle hi (fun hc => by rw [h0'] at hc; exact absurd hc (by decide))
      (fun hc => by rw [h0'] at hc; exact absurd hc (by decide))
  cases e with
  | irq =>
    obtain rfl := (Prod.mk.inj (Option.some.inj h)).1
    exact same _
  | fiq =>
    obtain rfl := (Prod.mk.inj (Option.some.inj h)).1
    exact same _
  | other =>
    obtain rfl := (Prod.mk.inj (Option.some.inj h)).1
    exact same w.ex
  | serror =>
    obtain ⟨w1, h1, h2⟩ := map_some h
    obtain rfl := (Prod.mk.inj h2).1
    have hc := hok rfl
    have hi1 : Idle w1.rc := by
      unfold serrorExit at h1
      dsimp only at h1
      rcases ite_or h1 with ⟨_, h1⟩ | ⟨_, h1⟩
      · simp at h1
      rcases ite_or h1 with ⟨_, h1⟩ | ⟨_, h1⟩
      · simp at h1
      rcases ite_or h1 with ⟨_, h1⟩ | ⟨_, h1⟩
      · obtain rfl := Option.some.inj h1
        exact ⟨hi.bits, hi.call, hi.ripas, hi.runnable, hi.pending⟩
      rcases ite_or h1 with ⟨_, h1⟩ | ⟨_, h1⟩
      · obtain rfl := Option.some.inj h1
        exact hi
      · simp at h1
    refine inv_of_idle ⟨hi1.bits, hi1.call, hi1.ripas, hi1.runnable, hi1.pending⟩ ?_ ?_
    · intro hd; dsimp only at hd; rw [hc] at hd; exact absurd hd (by decide)
    · intro hd; dsimp only at hd; rw [hc] at hd; exact absurd hd (by decide)
  | sync =>
    obtain ⟨⟨w1, b⟩, h1, h2⟩ := map_some h
    cases b
    case true => simp at h2
    obtain rfl := (Prod.mk.inj h2).1
    dsimp only
    have hec := recordSync_ec w1 hw
    have hwr := recordSync_wr w1 hw
    have hisv := recordSync_isv w1 hw
    -- if nothing is pending, only data aborts and register traps matter
    have plain : Idle w1.rc → ec hw.esr ≠ EC_DABT → ec hw.esr ≠ EC_SYSREG → Inv (recordSync w1 hw).rc := by
      intro hid hd hs
      refine inv_of_idle ⟨hid.bits, hid.call, hid.ripas, hid.runnable, hid.pending⟩ ?_ ?_
      · intro hx; rw [hec] at hx; exact absurd hx hd
      · intro hx; rw [hec] at hx; exact absurd hx hs
    unfold syncExit at h1
    rcases ite_or h1 with ⟨hc, h1⟩ | ⟨_, h1⟩
    · obtain rfl := (Prod.mk.inj (Option.some.inj h1)).1
      exact plain ⟨hi.bits, hi.call, hi.ripas, hi.runnable, hi.pending⟩ (by rw [hc]; decide) (by rw [hc]; decide)
    rcases ite_or h1 with ⟨hc, h1⟩ | ⟨_, h1⟩
    · obtain ⟨_, _, h3⟩ := map_some h1; simp at h3
    rcases ite_or h1 with ⟨hc, h1⟩ | ⟨_, h1⟩
    · obtain ⟨p, hp, h1⟩ := bind_some h1
      have hask := rsiSwitch_asked (w := { w with ex := { w.ex with reason := EXIT_SYNC } }) hi hp
      have hbits : 32 ≤ p.1.rc.ipaBits ∧ p.1.rc.ipaBits ≤ 52 := by rw [hask.bits]; exact hi.bits
      unfold rsiFinish at h1
      dsimp only at h1
      obtain ⟨w2, h3, h4⟩ := map_some h1
      obtain rfl := (Prod.mk.inj h4).1
      have hrc : ∃ pc, w2.rc = { p.1.rc with
          regs := if p.2.act.upd then fun i => if i < 5 then p.2.x i else p.1.rc.regs i else p.1.rc.regs, pc := pc } := by
        rcases ite_or h3 with ⟨_, h3⟩ | ⟨_, h3⟩
        · unfold emulateS2Abort at h3
          rcases ite_or h3 with ⟨_, h3⟩ | ⟨_, h3⟩
          · obtain rfl := Option.some.inj h3
            exact ⟨_, rfl⟩
          · simp at h3
        · obtain rfl := Option.some.inj h3
          exact ⟨_, rfl⟩
      obtain ⟨pc, hrc⟩ := hrc
      have hr2 : ∃ le lf lh, (recordSync w2 hw).rc = { w2.rc with lastEsr := le, lastFar := lf, lastHpfar := lh } :=
        ⟨_, _, _, rfl⟩
      obtain ⟨le, lf, lh, hr2⟩ := hr2
      have hes : ec (recordSync w2 hw).rc.lastEsr = EC_SMC := hec.trans hc
      generalize hg : (recordSync w2 hw).rc = rr at *
      subst hr2
      rw [hrc] at *
      clear hg hrc h3 h4 h1 h2 hwr hisv plain hec
      constructor
      · exact hbits
      · intro hcall
        obtain ⟨a, b, c, d, e, f, g⟩ := hask.call hcall
        refine ⟨hes, ?_, ?_, ?_, ?_, ?_⟩
        · dsimp only
          rw [a]
          simp only [Bool.false_eq_true, if_false]
          rw [b]
          unfold inPar parSize ipaSize at c ⊢
          dsimp only
          rw [hask.bits]
          exact c
        · dsimp only
          rw [a]
          simp only [Bool.false_eq_true, if_false]
          rw [b]
          exact d
        · show p.1.rc.ripas.base = p.1.rc.ripas.top
          rw [e]; exact hi.ripas
        · exact f.trans hi.runnable
        · exact g.trans hi.pending
      · intro hr
        obtain ⟨a, b, c, d⟩ := hask.ripas hr
        exact ⟨hes, c.trans hi.runnable, d.trans hi.pending, b.trans hi.call, ⟨a.base, a.top, a.lt, a.par, a.val, a.addr⟩⟩
      · intro hx; rw [hes] at hx; exact absurd hx (by decide)
      · intro hx; rw [hes] at hx; exact absurd hx (by decide)
    rcases ite_or h1 with ⟨hc, h1⟩ | ⟨hns, h1⟩
    · obtain ⟨⟨w2, b⟩, h3, h4⟩ := map_some h1
      obtain ⟨rfl, hb⟩ := Prod.mk.inj h4
      simp only at hb
      subst hb
      obtain ⟨hr, hwrite⟩ := sysregTrap_false h3
      refine inv_of_idle ?_ ?_ ?_
      · show Idle { advancePc w2.rc with lastEsr := _, lastFar := _, lastHpfar := _ }
        rw [hr]
        exact ⟨hi.bits, hi.call, hi.ripas, hi.runnable, hi.pending⟩
      · intro hx; rw [hec, hc] at hx; exact absurd hx (by decide)
      · intro _; exact hwr.trans hwrite
    rcases ite_or h1 with ⟨hc, h1⟩ | ⟨_, h1⟩
    · have ha := instrAbort_false h1
      exact plain (idle_of_admin hi ha) (by rw [hc]; decide) (by rw [hc]; decide)
    rcases ite_or h1 with ⟨hc, h1⟩ | ⟨hnd, h1⟩
    · obtain ⟨ha, hsh⟩ := dataAbort_false h1
      have hid := idle_of_admin hi ha
      refine inv_of_idle ⟨hid.bits, hid.call, hid.ripas, hid.runnable, hid.pending⟩ ?_ ?_
      · intro _ hx
        obtain ⟨a, b, c, d⟩ := hsh (hisv hx)
        have hb := ha.ipaBits
        refine ⟨?_, ?_, ?_⟩
        · show (1 : W) <<< w1.rc.ipaBits >>> 1 ≤ _
          rw [hb]; exact a
        · show _ < (1 : W) <<< w1.rc.ipaBits
          rw [hb]; exact b
        · show w1.rc.pstate.getLsbD 4 = false
          rw [d]; exact c
      · intro hx; rw [hec, hc] at hx; exact absurd hx (by decide)
    rcases ite_or h1 with ⟨hc, h1⟩ | ⟨_, h1⟩
    · obtain ⟨_, _, h3⟩ := map_some h1; simp at h3
    · obtain rfl := (Prod.mk.inj (Option.some.inj h1)).1
      exact plain hi hnd hns

/-! ## REC_ENTER -/

theorem iter_inv {w w' : World} {e : Ev} (hi : Idle w.rc) (h0 : w.rc.lastEsr = 0) (hok : HwOk e.exc e.hw)
    (h : iter w e = some (w', false)) : Inv w'.rc := by
  unfold iter at h
  dsimp only at h
  rcases ite_or h with ⟨_, h⟩ | ⟨_, h⟩
  · obtain rfl := (Prod.mk.inj (Option.some.inj h)).1
    have h0' : ec w.rc.lastEsr = 0 := by rw [h0]; decide
    refine inv_of_idle ⟨hi.bits, hi.call, hi.ripas, hi.runnable, hi.pending⟩ ?_ ?_
    · intro hc
      exact absurd (h0'.symm.trans hc) (by decide)
    · intro hc
      exact absurd (h0'.symm.trans hc) (by decide)
  · generalize hw1 : afterRun _ e = w1 at h
    have h1 : Idle w1.rc ∧ w1.rc.lastEsr = 0 := by
      subst hw1
      exact ⟨⟨hi.bits, hi.call, hi.ripas, hi.runnable, hi.pending⟩, h0⟩
    exact handleExit_inv h1.1 h1.2 hok h

theorem idle_of_continued {w w' : World} (hi : Idle w.rc) (h : Continued w w') : Idle w'.rc :=
  ⟨by rw [h.ipaBits]; exact hi.bits, h.hostCall.trans hi.call, by rw [h.ripas]; exact hi.ripas,
   h.runnable.trans hi.runnable, h.pending.trans hi.pending⟩

theorem inv_frame {r r' : Rec} (hi : Inv r) (h : r' = { r with
    gic := r'.gic, simdLive := r'.simdLive, cntvCtl := r'.cntvCtl, cntpCtl := r'.cntpCtl
    ripas := { r.ripas with reject := r'.ripas.reject } }) : Inv r' := by
  rw [h]
  exact ⟨hi.bits, hi.call, fun hr => ⟨(hi.ripas hr).1, (hi.ripas hr).2.1, (hi.ripas hr).2.2.1, (hi.ripas hr).2.2.2.1,
    ⟨(hi.ripas hr).2.2.2.2.base, (hi.ripas hr).2.2.2.2.top, (hi.ripas hr).2.2.2.2.lt, (hi.ripas hr).2.2.2.2.par,
     (hi.ripas hr).2.2.2.2.val, (hi.ripas hr).2.2.2.2.addr⟩⟩, hi.mmio, hi.sysreg⟩

/-- Because of `Inv`, completing one request excludes the others: the state when a REC starts to run. -/
structure Started (c : Call) (w w1 : World) : Prop where
  idle : Idle w1.rc
  ex : w1.ex = Exit.zero
  gic : w1.rc.gic = Gic.copyFrom c.feat w.rc.gic c.enter.gic

theorem completeRipas_idle (r : Rec) (e : Enter) :
    (completeRipas r e).ripas.base = (completeRipas r e).ripas.top := by
  unfold completeRipas
  dsimp only
  split
  · assumption
  · rfl

theorem path_started {c : Call} {w : World} {r1 r2 r3 : Rec} {w1 : World} (hi : Inv w.rc)
    (hp : Path c w r1 r2 r3 (w1, true)) : Started c w w1 := by
  obtain ⟨hex, _, _, _, hhc, hcase⟩ := completeHostCall_true hp.call
  have hs := (completeSysreg_some hp.sysreg).1
  obtain ⟨f1, f2, f3, f4, f5, f6, f7, f8, f9, f10, f11, f12, f13⟩ := completeRipas_fields r2 c.enter
  have hm := (completeMmio_some hp.mmio).1
  have ha := (completeSea_some hp.sea).1
  have hrc : w1.rc.ipaBits = r3.ipaBits ∧ w1.rc.ripas = r3.ripas ∧ w1.rc.runnable = r3.runnable ∧
      w1.rc.pending = r3.pending ∧ w1.rc.gic = r3.gic := by
    rcases hcase with ⟨_, rfl⟩ | ⟨_, _, ⟨_, _, rfl⟩ | ⟨_, _, rfl⟩⟩ <;> exact ⟨rfl, rfl, rfl, rfl, rfl⟩
  have hb : w1.rc.ipaBits = w.rc.ipaBits := by rw [hrc.1, hs.ipaBits, f8, hm.ipaBits, ha.ipaBits]; rfl
  refine ⟨⟨by rw [hb]; exact hi.bits, hhc, ?_, ?_, ?_⟩, ?_, ?_⟩
  · rw [hrc.2.1, hs.ripas]; exact completeRipas_idle _ _
  · rw [hrc.2.2.1, hs.runnable, f5, hm.runnable, ha.runnable]; exact hp.adm.runnable
  · rw [hrc.2.2.2.1, hs.pending, f4, hm.pending, ha.pending]; exact hp.adm.pending
  · rw [hex]; rfl
  · rw [hrc.2.2.2.2, hs.gic, f9, hm.gic, ha.gic]; rfl

/-- With a pending host call no other request is completed, so the REC is unchanged. -/
theorem path_call {c : Call} {w : World} {r1 r2 r3 : Rec} {p : World × Bool} (hi : Inv w.rc)
    (hp : Path c w r1 r2 r3 p) (hc : w.rc.hostCall = true) :
    r3 = { w.rc with gic := r3.gic, ripas := { w.rc.ripas with reject := r3.ripas.reject } } := by
  obtain ⟨hsmc, _, _, hrip, _⟩ := hi.call hc
  have e1 : r1 = (withGic c w).rc := by
    rcases (completeSea_some hp.sea).2.2 with ⟨_, h⟩ | ⟨_, h, _⟩
    · exact h
    · have : ec w.rc.lastEsr = EC_DABT := h
      rw [hsmc] at this; exact absurd this (by decide)
  subst e1
  have e2 : r2 = (withGic c w).rc := by
    rcases (completeMmio_some hp.mmio).2 with ⟨_, h⟩ | ⟨_, _, h, _⟩
    · exact h
    · have : ec w.rc.lastEsr = EC_DABT := h
      rw [hsmc] at this; exact absurd this (by decide)
  subst e2
  have e3 : completeRipas (withGic c w).rc c.enter =
      { (withGic c w).rc with ripas := { w.rc.ripas with reject := c.enter.ripasReject } } := by
    unfold completeRipas
    dsimp only
    rw [if_pos (show (withGic c w).rc.ripas.base = (withGic c w).rc.ripas.top from hrip)]
    rfl
  rcases (completeSysreg_some hp.sysreg).2.2 with h | ⟨h, _⟩
  · rw [h, e3]
    rfl
  · rw [e3] at h
    have : ec w.rc.lastEsr = EC_SYSREG := h
    rw [hsmc] at this; exact absurd this (by decide)

/-- **The invariant is preserved by REC_ENTER**, for every sequence of exits. -/
theorem recEnter_inv {c : Call} {w : World} {o : Out} (hi : Inv w.rc) (hok : ∀ e ∈ c.evs, HwOk e.exc e.hw)
    (h : recEnter c w = some o) : Inv o.w.rc := by
  rcases recEnter_cases h with ⟨_, _, h1, _⟩ | ⟨_, _, _, _, h1, _⟩ | ⟨_, _, _, _, r1, h1, h2, h3⟩ |
    ⟨r1, r2, r3, ⟨w1, b⟩, hp, ⟨hb, h1⟩ | ⟨hb, h1⟩⟩
  · rw [h1]; exact hi
  · rw [h1]; exact inv_frame hi rfl
  · rw [h1]
    rcases (completeSea_some h2).2.2 with ⟨_, h4⟩ | ⟨h4, _⟩
    · rw [h4]; exact inv_frame hi rfl
    · have := completeMmio_none h3
      unfold Enter.injectSea at h4
      exact absurd (h4.symm.trans this.2.1) (by decide)
  · simp only at hb
    subst hb
    rw [h1, leave_w]
    obtain ⟨hhc, _, _, l, _, _, hab⟩ := completeHostCall_false hp.call
    have hhc' : w.rc.hostCall = true := by
      have e1 := (completeSysreg_some hp.sysreg).1.hostCall
      have e2 := (completeRipas_fields r2 c.enter).2.2.2.2.2.1
      have e3 := (completeMmio_some hp.mmio).1.hostCall
      have e4 := (completeSea_some hp.sea).1.hostCall
      have : r3.hostCall = true := hhc
      rw [e1, e2, e3, e4] at this
      exact this
    have hr := path_call hi hp hhc'
    have hw1 : w1.rc = r3 := by
      unfold emulateS2Abort at hab
      rcases ite_or hab with ⟨_, hab⟩ | ⟨_, hab⟩
      · obtain rfl := Option.some.inj hab; rfl
      · simp at hab
    rw [hw1]
    refine inv_frame hi ?_
    have h5 : r3.simdLive = w.rc.simdLive ∧ r3.cntvCtl = w.rc.cntvCtl ∧ r3.cntpCtl = w.rc.cntpCtl := by
      rw [hr]; exact ⟨rfl, rfl, rfl⟩
    rw [h5.1, h5.2.1, h5.2.2]
    exact hr
  · simp only at hb
    subst hb
    have hst := path_started hi hp
    obtain ⟨w2, hloop, rfl⟩ := runRec_some h1
    rw [leave_w]
    obtain ⟨pre, e, post, w3, hes, hcont, hiter⟩ := loop_ended hloop
    have he : e ∈ c.evs := by rw [hes]; simp
    have hid : Idle (startRun c w1).rc :=
      ⟨hst.idle.bits, hst.idle.call, hst.idle.ripas, hst.idle.runnable, hst.idle.pending⟩
    have := iter_inv (idle_of_continued hid hcont) hcont.lastEsr (hok e he) hiter
    exact inv_frame this rfl

end Verif.Run
