import Verif.Run.Enter

/-!
# Frame lemmas of the run loop model
-/

set_option linter.unusedSimpArgs false

namespace Verif.Run

theorem map_some {α β : Type} {o : Option α} {f : α → β} {b : β} (h : o.map f = some b) :
    ∃ a, o = some a ∧ f a = b := by
  cases o with
  | none => simp at h
  | some a => exact ⟨a, rfl, by simpa using h⟩

theorem bind_some {α β : Type} {o : Option α} {f : α → Option β} {b : β} (h : o.bind f = some b) :
    ∃ a, o = some a ∧ f a = some b := by
  cases o with
  | none => simp at h
  | some a => exact ⟨a, rfl, by simpa using h⟩

theorem ite_or {α : Type} {c : Prop} [Decidable c] {a b x : α} (h : (if c then a else b) = x) :
    (c ∧ a = x) ∨ (¬ c ∧ b = x) := by
  by_cases hc : c
  · exact .inl ⟨hc, by rwa [if_pos hc] at h⟩
  · exact .inr ⟨hc, by rwa [if_neg hc] at h⟩

/-! ## Which parts of the REC a handler can touch -/

/-- The administrative fields of a REC that only particular commands change. -/
structure SameAdmin (r r' : Rec) : Prop where
  ripas : r'.ripas = r.ripas
  lastEsr : r'.lastEsr = r.lastEsr
  lastFar : r'.lastFar = r.lastFar
  lastHpfar : r'.lastHpfar = r.lastHpfar
  pending : r'.pending = r.pending
  runnable : r'.runnable = r.runnable
  hostCall : r'.hostCall = r.hostCall
  idx : r'.idx = r.idx
  ipaBits : r'.ipaBits = r.ipaBits
  sveEn : r'.sveEn = r.sveEn
  hcr : r'.hcr = r.hcr
  commonHcr : r'.commonHcr = r.commonHcr
  gic : r'.gic = r.gic
  cntvCtl : r'.cntvCtl = r.cntvCtl
  cntpCtl : r'.cntpCtl = r.cntpCtl
  cnthctl : r'.cnthctl = r.cnthctl
  vbar : r'.vbar = r.vbar
  sctlr : r'.sctlr = r.sctlr
  sctlr2 : r'.sctlr2 = r.sctlr2
  serror : r'.serror = r.serror
  vsesr : r'.vsesr = r.vsesr

theorem SameAdmin.rfl (r : Rec) : SameAdmin r r := by constructor <;> rfl

theorem injectAbort_some {r r' : Rec} {esr far : W} (h : injectAbort r esr far = some r') :
    SameAdmin r r' ∧ r'.regs = r.regs := by
  obtain ⟨e, _, h⟩ := bind_some h
  obtain ⟨pc, _, rfl⟩ := map_some h
  exact ⟨by constructor <;> rfl, rfl⟩

theorem injectUndef_some {r r' : Rec} (h : injectUndef r = some r') : SameAdmin r r' ∧ r'.regs = r.regs := by
  obtain ⟨pc, _, rfl⟩ := map_some h
  exact ⟨by constructor <;> rfl, rfl⟩

theorem setReg_some {r r' : Rec} {i : Nat} {v : W} (h : r.setReg i v = some r') :
    i < 31 ∧ r' = { r with regs := upd r.regs i v } := by
  unfold Rec.setReg at h
  split at h
  · exact ⟨‹_›, by simpa using h.symm⟩
  · simp at h

theorem setReg_admin {r r' : Rec} {i : Nat} {v : W} (h : r.setReg i v = some r') : SameAdmin r r' := by
  obtain ⟨_, rfl⟩ := setReg_some h
  constructor <;> rfl

/-! ## Handled exits leave the exit structure alone -/

theorem externalAbort_some {w w' : World} {hw : Hw} (h : externalAbort w hw = some w') :
    SameAdmin w.rc w'.rc ∧ w'.rc.regs = w.rc.regs ∧ w'.mem = w.mem ∧
    w'.ex = { w.ex with esr := hw.esr &&& M_NONEMUL } ∧ w'.slots = w.slots ∧ w'.state = w.state ∧ w'.att = w.att := by
  unfold externalAbort at h
  split at h
  · obtain ⟨r, hr, rfl⟩ := map_some h
    have := injectAbort_some hr
    exact ⟨this.1, this.2, rfl, rfl, rfl, rfl, rfl⟩
  · split at h
    · obtain rfl := by simpa using h
      exact ⟨.rfl _, rfl, rfl, rfl, rfl, rfl, rfl⟩
    · simp at h

theorem dataAbort_true {env : Env} {w w' : World} {hw : Hw} (h : dataAbort env w hw = some (w', true)) :
    SameAdmin w.rc w'.rc ∧ w'.ex = w.ex := by
  unfold dataAbort at h
  dsimp only at h
  split at h
  · obtain ⟨_, _, h2⟩ := map_some h; simp at h2
  · obtain ⟨bad, _, h⟩ := bind_some h
    split at h
    · obtain ⟨r, hr, h⟩ := map_some h
      obtain ⟨rfl, _⟩ := by simpa using h
      exact ⟨(injectAbort_some hr).1, rfl⟩
    · split at h
      · simp at h
      · obtain ⟨_, _, h2⟩ := map_some h; simp at h2

theorem instrAbort_true {env : Env} {w w' : World} {hw : Hw} (h : instrAbort env w hw = some (w', true)) :
    SameAdmin w.rc w'.rc ∧ w'.ex = w.ex := by
  unfold instrAbort at h
  dsimp only at h
  split at h
  · obtain ⟨_, _, h2⟩ := map_some h; simp at h2
  · obtain ⟨bad, _, h⟩ := bind_some h
    split at h
    · obtain ⟨r, hr, h⟩ := map_some h
      obtain ⟨rfl, _⟩ := by simpa using h
      exact ⟨(injectAbort_some hr).1, rfl⟩
    · split at h <;> simp at h

theorem sysregTrap_true {env : Env} {w w' : World} {esr : W} (h : sysregTrap env w esr = some (w', true)) :
    SameAdmin w.rc w'.rc ∧ w'.ex = w.ex := by
  unfold sysregTrap at h
  split at h
  · simp at h
  · split at h
    · obtain ⟨w1, h1, h2⟩ := map_some h
      obtain rfl : w1 = w' := by simpa using h2
      unfold idTrap at h1
      split at h1
      · simp at h1
      · split at h1
        · obtain rfl : w = w1 := by simpa using h1
          exact ⟨.rfl _, rfl⟩
        · obtain ⟨r, hr, rfl⟩ := map_some h1
          exact ⟨setReg_admin hr, rfl⟩
    · split at h
      · obtain ⟨_, _, h2⟩ := map_some h; simp at h2
      · split at h
        · obtain ⟨_, _, h2⟩ := map_some h; simp at h2
        · split at h
          · obtain ⟨r, hr, h2⟩ := map_some h
            obtain ⟨rfl, _⟩ := by simpa using h2
            exact ⟨setReg_admin hr, rfl⟩
          · obtain ⟨rfl⟩ := by simpa using h
            exact ⟨.rfl _, rfl⟩

theorem simdTrap_some {w w' : World} {esr : W} (h : simdTrap w esr = some w') : SameAdmin w.rc w'.rc ∧ w'.ex = w.ex := by
  unfold simdTrap at h
  split at h
  · obtain ⟨r, hr, rfl⟩ := map_some h
    exact ⟨(injectUndef_some hr).1, rfl⟩
  · split at h
    · obtain ⟨r, hr, rfl⟩ := map_some h
      exact ⟨(injectUndef_some hr).1, rfl⟩
    · split at h
      · simp at h
      · obtain rfl := by simpa using h
        exact ⟨by constructor <;> rfl, rfl⟩

/-! ## SMC calls that return to the realm -/

/-- A handler that returns to the realm has left the exit structure and the administrative fields alone. -/
def Quiet (w : World) (p : World × Res) : Prop :=
  p.2.act.exit = false → p.2.act.abort = false ∧ SameAdmin w.rc p.1.rc ∧ p.1.ex = w.ex

theorem quiet_self (w : World) (r : Res) (hr : r.act.exit = false → r.act.abort = false) : Quiet w (w, r) :=
  fun h => ⟨hr h, .rfl _, rfl⟩

theorem psci_quiet (env : Env) (w : World) : Quiet w (psci env w) := by
  unfold psci psciSuspend psciOff psciOn psciAffinity psciSystemOff psciFeatures
  dsimp only
  repeat' split
  all_goals first | exact quiet_self _ _ (by simp [ret, s2fault, RETURN_TO_REALM, S2_FAULT]) | (intro h; simp [UPDATE_EXIT, EXIT_TO_HOST] at h)

theorem tokenWrite_quiet (env : Env) (w : World) : Quiet w (tokenWrite env w) := by
  unfold tokenWrite
  dsimp only
  split
  · exact quiet_self _ _ (by simp [ret, s2fault, RETURN_TO_REALM, S2_FAULT])
  · exact quiet_self _ _ (by simp [ret, s2fault, RETURN_TO_REALM, S2_FAULT])
  · split
    · exact quiet_self _ _ (by simp [ret, s2fault, RETURN_TO_REALM, S2_FAULT])
    · split
      · exact quiet_self _ _ (by simp [ret, s2fault, RETURN_TO_REALM, S2_FAULT])
      · split
        · split <;> exact fun _ => ⟨by rfl, .rfl _, rfl⟩
        · split <;> exact fun _ => ⟨by rfl, .rfl _, rfl⟩

theorem rsiSwitch_quiet {env : Env} {w : World} {f : BitVec 32} {p : World × Res} (h : rsiSwitch env w f = some p) :
    Quiet w p := by
  unfold rsiSwitch at h
  rcases ite_or h with ⟨_, h⟩ | ⟨_, h⟩
  · obtain rfl := Option.some.inj h
    exact quiet_self _ _ (by simp [ret, s2fault, RETURN_TO_REALM, S2_FAULT])
  rcases ite_or h with ⟨_, h⟩ | ⟨_, h⟩
  · obtain rfl : psci env w = p := Option.some.inj h
    exact psci_quiet _ _
  rcases ite_or h with ⟨_, h⟩ | ⟨_, h⟩
  · obtain rfl : rsiVersion w = p := Option.some.inj h
    exact quiet_self _ _ (by simp [ret, s2fault, RETURN_TO_REALM, S2_FAULT])
  rcases ite_or h with ⟨_, h⟩ | ⟨_, h⟩
  · obtain rfl : rsiFeatures w = p := Option.some.inj h
    exact quiet_self _ _ (by simp [ret, s2fault, RETURN_TO_REALM, S2_FAULT])
  rcases ite_or h with ⟨_, h⟩ | ⟨_, h⟩
  · obtain rfl : rsiTokenInit env w = p := Option.some.inj h
    unfold rsiTokenInit
    dsimp only
    repeat' split
    all_goals exact fun _ => ⟨by rfl, .rfl _, rfl⟩
  rcases ite_or h with ⟨_, h⟩ | ⟨_, h⟩
  · unfold rsiTokenContinue at h
    dsimp only at h
    split at h
    · obtain rfl := Option.some.inj h
      exact quiet_self _ _ (by simp [ret, s2fault, RETURN_TO_REALM, S2_FAULT])
    split at h
    · obtain rfl := Option.some.inj h
      exact quiet_self _ _ (by simp [ret, s2fault, RETURN_TO_REALM, S2_FAULT])
    obtain ⟨r, _, rfl⟩ := map_some h
    split
    · exact fun _ => ⟨by rfl, .rfl _, rfl⟩
    · exact fun _ => ⟨by rfl, .rfl _, rfl⟩
    · intro hx; simp [UPDATE_EXIT] at hx
    · exact fun hx => tokenWrite_quiet env { w with att := r.1 } hx
  rcases ite_or h with ⟨_, h⟩ | ⟨_, h⟩
  · obtain rfl : rsiRead env w = p := Option.some.inj h
    exact fun _ => ⟨by rfl, by constructor <;> rfl, rfl⟩
  rcases ite_or h with ⟨_, h⟩ | ⟨_, h⟩
  · obtain rfl : rsiExtend env w = p := Option.some.inj h
    exact fun _ => ⟨by rfl, .rfl _, rfl⟩
  rcases ite_or h with ⟨_, h⟩ | ⟨_, h⟩
  · obtain rfl : rsiConfig env w = p := Option.some.inj h
    unfold rsiConfig
    dsimp only
    repeat' split
    all_goals first
      | exact quiet_self _ _ (by simp [ret, s2fault, RETURN_TO_REALM, S2_FAULT])
      | exact fun _ => ⟨by rfl, .rfl _, rfl⟩
  rcases ite_or h with ⟨_, h⟩ | ⟨_, h⟩
  · obtain rfl : rsiIpaStateSet w = p := Option.some.inj h
    unfold rsiIpaStateSet
    dsimp only
    split
    · exact quiet_self _ _ (by simp [ret, s2fault, RETURN_TO_REALM, S2_FAULT])
    · intro hx; simp [UPDATE_EXIT] at hx
  rcases ite_or h with ⟨_, h⟩ | ⟨_, h⟩
  · obtain rfl : rsiIpaStateGet env w = p := Option.some.inj h
    unfold rsiIpaStateGet
    dsimp only
    repeat' split
    all_goals exact quiet_self _ _ (by simp [ret, s2fault, RETURN_TO_REALM, S2_FAULT])
  rcases ite_or h with ⟨_, h⟩ | ⟨_, h⟩
  · unfold rsiHostCall at h
    dsimp only at h
    repeat' split at h
    all_goals first
      | (obtain rfl := Option.some.inj h
         exact quiet_self _ _ (by simp [ret, s2fault, RETURN_TO_REALM, S2_FAULT]))
      | (obtain ⟨a, _, h2⟩ := map_some h
         split at h2
         · subst h2; exact quiet_self _ _ (by simp [ret, s2fault, RETURN_TO_REALM, S2_FAULT])
         · subst h2; exact quiet_self _ _ (by simp [ret, s2fault, RETURN_TO_REALM, S2_FAULT])
         · subst h2; intro hx; simp [EXIT_TO_HOST] at hx)
  · obtain rfl := Option.some.inj h
    exact quiet_self _ _ (by simp [ret, s2fault, RETURN_TO_REALM, S2_FAULT])

theorem realmRsi_true {env : Env} {w w' : World} (h : realmRsi env w = some (w', true)) :
    SameAdmin w.rc w'.rc ∧ w'.ex = w.ex := by
  obtain ⟨p, hp, h⟩ := bind_some h
  have hq := rsiSwitch_quiet hp
  unfold rsiFinish at h
  dsimp only at h
  obtain ⟨w1, h1, h2⟩ := map_some h
  obtain ⟨rfl, hx⟩ : w1 = w' ∧ p.2.act.exit = false := by simpa using h2
  obtain ⟨hab, ha, he⟩ := hq hx
  rw [hab] at h1
  split at h1
  · simp_all
  · obtain rfl := by simpa using h1
    exact ⟨by cases ha; constructor <;> assumption, he⟩

/-! ## One iteration and the loop -/

/-- What every iteration that continues has in common: the exit structure is as before except for the
reason, and the administrative fields of the REC are the same. -/
structure Continued (w w' : World) : Prop where
  ripas : w'.rc.ripas = w.rc.ripas
  lastEsr : w'.rc.lastEsr = w.rc.lastEsr
  pending : w'.rc.pending = w.rc.pending
  runnable : w'.rc.runnable = w.rc.runnable
  hostCall : w'.rc.hostCall = w.rc.hostCall
  idx : w'.rc.idx = w.rc.idx
  ipaBits : w'.rc.ipaBits = w.rc.ipaBits
  sveEn : w'.rc.sveEn = w.rc.sveEn
  hcr : w'.rc.hcr = w.rc.hcr
  commonHcr : w'.rc.commonHcr = w.rc.commonHcr
  gic : w'.rc.gic = w.rc.gic
  cntvCtl : w'.rc.cntvCtl = w.rc.cntvCtl
  cntpCtl : w'.rc.cntpCtl = w.rc.cntpCtl
  ex : ∃ r, w'.ex = { w.ex with reason := r }

theorem Continued.refl (w : World) : Continued w w := by
  constructor
  all_goals first | rfl | exact ⟨_, rfl⟩

theorem Continued.trans {a b c : World} (h : Continued a b) (h' : Continued b c) : Continued a c := by
  obtain ⟨r, hr⟩ := h.ex
  obtain ⟨r', hr'⟩ := h'.ex
  constructor
  case ex => exact ⟨r', by rw [hr', hr]⟩
  all_goals first
    | exact h'.ripas.trans h.ripas | exact h'.lastEsr.trans h.lastEsr | exact h'.pending.trans h.pending
    | exact h'.runnable.trans h.runnable | exact h'.hostCall.trans h.hostCall | exact h'.idx.trans h.idx
    | exact h'.ipaBits.trans h.ipaBits | exact h'.sveEn.trans h.sveEn | exact h'.hcr.trans h.hcr
    | exact h'.commonHcr.trans h.commonHcr | exact h'.gic.trans h.gic | exact h'.cntvCtl.trans h.cntvCtl
    | exact h'.cntpCtl.trans h.cntpCtl

theorem Continued.of_admin {w w' : World} (h : SameAdmin w.rc w'.rc) (he : ∃ r, w'.ex = { w.ex with reason := r }) :
    Continued w w' :=
  ⟨h.ripas, h.lastEsr, h.pending, h.runnable, h.hostCall, h.idx, h.ipaBits, h.sveEn, h.hcr, h.commonHcr, h.gic,
   h.cntvCtl, h.cntpCtl, he⟩

theorem syncExit_true {env : Env} {w w' : World} {hw : Hw} (h : syncExit env w hw = some (w', true)) :
    SameAdmin w.rc w'.rc ∧ w'.ex = w.ex := by
  unfold syncExit at h
  rcases ite_or h with ⟨_, h⟩ | ⟨_, h⟩
  · simp at h
  rcases ite_or h with ⟨_, h⟩ | ⟨_, h⟩
  · obtain ⟨r, hr, h⟩ := map_some h
    obtain ⟨rfl, _⟩ := Prod.mk.inj h
    exact ⟨(injectUndef_some hr).1, rfl⟩
  rcases ite_or h with ⟨_, h⟩ | ⟨_, h⟩
  · exact realmRsi_true h
  rcases ite_or h with ⟨_, h⟩ | ⟨_, h⟩
  · obtain ⟨p, hp, h⟩ := map_some h
    obtain ⟨rfl, h2⟩ := Prod.mk.inj h
    obtain ⟨w1, b⟩ := p
    simp only at h2
    subst h2
    obtain ⟨ha, he⟩ := sysregTrap_true hp
    exact ⟨by cases ha; constructor <;> assumption, he⟩
  rcases ite_or h with ⟨_, h⟩ | ⟨_, h⟩
  · exact instrAbort_true h
  rcases ite_or h with ⟨_, h⟩ | ⟨_, h⟩
  · exact dataAbort_true h
  rcases ite_or h with ⟨_, h⟩ | ⟨_, h⟩
  · obtain ⟨w1, hp, h⟩ := map_some h
    obtain ⟨rfl, _⟩ := Prod.mk.inj h
    exact simdTrap_some hp
  · simp at h

theorem handleExit_true {env : Env} {w w' : World} {x : Exc} {hw : Hw} (h : handleExit env w x hw = some (w', true)) :
    Continued w w' := by
  cases x with
  | sync =>
    obtain ⟨p, hp, h⟩ := map_some h
    obtain ⟨w1, b⟩ := p
    cases b
    · simp at h
    · obtain rfl : w1 = w' := by simpa using h
      have := syncExit_true hp
      exact .of_admin this.1 ⟨_, this.2⟩
  | irq => simp [handleExit] at h
  | fiq => simp [handleExit] at h
  | serror =>
    obtain ⟨p, hp, h⟩ := map_some h
    simp at h
  | other => simp [handleExit] at h

theorem iter_true {w w' : World} {e : Ev} (h : iter w e = some (w', true)) :
    (checkTimers w.rc e.ctlV e.ctlP).2 = false ∧ Continued w w' := by
  unfold iter at h
  dsimp only at h
  rcases ite_or h with ⟨_, h⟩ | ⟨ht, h⟩
  · simp at h
  · refine ⟨by simpa using ht, ?_⟩
    have h1 := handleExit_true h
    refine Continued.trans ?_ h1
    constructor
    all_goals first | rfl | exact ⟨_, rfl⟩

/-- A loop that has ended: some events were handled, and the next one ended it. -/
theorem loop_ended {w w' : World} : ∀ {es : List Ev}, loop es w = some (w', true) →
    ∃ pre e post w1, es = pre ++ e :: post ∧ Continued w w1 ∧ iter w1 e = some (w', false) := by
  intro es
  induction es generalizing w with
  | nil => intro h; simp [loop] at h
  | cons e es ih =>
    intro h
    rw [loop] at h
    obtain ⟨⟨w1, b⟩, hp, h⟩ := bind_some h
    cases b
    · obtain rfl : w1 = w' := by simpa using h
      exact ⟨[], e, es, w, rfl, .refl _, hp⟩
    · obtain ⟨pre, e', post, w2, rfl, hc, hi⟩ := ih (by simpa using h)
      exact ⟨e :: pre, e', post, w2, rfl, (iter_true hp).2.trans hc, hi⟩

/-! ## The path of a call that runs the REC -/

/-- The conditions checked before anything of the REC changes. -/
structure Admitted (c : Call) (w : World) : Prop where
  runOk : c.runOk = true
  find : c.find = .ok
  readOk : c.readOk = true
  state : w.state = .active
  runnable : w.rc.runnable = true
  pending : w.rc.pending = false
  gic : Gic.validate c.feat c.enter.gic = true

/-- The world after the first checks. -/
def withGic (c : Call) (w : World) : World :=
  { w with rc := { w.rc with gic := Gic.copyFrom c.feat w.rc.gic c.enter.gic }, ex := Exit.zero }

/-- The results of the steps before the loop. -/
structure Path (c : Call) (w : World) (r1 r2 r3 : Rec) (p : World × Bool) : Prop where
  adm : Admitted c w
  sea : completeSea (withGic c w).rc c.enter = some (some r1)
  mmio : completeMmio r1 c.enter = some (some r2)
  sysreg : completeSysreg (completeRipas r2 c.enter) c.enter = some r3
  call : completeHostCall c.env { withGic c w with rc := r3 } c.enter = some p

/-- Every call ends at the first failed check, at one of the two completions that can fail, at a host
call that cannot be completed, or runs the REC. -/
theorem recEnter_cases {c : Call} {w : World} {o : Out} (h : recEnter c w = some o) :
    (o.ran = false ∧ o.host = none ∧ o.w = { w with ex := Exit.zero } ∧ ¬ Admitted c w) ∨
    (o.ran = false ∧ o.host = none ∧ o.code = RMI_ERROR_REC ∧ Admitted c w ∧ o.w = withGic c w ∧
      completeSea (withGic c w).rc c.enter = some none) ∨
    (o.ran = false ∧ o.host = none ∧ o.code = RMI_ERROR_REC ∧ Admitted c w ∧ ∃ r1, o.w = { withGic c w with rc := r1 } ∧
      completeSea (withGic c w).rc c.enter = some (some r1) ∧ completeMmio r1 c.enter = some none) ∨
    (∃ r1 r2 r3 p, Path c w r1 r2 r3 p ∧
      ((p.2 = false ∧ o = leave c p.1 false) ∨ (p.2 = true ∧ runRec c p.1 = some o))) := by
  unfold recEnter at h
  dsimp only at h
  rcases ite_or h with ⟨h1, h⟩ | ⟨h1, h⟩
  · obtain rfl := Option.some.inj h
    exact .inl ⟨rfl, rfl, rfl, fun ha => by simp [ha.runOk] at h1⟩
  rcases ite_or h with ⟨h2, h⟩ | ⟨h2, h⟩
  · obtain rfl := Option.some.inj h
    exact .inl ⟨rfl, rfl, rfl, fun ha => by simp [ha.find] at h2⟩
  rcases ite_or h with ⟨h3, h⟩ | ⟨h3, h⟩
  · obtain rfl := Option.some.inj h
    exact .inl ⟨rfl, rfl, rfl, fun ha => by simp [ha.find] at h3⟩
  rcases ite_or h with ⟨h4, h⟩ | ⟨h4, h⟩
  · obtain rfl := Option.some.inj h
    exact .inl ⟨rfl, rfl, rfl, fun ha => by simp [ha.readOk] at h4⟩
  rcases ite_or h with ⟨h5, h⟩ | ⟨h5, h⟩
  · obtain rfl := Option.some.inj h
    exact .inl ⟨rfl, rfl, rfl, fun ha => by simp [ha.state] at h5⟩
  rcases ite_or h with ⟨h6, h⟩ | ⟨h6, h⟩
  · obtain rfl := Option.some.inj h
    exact .inl ⟨rfl, rfl, rfl, fun ha => by simp [ha.state] at h6⟩
  rcases ite_or h with ⟨h7, h⟩ | ⟨h7, h⟩
  · obtain rfl := Option.some.inj h
    exact .inl ⟨rfl, rfl, rfl, fun ha => by simp [ha.runnable] at h7⟩
  rcases ite_or h with ⟨h8, h⟩ | ⟨h8, h⟩
  · obtain rfl := Option.some.inj h
    exact .inl ⟨rfl, rfl, rfl, fun ha => by simp [ha.pending] at h8⟩
  rcases ite_or h with ⟨h9, h⟩ | ⟨h9, h⟩
  · obtain rfl := Option.some.inj h
    exact .inl ⟨rfl, rfl, rfl, fun ha => by simp [ha.gic] at h9⟩
  have hadm : Admitted c w := by
    refine ⟨by simpa using h1, ?_, by simpa using h4, ?_, by simpa using h7, by simpa using h8, by simpa using h9⟩
    · cases hf : c.find <;> simp_all
    · cases hf : w.state <;> simp_all
  refine .inr ?_
  unfold enterChecked at h
  dsimp only at h
  obtain ⟨sr, hsea, h⟩ := bind_some h
  cases sr with
  | none =>
    obtain rfl := Option.some.inj h
    exact .inl ⟨rfl, rfl, rfl, hadm, rfl, hsea⟩
  | some r1 =>
    obtain ⟨mr, hmmio, h⟩ := bind_some h
    cases mr with
    | none =>
      obtain rfl := Option.some.inj h
      exact .inr (.inl ⟨rfl, rfl, rfl, hadm, r1, rfl, hsea, hmmio⟩)
    | some r2 =>
      refine .inr (.inr ?_)
      unfold enterComplete at h
      obtain ⟨r3, hsys, h⟩ := bind_some h
      obtain ⟨p, hcall, h⟩ := bind_some h
      refine ⟨r1, r2, r3, p, ⟨hadm, hsea, hmmio, hsys, hcall⟩, ?_⟩
      rcases ite_or h with ⟨hp, h⟩ | ⟨hp, h⟩
      · exact .inr ⟨hp, h⟩
      · exact .inl ⟨by simpa using hp, (Option.some.inj h).symm⟩

theorem leave_ran (c : Call) (w : World) (b : Bool) : (leave c w b).ran = b := by
  unfold leave
  split <;> rfl

theorem leave_w (c : Call) (w : World) (b : Bool) : (leave c w b).w = w := by
  unfold leave
  split <;> rfl

theorem leave_host {c : Call} {w : World} {b : Bool} {x : Exit} (h : (leave c w b).host = some x) : x = w.ex := by
  unfold leave at h
  split at h
  · exact (Option.some.inj h).symm
  · simp at h

/-- The world at the start of the loop. -/
def startRun (c : Call) (w : World) : World :=
  { w with rc := { w.rc with lastEsr := 0, hcr := entryHcr w.rc c.enter } }

theorem runRec_some {c : Call} {w : World} {o : Out} (h : runRec c w = some o) :
    ∃ w', loop c.evs (startRun c w) = some (w', true) ∧ o = leave c (finish c.feat w' c.fin) true := by
  unfold runRec at h
  dsimp only at h
  obtain ⟨⟨w', b⟩, h1, h2⟩ := bind_some h
  cases b
  · simp at h2
  · exact ⟨w', h1, by simpa using h2.symm⟩

theorem runRec_ran {c : Call} {w : World} {o : Out} (h : runRec c w = some o) : o.ran = true := by
  obtain ⟨_, _, rfl⟩ := runRec_some h
  exact leave_ran _ _ _

theorem recEnter_ran {c : Call} {w : World} {o : Out} (h : recEnter c w = some o) (hran : o.ran = true) :
    ∃ r1 r2 r3 p, Path c w r1 r2 r3 p ∧ p.2 = true ∧ runRec c p.1 = some o := by
  rcases recEnter_cases h with ⟨h1, _⟩ | ⟨h1, _⟩ | ⟨h1, _⟩ | ⟨r1, r2, r3, p, hp, ⟨_, h1⟩ | ⟨h1, h2⟩⟩
  · simp [h1] at hran
  · simp [h1] at hran
  · simp [h1] at hran
  · rw [h1, leave_ran] at hran; simp at hran
  · exact ⟨r1, r2, r3, p, hp, h1, h2⟩

/-! ## The steps before the loop -/

theorem completeSea_some {r r' : Rec} {e : Enter} (h : completeSea r e = some (some r')) :
    SameAdmin r r' ∧ r'.regs = r.regs ∧
    ((e.injectSea = false ∧ r' = r) ∨
     (e.injectSea = true ∧ ec r.lastEsr = EC_DABT ∧ inPar r (fipaOf r.lastHpfar) = false ∧
      injectAbort r r.lastEsr r.lastFar = some r')) := by
  unfold completeSea at h
  rcases ite_or h with ⟨h1, h⟩ | ⟨h1, h⟩
  · obtain rfl := Option.some.inj (Option.some.inj h)
    exact ⟨.rfl _, rfl, .inl ⟨h1, rfl⟩⟩
  rcases ite_or h with ⟨h2, h⟩ | ⟨h2, h⟩
  · simp at h
  rcases ite_or h with ⟨h3, h⟩ | ⟨h3, h⟩
  · simp at h
  · obtain ⟨a, ha, h⟩ := map_some h
    obtain rfl := Option.some.inj h
    have := injectAbort_some ha
    exact ⟨this.1, this.2, .inr ⟨by simpa using h1, by simpa using h2, by simpa using h3, ha⟩⟩

theorem completeMmio_some {r r' : Rec} {e : Enter} (h : completeMmio r e = some (some r')) :
    SameAdmin r r' ∧
    (((e.emulMmio = false ∨ e.injectSea = true) ∧ r' = r) ∨
     (e.emulMmio = true ∧ e.injectSea = false ∧ ec r.lastEsr = EC_DABT ∧ isv r.lastEsr = true ∧
      ((wnr r.lastEsr = false ∧ srt r.lastEsr < 31 ∧
        r' = { r with regs := upd r.regs (srt r.lastEsr) (mmioValue r.lastEsr (e.gprs 0)), pc := r.pc + 4 }) ∨
       ((wnr r.lastEsr = true ∨ srt r.lastEsr = 31) ∧ r' = { r with pc := r.pc + 4 })))) := by
  unfold completeMmio at h
  rcases ite_or h with ⟨h1, h⟩ | ⟨h1, h⟩
  · obtain rfl := Option.some.inj (Option.some.inj h)
    exact ⟨.rfl _, .inl ⟨.inl h1, rfl⟩⟩
  rcases ite_or h with ⟨h2, h⟩ | ⟨h2, h⟩
  · obtain rfl := Option.some.inj (Option.some.inj h)
    exact ⟨.rfl _, .inl ⟨.inr h2, rfl⟩⟩
  rcases ite_or h with ⟨h3, h⟩ | ⟨h3, h⟩
  · simp at h
  have h3' : ec r.lastEsr = EC_DABT ∧ isv r.lastEsr = true := by simpa using h3
  rcases ite_or h with ⟨h4, h⟩ | ⟨h4, h⟩
  · obtain ⟨a, ha, h⟩ := map_some h
    obtain rfl := Option.some.inj h
    obtain ⟨hlt, rfl⟩ := setReg_some ha
    exact ⟨by constructor <;> rfl, .inr ⟨by simpa using h1, by simpa using h2, h3'.1, h3'.2, .inl ⟨h4.1, hlt, rfl⟩⟩⟩
  · obtain rfl := Option.some.inj (Option.some.inj h)
    refine ⟨by constructor <;> rfl, .inr ⟨by simpa using h1, by simpa using h2, h3'.1, h3'.2, .inr ⟨?_, rfl⟩⟩⟩
    by_cases hw : wnr r.lastEsr = true
    · exact .inl hw
    · right
      by_contra hc
      exact h4 ⟨by simpa using hw, hc⟩

theorem completeSysreg_some {r r' : Rec} {e : Enter} (h : completeSysreg r e = some r') :
    SameAdmin r r' ∧ r'.pc = r.pc ∧
    (r' = r ∨ (ec r.lastEsr = EC_SYSREG ∧ r' = { r with regs := upd r.regs (srRt r.lastEsr) (e.gprs 0) })) := by
  unfold completeSysreg at h
  rcases ite_or h with ⟨h1, h⟩ | ⟨h1, h⟩
  · obtain rfl := Option.some.inj h
    exact ⟨.rfl _, rfl, .inl rfl⟩
  rcases ite_or h with ⟨h2, h⟩ | ⟨h2, h⟩
  · obtain rfl := Option.some.inj h
    exact ⟨.rfl _, rfl, .inl rfl⟩
  rcases ite_or h with ⟨h3, h⟩ | ⟨h3, h⟩
  · obtain ⟨_, rfl⟩ := setReg_some h
    exact ⟨by constructor <;> rfl, rfl, .inr ⟨by simpa using h1, rfl⟩⟩
  · obtain rfl := Option.some.inj h
    exact ⟨.rfl _, rfl, .inl rfl⟩

/-- A host call that is complete, or that was not pending. -/
theorem completeHostCall_true {env : Env} {w w' : World} {e : Enter}
    (h : completeHostCall env w e = some (w', true)) :
    w'.ex = w.ex ∧ w'.state = w.state ∧ w'.slots = w.slots ∧ w'.att = w.att ∧ w'.rc.hostCall = false ∧
    ((w.rc.hostCall = false ∧ w' = w) ∨
     (w.rc.hostCall = true ∧ inPar w.rc (w.rc.regs 1) = true ∧
      ((∃ l, env.walk (w.rc.regs 1 &&& ~~~0xfff) = .miss .empty l ∧
          w' = { w with rc := { w.rc with hostCall := false } }) ∨
       (∃ pa, env.walk (w.rc.regs 1 &&& ~~~0xfff) = .ram pa ∧
          w' = { hostCallIn w e (hostCallPa w.rc pa) with
                 rc := { (hostCallIn w e (hostCallPa w.rc pa)).rc with hostCall := false } })))) := by
  unfold completeHostCall at h
  rcases ite_or h with ⟨h1, h⟩ | ⟨h1, h⟩
  · obtain rfl := (Prod.mk.inj (Option.some.inj h)).1
    exact ⟨rfl, rfl, rfl, rfl, h1, .inl ⟨h1, rfl⟩⟩
  obtain ⟨k, hk, h⟩ := bind_some h
  unfold hostCallWalk at hk
  rcases ite_or hk with ⟨hp, hk⟩ | ⟨_, hk⟩
  · have hk := Option.some.inj hk
    split at h
    · obtain rfl := (Prod.mk.inj (Option.some.inj h)).1
      exact ⟨rfl, rfl, rfl, rfl, rfl, .inr ⟨by simpa using h1, hp, .inl ⟨_, hk, rfl⟩⟩⟩
    · obtain ⟨_, _, h2⟩ := map_some h
      simp at h2
    · obtain rfl := (Prod.mk.inj (Option.some.inj h)).1
      exact ⟨rfl, rfl, rfl, rfl, rfl, .inr ⟨by simpa using h1, hp, .inr ⟨_, hk, rfl⟩⟩⟩
  · simp at hk

/-- A host call that cannot be completed: the host is told the fault and nothing else changes. -/
theorem completeHostCall_false {env : Env} {w w' : World} {e : Enter}
    (h : completeHostCall env w e = some (w', false)) :
    w.rc.hostCall = true ∧ inPar w.rc (w.rc.regs 1) = true ∧
    ∃ r l, env.walk (w.rc.regs 1 &&& ~~~0xfff) = .miss r l ∧ r ≠ .empty ∧
      emulateS2Abort w (BitVec.ofInt 64 l) = some w' := by
  unfold completeHostCall at h
  rcases ite_or h with ⟨h1, h⟩ | ⟨h1, h⟩
  · simp at h
  obtain ⟨k, hk, h⟩ := bind_some h
  unfold hostCallWalk at hk
  rcases ite_or hk with ⟨hp, hk⟩ | ⟨_, hk⟩
  · have hk := Option.some.inj hk
    cases k with
    | ram pa => simp at h
    | miss r l =>
      cases r with
      | empty => simp at h
      | ram =>
        obtain ⟨a, ha, h2⟩ := map_some h
        obtain rfl := (Prod.mk.inj h2).1
        exact ⟨by simpa using h1, hp, _, _, hk, by simp, ha⟩
      | destroyed =>
        obtain ⟨a, ha, h2⟩ := map_some h
        obtain rfl := (Prod.mk.inj h2).1
        exact ⟨by simpa using h1, hp, _, _, hk, by simp, ha⟩
  · simp at hk

theorem completeRipas_fields (r : Rec) (e : Enter) :
    (completeRipas r e).lastEsr = r.lastEsr ∧ (completeRipas r e).lastFar = r.lastFar ∧
    (completeRipas r e).lastHpfar = r.lastHpfar ∧ (completeRipas r e).pending = r.pending ∧
    (completeRipas r e).runnable = r.runnable ∧ (completeRipas r e).hostCall = r.hostCall ∧
    (completeRipas r e).idx = r.idx ∧ (completeRipas r e).ipaBits = r.ipaBits ∧
    (completeRipas r e).gic = r.gic ∧ (completeRipas r e).pc = r.pc ∧
    (completeRipas r e).cntvCtl = r.cntvCtl ∧ (completeRipas r e).cntpCtl = r.cntpCtl ∧
    (completeRipas r e).sveEn = r.sveEn := by
  unfold completeRipas
  dsimp only
  split <;> exact ⟨rfl, rfl, rfl, rfl, rfl, rfl, rfl, rfl, rfl, rfl, rfl, rfl, rfl⟩

end Verif.Run
