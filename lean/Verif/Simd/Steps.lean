import Verif.Simd.Inv

/-!
# The invariant, and what each operation does
-/

namespace Verif.Simd

/-- A REC is loaded on a CPU. -/
def Live (s : State) (c r : Nat) : Prop := (s.cpu c).mode = .run r true

structure CpuInv (P : Plat) (u : Cpu) : Prop where
  ns : NsOk P u.ns
  flag : u.flag = false
  cptr : u.hw.cptr = CPTR_INIT
  sm : P.sme = false → u.hw.sm = false
  off : (∀ r, u.mode ≠ .run r true) → u.ns.saved = false
  on : ∀ r, u.mode = .run r true → u.ns.saved = true ∧ u.hw.sm = false ∧ ∃ h0, Image P u.ns h0 ∧ Rest h0 u.hw

structure Inv (P : Plat) (s : State) : Prop where
  cpu : ∀ c, CpuInv P (s.cpu c)
  one : ∀ c c' r l l', (s.cpu c).mode = .run r l → (s.cpu c').mode = .run r l' → c = c'
  has : ∀ c r l, (s.cpu c).mode = .run r l → (s.rec_ r).isSome = true
  rc : ∀ r x, s.rec_ r = some x → RcOk P x
  idle : ∀ r x, s.rec_ r = some x → (∀ c, ¬ Live s c r) →
    x.ctx.saved = true ∧ x.cptr = CPTR_INIT ∧ ∃ h0, Image P x.ctx h0
  live : ∀ r x c, s.rec_ r = some x → Live s c r →
    x.ctx.saved = false ∧ x.cptr = enableFlags x.sve false CPTR_INIT ∧
    (x.sve = true → (s.cpu c).hw.zcr2 = x.ctx.zcr2)

theorem Same.refl (P : Plat) (c : Ctx) (h : Hw) : Same P c h h :=
  ⟨fun _ => ⟨rfl, rfl, rfl⟩, rfl, rfl, fun _ => rfl, fun _ _ => rfl, fun _ _ _ _ => .inl rfl, fun _ _ _ _ _ => .inl rfl,
    fun _ _ _ => .inl rfl⟩

/-- Registers given back to the host. -/
structure Back (P : Plat) (ns : Ctx) (h0 h : Hw) : Prop where
  same : Same P ns h0 h
  rest : Rest h0 h
  zcr2 : P.sve = true → h.zcr2 = h0.zcr2
  sm : P.sme = false → h.sm = false
  cptr : h.cptr = h0.cptr

theorem NsOk.hint {P : Plat} {c : Ctx} (h : NsOk P c) (b : Bool) : NsOk P { c with hint := b } :=
  ⟨h.ns, h.init, h.sve, h.sme, h.cptr, h.zcr2⟩

theorem updateHint_spec {P : Plat} {c : Ctx} {b : Bool} (h : NsOk P c) (hv : c.saved = false) :
    ∃ c', updateHint c b = some c' ∧ NsOk P c' ∧ c'.saved = false ∧ (P.sve = true → c'.hint = b) := by
  simp only [updateHint, h.init, need_true, Option.bind_eq_bind, Option.bind_some, hv, Bool.not_false]
  cases hs : c.sve
  · exact ⟨c, by simp, h, hv, by rw [← h.sve, hs]; simp⟩
  · exact ⟨{ c with hint := b }, by simp [hs, h.init, hv], h.hint b, hv, fun _ => rfl⟩

theorem withFpu_host {P : Plat} {h : Hw} {c : Ctx} {f : Hw → Hw} (hf : ∀ h, FpStep h (f h)) (hn : NsOk P c)
    (hv : c.saved = false) (hs : P.sme = false → h.sm = false) :
    ∃ h' c', withFpu P h false c f = some (h', false, c') ∧ NsOk P c' ∧ c'.hint = c.hint ∧ c'.saved = false ∧
      Back P c h h' := by
  obtain ⟨h', c', e, f1, f2, f3, f4, f5, f6, f7⟩ := withFpu_spec (h := h) hf hn.allows hn.init hv (by rw [hn.sme]; exact hs)
  refine ⟨h', c', e, hn.cfg f1, f1.hint, f2, f3, f5, ?_, ?_, f6⟩
  · intro q
    have := f7 (hn.sve.trans q)
    rwa [if_pos hn.ns] at this
  · intro q
    exact f4 (hn.sme.trans q)

section
variable {P : Plat} {s : State}

theorem Inv.host_saved (hi : Inv P s) {c : Nat} (hm : (s.cpu c).mode = .host) : (s.cpu c).ns.saved = false :=
  (hi.cpu c).off (by rw [hm]; simp)

theorem Inv.off_saved (hi : Inv P s) {c r : Nat} (hm : (s.cpu c).mode = .run r false) : (s.cpu c).ns.saved = false :=
  (hi.cpu c).off (by rw [hm]; simp)

theorem step_rmi (hi : Inv P s) {c : Nat} {hint fpu : Bool} {f : Hw → Hw} (hc : Can P s (.rmi c hint fpu f)) :
    ∃ h ns, step P s (.rmi c hint fpu f) = some (setCpu s c { (s.cpu c) with hw := h, flag := false, ns := ns }) ∧
      NsOk P ns ∧ ns.saved = false ∧ (P.sve = true → ns.hint = hint) ∧ Back P ns (s.cpu c).hw h := by
  obtain ⟨hm, hf⟩ := hc
  have hu := hi.cpu c
  have hv := hi.host_saved hm
  obtain ⟨n1, e1, k1, k2, k3⟩ := updateHint_spec (b := hint) hu.ns hv
  simp only [step, hu.flag, Bool.not_false, need_true, Option.bind_eq_bind, Option.bind_some, e1]
  cases hb : fpu && P.fpuAtEl2
  · refine ⟨(s.cpu c).hw, n1, ?_, k1, k2, k3, Same.refl _ _ _, Rest.refl _, fun _ => rfl, hu.sm, rfl⟩
    simp only [Bool.false_eq_true, if_false]
  · obtain ⟨h', c', e2, g1, g2, g3, g4⟩ := withFpu_host (h := (s.cpu c).hw) hf k1 k2 hu.sm
    refine ⟨h', c', ?_, g1, g3, fun q => g2.trans (k3 q), ?_⟩
    · simp only [if_true, e2, Option.bind_some, Bool.not_false, need_true]
    · obtain ⟨⟨q1, q2, q3, q4, q5, q6, q7, q8⟩, b2, b3, b4, b5⟩ := g4
      have e3 : c'.sme = n1.sme := g1.sme.trans k1.sme.symm
      have e4 : c'.sve = n1.sve := g1.sve.trans k1.sve.symm
      have e5 : str c' (s.cpu c).hw = str n1 (s.cpu c).hw := by simp only [str, e3]
      have e6 : len P c' (s.cpu c).hw = len P n1 (s.cpu c).hw := by
        unfold len
        rw [e5, e4]
        cases hsv : n1.sve
        · rfl
        · rw [g1.zcr2 (k1.sve ▸ hsv), k1.zcr2 (k1.sve ▸ hsv)]
      refine ⟨⟨?_, q2, q3, ?_, q5, ?_, ?_, ?_⟩, b2, b3, b4, b5⟩
      all_goals simp only [Kept1, e3, e4, e5, e6, g2]
      all_goals assumption

theorem step_enter (hi : Inv P s) {c r : Nat} {hint : Bool} (hc : Can P s (.enter c hint r)) :
    ∃ ns, step P s (.enter c hint r) = some (setCpu s c { (s.cpu c) with ns := ns, mode := .run r false }) ∧
      NsOk P ns ∧ ns.saved = false ∧ (P.sve = true → ns.hint = hint) := by
  have hu := hi.cpu c
  obtain ⟨n1, e1, k1, k2, k3⟩ := updateHint_spec (b := hint) hu.ns (hi.host_saved hc.1)
  refine ⟨n1, ?_, k1, k2, k3⟩
  simp only [step, hu.flag, Bool.not_false, need_true, Option.bind_eq_bind, Option.bind_some, e1]

theorem Image.smcr2 {c : Ctx} {h : Hw} (hs : c.sme = false) (i : Image P c h) (q : W) : Image P c { h with smcr2 := q } := by
  have e1 : ∀ h, str c h = false := fun h => by simp [str, hs]
  have e2 : len P c { h with smcr2 := q } = len P c h := by simp [len, e1]
  obtain ⟨i1, i2, i3, i4, i5, i6⟩ := i
  refine ⟨i1, i2, i3, i4, ?_, ?_⟩
  · rw [e2]
    intro k
    obtain ⟨a, b, d⟩ := i5 (by simpa [e1] using k)
    exact ⟨a, b, fun _ => d (.inl (e1 _))⟩
  · intro k
    exact i6 (by simpa [e1] using k)

theorem Same.smcr2 {c : Ctx} {h h' : Hw} {q : W} (hs : c.sme = false) (i : Same P c { h with smcr2 := q } h') : Same P c h h' := by
  have e1 : ∀ h, str c h = false := fun h => by simp [str, hs]
  have e2 : len P c { h with smcr2 := q } = len P c h := by simp [len, e1]
  obtain ⟨i1, i2, i3, i4, i5, i6, i7, i8⟩ := i
  simp only [Kept1, e1, e2] at i6 i7 i8
  refine ⟨i1, i2, i3, i4, i5, ?_, ?_, ?_⟩
  all_goals simp only [Kept1, e1]
  all_goals first | assumption | skip
  · intro k; exact i8 (k.elim (fun a => nomatch a.1) .inr)

/-- A trap either changes nothing or loads the REC. -/
theorem step_trap (hi : Inv P s) {c : Nat} {e : Ec} (hc : Can P s (.trap c e)) {h0 : Hw}
    (him : ∀ r x, (s.cpu c).mode = .run r false → s.rec_ r = some x → Image P x.ctx h0) :
    step P s (.trap c e) = some s ∨ ∃ r x h ns, (s.cpu c).mode = .run r false ∧ s.rec_ r = some x ∧
      step P s (.trap c e) = some (setRec (setCpu s c { hw := h, flag := false, ns := ns, mode := .run r true }) r
        { x with ctx := { x.ctx with saved := false }, cptr := enableFlags x.sve false x.cptr }) ∧
      SameCfg (s.cpu c).ns ns ∧ ns.saved = true ∧ Image P ns (s.cpu c).hw ∧
      (P.sve = true → ns.nsZcr2 = (s.cpu c).hw.zcr2) ∧ Same P x.ctx h0 h ∧ h.sm = false ∧ Rest (s.cpu c).hw h ∧
      h.cptr = (s.cpu c).hw.cptr ∧ (x.sve = true → h.zcr2 = x.ctx.zcr2) := by
  obtain ⟨r, l, x, hm, hx, ht⟩ := hc
  have hu := hi.cpu c
  have hr := hi.rc r x hx
  simp only [step, hm, hx]
  by_cases k1 : e = .sve ∧ x.sve = false
  · simp [k1]
  rw [if_neg k1]
  by_cases k2 : e = .sme ∧ (x.sve = false ∨ l = true)
  · simp [k2]
  rw [if_neg k2]
  right
  cases l with
  | true =>
    exfalso
    have hL := hi.live r x c hx hm
    have q : ∀ a, fpen (enableFlags a false CPTR_INIT) = true ∧ (a = true → zen (enableFlags a false CPTR_INIT) = true) := by
      decide
    have q' := q x.sve
    rw [← hL.2.1] at q'
    cases e with
    | fpu => simp [traps, q'.1] at ht
    | sve =>
      have : x.sve = true := by
        cases hxs : x.sve
        · exact absurd ⟨rfl, hxs⟩ k1
        · rfl
      simp [traps, q'.1, q'.2 this] at ht
    | sme => exact k2 ⟨rfl, .inr rfl⟩
  | false =>
    have hnl : ∀ c', ¬ Live s c' r := by
      intro c' h
      have := hi.one c c' r _ _ hm h
      subst this
      rw [Live, hm] at h
      cases h
    obtain ⟨v1, v2, -⟩ := hi.idle r x hx hnl
    have im := (him r x hm hx).smcr2 hr.sme (s.cpu c).hw.smcr2
    obtain ⟨h', a', e1, f1, f2, f3, f4, f5, f6, f7, f8, f9⟩ := contextSwitch_spec (h := (s.cpu c).hw) hu.ns.allows hr.allows
      hu.ns.init hr.init (hi.off_saved hm) v1 (by rw [hu.ns.sme]; exact hu.sm) im (by rw [hr.sme]; simp) rfl
    refine ⟨r, x, h', a', rfl, hx, ?_, f1, f2, f3, ?_, f5.smcr2 hr.sme, f6 hr.sme, f7, f8, ?_⟩
    · simp only [hu.flag, e1, Bool.not_false, need_true, Option.bind_eq_bind, Option.bind_some]
    · intro q
      exact f4 hu.ns.ns (hu.ns.sve.trans q)
    · intro q
      have := f9 (hr.sve.trans q)
      rwa [hr.ns, if_neg (by simp)] at this

/-- An RSI call gives the registers back to whoever has them. -/
theorem step_rsi (hi : Inv P s) {c : Nat} {fpu : Bool} {f : Hw → Hw} (hc : Can P s (.rsi c fpu f)) :
    step P s (.rsi c fpu f) = some s ∨
    (∃ r h ns, (s.cpu c).mode = .run r false ∧
      step P s (.rsi c fpu f) = some (setCpu s c { (s.cpu c) with hw := h, flag := false, ns := ns }) ∧
      NsOk P ns ∧ ns.saved = false ∧ ns.hint = (s.cpu c).ns.hint ∧ Back P (s.cpu c).ns (s.cpu c).hw h) ∨
    (∃ r x h ctx, (s.cpu c).mode = .run r true ∧ s.rec_ r = some x ∧
      step P s (.rsi c fpu f) = some (setRec (setCpu s c { (s.cpu c) with hw := h, flag := false }) r { x with ctx := ctx }) ∧
      SameCfg x.ctx ctx ∧ ctx.saved = false ∧ Same P x.ctx (s.cpu c).hw h ∧ h.sm = false ∧ Rest (s.cpu c).hw h ∧
      h.cptr = (s.cpu c).hw.cptr ∧ (x.sve = true → h.zcr2 = x.ctx.zcr2)) := by
  obtain ⟨⟨r, l, hm⟩, hf⟩ := hc
  have hu := hi.cpu c
  obtain ⟨x, hx⟩ := Option.isSome_iff_exists.mp (hi.has c r l hm)
  have hr := hi.rc r x hx
  simp only [step, hm, hx]
  cases hb : fpu && P.fpuAtEl2
  · left; rfl
  · right
    simp only [if_true]
    cases l with
    | false =>
      left
      obtain ⟨h', c', e2, g1, g2, g3, g4⟩ := withFpu_host (h := (s.cpu c).hw) hf hu.ns (hi.off_saved hm) hu.sm
      refine ⟨r, h', c', rfl, ?_, g1, g3, g2, g4⟩
      simp only [hu.flag, e2, Bool.false_eq_true, if_false, Option.bind_eq_bind, Option.bind_some]
    | true =>
      right
      have hL := hi.live r x c hx hm
      have hon := hu.on r hm
      obtain ⟨h', c', e2, f1, f2, f3, f4, f5, f6, f7⟩ := withFpu_spec (h := (s.cpu c).hw) hf hr.allows hr.init hL.1
        (fun _ => hon.2.1)
      refine ⟨r, x, h', c', rfl, hx, ?_, f1, f2, f3, f4 hr.sme, f5, f6, ?_⟩
      · simp only [hu.flag, e2, if_true, Option.bind_eq_bind, Option.bind_some]
      · intro q
        have := f7 (hr.sve.trans q)
        rwa [hr.ns, if_neg (by simp)] at this

/-- Leaving gives the registers back to the host. -/
theorem step_leave (hi : Inv P s) {c : Nat} (hc : Can P s (.leave c)) {h0 : Hw}
    (him : ∀ r, (s.cpu c).mode = .run r true → Image P (s.cpu c).ns h0 ∧ Rest h0 (s.cpu c).hw) :
    (∃ r, (s.cpu c).mode = .run r false ∧ step P s (.leave c) = some (setCpu s c { (s.cpu c) with mode := .host })) ∨
    (∃ r x h ctx, (s.cpu c).mode = .run r true ∧ s.rec_ r = some x ∧
      step P s (.leave c) = some (setRec (setCpu s c 
        { hw := h, flag := false, ns := { (s.cpu c).ns with saved := false }, mode := .host }) r
        { x with ctx := ctx, cptr := disableFlags x.cptr }) ∧
      SameCfg x.ctx ctx ∧ ctx.saved = true ∧ Image P ctx (s.cpu c).hw ∧ Same P (s.cpu c).ns h0 h ∧ Rest h0 h ∧
      (P.sve = true → h.zcr2 = (s.cpu c).ns.nsZcr2) ∧ (P.sme = false → h.sm = false) ∧ h.cptr = (s.cpu c).hw.cptr) := by
  obtain ⟨r, l, hm⟩ := hc
  have hu := hi.cpu c
  obtain ⟨x, hx⟩ := Option.isSome_iff_exists.mp (hi.has c r l hm)
  have hr := hi.rc r x hx
  simp only [step, hm, hx]
  cases l with
  | false =>
    left
    refine ⟨r, rfl, ?_⟩
    simp only [hu.flag, Bool.false_eq_true, if_false, Bool.not_false, need_true, Option.bind_eq_bind, Option.bind_some]
  | true =>
    right
    have hL := hi.live r x c hx hm
    have hon := hu.on r hm
    obtain ⟨im, hre⟩ := him r hm
    obtain ⟨h', a', e1, f1, f2, f3, f4, f5, f6, f7, f8, f9⟩ := contextSwitch_spec (h := (s.cpu c).hw) hr.allows hu.ns.allows
      hr.init hu.ns.init hL.1 hon.1 (fun _ => hon.2.1) im (fun _ => hre) hre.smcr2
    refine ⟨r, x, h', a', rfl, hx, ?_, f1, f2, f3, f5, hre.trans f7, ?_, ?_, f8⟩
    · simp only [hu.flag, e1, if_true, Bool.not_false, need_true, Option.bind_eq_bind, Option.bind_some]
    · intro q
      have := f9 (hu.ns.sve.trans q)
      rwa [hu.ns.ns, if_pos rfl] at this
    · intro q
      exact f6 (hu.ns.sme.trans q)

/-- The context of a new REC. -/
theorem step_create {r len' : Nat} {sve : Bool} (hc : Can P s (.create r sve len')) :
    ∃ ctx, step P s (.create r sve len') = some (setRec s r { ctx := ctx, cptr := CPTR_INIT, sve := sve }) ∧
      RcOk P { ctx := ctx, cptr := CPTR_INIT, sve := sve } ∧ ctx.saved = true ∧
      (sve = true → ctx.zcr2 = BitVec.ofNat 64 (len' % 16)) ∧
      ctx.zm = (fun _ => 0) ∧ ctx.pm = (fun _ => 0) ∧ ctx.fm = (fun _ => 0) ∧ ctx.fpsr = 0 ∧ ctx.fpcr = 0 ∧ ctx.zcr1 = 0 := by
  obtain ⟨-, h2⟩ := hc
  cases sve with
  | false =>
    refine ⟨_, rfl, ⟨rfl, rfl, rfl, rfl, rfl, rfl, by simp⟩, rfl, by simp, rfl, rfl, rfl, rfl, rfl, rfl⟩
  | true =>
    obtain ⟨k1, k2⟩ := h2 rfl
    have : (!true || (P.sve && decide (len' ≤ P.vl 15))) = true := by simp [k1, k2]
    simp only [step, contextInit, this, zeroCtx, need_true, Bool.not_false, Bool.true_or, Option.bind_eq_bind,
      Option.bind_some, if_true, Bool.false_eq_true, if_false]
    refine ⟨_, rfl, ⟨rfl, rfl, rfl, rfl, rfl, rfl, fun _ => k1⟩, rfl, fun _ => rfl, rfl, rfl, rfl, rfl, rfl, rfl⟩

end

end Verif.Simd
