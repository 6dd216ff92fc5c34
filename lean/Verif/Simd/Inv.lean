import Verif.Simd.Lemmas

/-!
# Switching, and the invariant of the SIMD state
-/

namespace Verif.Simd

/-- What neither the code nor a realm changes while the context of the host is in memory. -/
structure Rest (h h' : Hw) : Prop where
  za : h'.za = h.za
  zaMem : h'.zaMem = h.zaMem
  smcr2 : h'.smcr2 = h.smcr2

theorem Rest.trans {a b c : Hw} (h : Rest a b) (k : Rest b c) : Rest a c :=
  ⟨k.za.trans h.za, k.zaMem.trans h.zaMem, k.smcr2.trans h.smcr2⟩

theorem Rest.refl (a : Hw) : Rest a a := ⟨rfl, rfl, rfl⟩

theorem Image.congr {P : Plat} {c c' : Ctx} {h h' : Hw} (i : Image P c h)
    (e : c' = { c with saved := c'.saved, cptr := c'.cptr }) (k : h' = { h with cptr := h'.cptr }) : Image P c' h' := by
  rw [e, k]
  exact ⟨i.sme, i.fpsr, i.fpcr, i.zcr1, i.full, i.q⟩

theorem switchSave_spec {P : Plat} {h : Hw} {c : Ctx} (ha : Allows P c) (hi : c.init = true)
    (hv : c.saved = false) (hs : c.sme = false → h.sm = false) :
    ∃ h' c', switchSave P h false c = some (h', true, c') ∧ SameCfg c c' ∧ c'.saved = true ∧ Image P c' h ∧
      (c.ns = true → c.sve = true → c'.nsZcr2 = h.zcr2) ∧ h'.sm = false ∧ Rest h h' := by
  have hz : (!(c.ns && c.sve) || zen c.cptr) = true := by
    cases hn : c.ns <;> cases hv : c.sve <;> simp
    exact (ha.z hv).1
  obtain ⟨c1, hc1⟩ : ∃ c1, c1 = if c.ns && c.sve then { c with nsZcr2 := h.zcr2 } else c := ⟨_, rfl⟩
  have k1 : SameCfg c c1 ∧ c1.saved = c.saved ∧ (c.ns = true → c.sve = true → c1.nsZcr2 = h.zcr2) := by
    rw [hc1]
    cases hn : c.ns <;> cases hv : c.sve <;> simp <;> exact ⟨by simp [*], by simp [*], by simp [*], rfl, rfl, rfl, rfl⟩
  have ha1 : Allows P c1 := by
    obtain ⟨a, b, d⟩ := ha
    exact ⟨by rw [k1.1.cptr]; exact a, by rw [k1.1.cptr, k1.1.sve]; exact b, by rw [k1.1.cptr, k1.1.sme]; exact d⟩
  obtain ⟨h', c', e, f1, f2, f3, f4, f5, f6, f7, f8, -⟩ :=
    saveCtx_spec (h := { h with cptr := c.cptr }) ha1 k1.1.cptr.symm (by rw [k1.1.sme]; exact hs)
  refine ⟨h', { c' with saved := true }, ?_, ?_, rfl, f4.congr rfl rfl, ?_, f5, f6, f7, f8⟩
  · have hn : (c.init && !c.saved && !false) = true := by rw [hi, hv]; rfl
    simp only [switchSave, hn, hz, need_true, Option.bind_eq_bind, Option.bind_some]
    rw [← hc1, e]
    rfl
  · have := k1.1.trans f1
    exact ⟨this.ns, this.sve, this.sme, this.init, this.hint, this.cptr, this.zcr2⟩
  · intro a b
    show c'.nsZcr2 = _
    rw [f3, k1.2.2 a b]

theorem switchRestore_spec {P : Plat} {h h0 : Hw} {c : Ctx} (ha : Allows P c) (hi : c.init = true)
    (hv : c.saved = true) (hm : h.sm = false) (im : Image P c h0) (hr : c.sme = true → Rest h0 h)
    (hq : h.smcr2 = h0.smcr2) :
    ∃ h', switchRestore P h true c = some (h', false, { c with saved := false }) ∧ Same P c h0 h' ∧
      (c.sme = false → h'.sm = false) ∧ Rest h h' ∧
      h'.zcr2 = if c.sve then (if c.ns then c.nsZcr2 else c.zcr2) else h.zcr2 := by
  obtain ⟨h1, e, f1, f2, f3, f4, f5, f6, f7⟩ :=
    restoreCtx_spec (h := { h with cptr := c.cptr }) ha rfl hm im hq (fun k => ⟨(hr k).za, (hr k).zaMem⟩)
  simp only [switchRestore, hi, hv, Bool.and_true, need_true, Option.bind_eq_bind, Option.bind_some]
  rw [e]
  simp only [Option.bind_some]
  cases hn : c.ns
  · simp only [Bool.false_eq_true, if_false]
    exact ⟨_, rfl, f1, f4, ⟨f5, f6, f3⟩, f7⟩
  · simp only [if_true, setZcr2]
    cases hs : c.sve
    · simp only [Bool.false_eq_true, if_false, Option.bind_some]
      exact ⟨_, rfl, f1, f4, ⟨f5, f6, f3⟩, by simpa [hs] using f7⟩
    · have : zen h1.cptr = true := by rw [f2]; exact (ha.z hs).1
      simp only [this, if_true, need_true, Option.bind_some, Option.bind_eq_bind]
      exact ⟨_, rfl, ⟨f1.sme, f1.fpsr, f1.fpcr, f1.zcr1, f1.z0, f1.z, f1.p, f1.ffr⟩, f4, ⟨f5, f6, f3⟩, rfl⟩

theorem enable_allows (P : Plat) (sve sme : Bool) {c : Ctx} (h : c.cptr = enableFlags sve sme CPTR_INIT)
    (h1 : c.sve = sve) (h2 : c.sme = sme) (k1 : sve = true → P.sve = true) (k2 : sme = true → P.sme = true) :
    Allows P c := by
  have q : ∀ a b, fpen (enableFlags a b CPTR_INIT) = true ∧ (a = true → zen (enableFlags a b CPTR_INIT) = true) ∧
      (b = true → smen (enableFlags a b CPTR_INIT) = true) := by decide
  have q' := q sve sme
  rw [← h] at q'
  subst h1 h2
  exact ⟨q'.1, fun k => ⟨q'.2.1 k, k1 k⟩, fun k => ⟨q'.2.2 k, k2 k⟩⟩

/-- The context of the host. -/
structure NsOk (P : Plat) (c : Ctx) : Prop where
  ns : c.ns = true
  init : c.init = true
  sve : c.sve = P.sve
  sme : c.sme = P.sme
  cptr : c.cptr = enableFlags P.sve P.sme CPTR_INIT
  zcr2 : P.sve = true → c.zcr2 = BitVec.ofNat 64 (P.vl 15 % 16)

theorem NsOk.allows {P : Plat} {c : Ctx} (h : NsOk P c) : Allows P c :=
  enable_allows P _ _ h.cptr h.sve h.sme id id

theorem NsOk.cfg {P : Plat} {c c' : Ctx} (h : NsOk P c) (k : SameCfg c c') : NsOk P c' :=
  ⟨k.ns.trans h.ns, k.init.trans h.init, k.sve.trans h.sve, k.sme.trans h.sme, k.cptr.trans h.cptr,
    fun q => k.zcr2.trans (h.zcr2 q)⟩

/-- The context of a REC. -/
structure RcOk (P : Plat) (x : RecS) : Prop where
  ns : x.ctx.ns = false
  init : x.ctx.init = true
  sve : x.ctx.sve = x.sve
  sme : x.ctx.sme = false
  hint : x.ctx.hint = false
  cptr : x.ctx.cptr = enableFlags x.sve false CPTR_INIT
  plat : x.sve = true → P.sve = true

theorem RcOk.allows {P : Plat} {x : RecS} (h : RcOk P x) : Allows P x.ctx :=
  enable_allows P _ _ h.cptr h.sve h.sme h.plat (by simp)

theorem RcOk.cfg {P : Plat} {x y : RecS} (h : RcOk P x) (k : SameCfg x.ctx y.ctx) (e : y.sve = x.sve) : RcOk P y :=
  ⟨k.ns.trans h.ns, k.init.trans h.init, by rw [k.sve, e]; exact h.sve, k.sme.trans h.sme, k.hint.trans h.hint,
    by rw [k.cptr, e]; exact h.cptr, by rw [e]; exact h.plat⟩

/-- What RMM's use of the registers leaves alone. -/
theorem fpuAllow_spec {h : Hw} {f : Hw → Hw} (hf : ∀ h, FpStep h (f h)) :
    ∃ h', fpuAllow h true f = some h' ∧ h'.sm = h.sm ∧ h'.cptr = h.cptr ∧ h'.zcr2 = h.zcr2 ∧ Rest h h' := by
  have := (hf { h with cptr := h.cptr ||| FPEN }).rest
  simp only [fpuAllow, need_true, Option.bind_eq_bind, Option.bind_some]
  refine ⟨_, rfl, ?_, rfl, ?_, ?_, ?_, ?_⟩
  all_goals rw [this]

/-- A handler that uses the registers gives them back. -/
theorem withFpu_spec {P : Plat} {h : Hw} {c : Ctx} {f : Hw → Hw} (hf : ∀ h, FpStep h (f h)) (ha : Allows P c)
    (hi : c.init = true) (hv : c.saved = false) (hs : c.sme = false → h.sm = false) :
    ∃ h' c', withFpu P h false c f = some (h', false, c') ∧ SameCfg c c' ∧ c'.saved = false ∧ Same P c h h' ∧
      (c.sme = false → h'.sm = false) ∧ Rest h h' ∧ h'.cptr = h.cptr ∧
      (c.sve = true → h'.zcr2 = if c.ns then h.zcr2 else c.zcr2) := by
  obtain ⟨h1, c1, e, f1, f2, f3, f4, f5, f6⟩ := switchSave_spec ha hi hv hs
  obtain ⟨h2, e2, g1, g2, g3, g4⟩ := fpuAllow_spec (h := { h1 with cptr := h.cptr }) hf
  have ha1 : Allows P c1 := by
    obtain ⟨a, b, d⟩ := ha
    exact ⟨by rw [f1.cptr]; exact a, by rw [f1.cptr, f1.sve]; exact b, by rw [f1.cptr, f1.sme]; exact d⟩
  have r1 : Rest h h2 := ⟨g4.za.trans f6.za, g4.zaMem.trans f6.zaMem, g4.smcr2.trans f6.smcr2⟩
  obtain ⟨h3, e3, k1, k2, k3, k4⟩ := switchRestore_spec (h := h2) ha1 (f1.init.trans hi) f2 (g1.trans f5) f3 (fun _ => r1)
    r1.smcr2
  refine ⟨{ h3 with cptr := h.cptr }, { c1 with saved := false }, ?_, ⟨f1.ns, f1.sve, f1.sme, f1.init, f1.hint, f1.cptr, f1.zcr2⟩,
    rfl, ?_, ?_, ⟨k3.za.trans r1.za, k3.zaMem.trans r1.zaMem, k3.smcr2.trans r1.smcr2⟩, rfl, ?_⟩
  · simp only [withFpu, contextSave, contextRestore, e, e2, e3, Option.bind_eq_bind, Option.bind_some, g2]
  · have e1 : str c1 h = str c h := by simp only [str, f1.sme]
    have e2 : len P c1 h = len P c h := by unfold len; rw [e1, f1.sve, f1.zcr2]
    obtain ⟨q1, q2, q3, q4, q5, q6, q7, q8⟩ := k1
    simp only [Kept1, e1, e2, f1.sme, f1.sve, f1.hint] at q1 q4 q6 q7 q8
    exact ⟨q1, q2, q3, q4, q5, q6, q7, q8⟩
  · intro q
    exact k2 (f1.sme.trans q)
  · intro q
    show h3.zcr2 = _
    rw [k4, f1.sve, q, f1.ns, f1.zcr2]
    cases hn : c.ns
    · simp
    · simp [f4 hn q]

/-- Switching from one context to another. -/
theorem contextSwitch_spec {P : Plat} {h h0 : Hw} {a b : Ctx} (ha : Allows P a) (hb : Allows P b)
    (ia : a.init = true) (ib : b.init = true) (va : a.saved = false) (vb : b.saved = true)
    (hs : a.sme = false → h.sm = false) (im : Image P b h0) (hr : b.sme = true → Rest h0 h) (hq : h.smcr2 = h0.smcr2) :
    ∃ h' a', contextSwitch P h false a b = some (h', false, a', { b with saved := false }) ∧ SameCfg a a' ∧
      a'.saved = true ∧ Image P a' h ∧ (a.ns = true → a.sve = true → a'.nsZcr2 = h.zcr2) ∧
      Same P b h0 h' ∧ (b.sme = false → h'.sm = false) ∧ Rest h h' ∧ h'.cptr = h.cptr ∧
      (b.sve = true → h'.zcr2 = if b.ns then b.nsZcr2 else b.zcr2) := by
  obtain ⟨h1, c1, e, f1, f2, f3, f4, f5, f6⟩ := switchSave_spec ha ia va hs
  obtain ⟨h2, e2, k1, k2, k3, k4⟩ := switchRestore_spec (h := h1) hb ib vb f5 im (fun q => (hr q).trans f6)
    (f6.smcr2.trans hq)
  refine ⟨{ h2 with cptr := h.cptr }, c1, ?_, f1, f2, f3, f4, ⟨k1.sme, k1.fpsr, k1.fpcr, k1.zcr1, k1.z0, k1.z, k1.p, k1.ffr⟩,
    k2, ⟨k3.za.trans f6.za, k3.zaMem.trans f6.zaMem, k3.smcr2.trans f6.smcr2⟩, rfl, ?_⟩
  · simp only [contextSwitch, e, e2, Option.bind_eq_bind, Option.bind_some]
  · intro q
    show h2.zcr2 = _
    rw [k4, q]
    simp

end Verif.Simd
