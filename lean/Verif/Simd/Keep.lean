import Verif.Simd.Steps

/-!
# The invariant is kept, and no assertion fails
-/

namespace Verif.Simd

section
variable {P : Plat} {s : State}

@[simp] theorem setCpu_same (c : Nat) (u : Cpu) : (setCpu s c u).cpu c = u := by simp [setCpu]

theorem setCpu_other {c i : Nat} (u : Cpu) (h : i ≠ c) : (setCpu s c u).cpu i = s.cpu i := by simp [setCpu, h]

@[simp] theorem setCpu_rec (c : Nat) (u : Cpu) : (setCpu s c u).rec_ = s.rec_ := rfl

@[simp] theorem setRec_cpu (r : Nat) (x : RecS) : (setRec s r x).cpu = s.cpu := rfl

@[simp] theorem setRec_same (r : Nat) (x : RecS) : (setRec s r x).rec_ r = some x := by simp [setRec]

theorem setRec_other {r i : Nat} (x : RecS) (h : i ≠ r) : (setRec s r x).rec_ i = s.rec_ i := by simp [setRec, h]

theorem inv_cpu (hi : Inv P s) {c : Nat} {u : Cpu} (hu : CpuInv P u)
    (hl : ∀ r, u.mode = .run r true ↔ (s.cpu c).mode = .run r true)
    (hn : ∀ r l, u.mode = .run r l → (s.rec_ r).isSome = true ∧ ∀ c' l', c' ≠ c → (s.cpu c').mode ≠ .run r l')
    (hz : ∀ r x, (s.cpu c).mode = .run r true → s.rec_ r = some x → x.sve = true → u.hw.zcr2 = x.ctx.zcr2) :
    Inv P (setCpu s c u) := by
  have hL : ∀ i r, Live (setCpu s c u) i r ↔ Live s i r := by
    intro i r
    by_cases e : i = c
    · subst e; simp only [Live, setCpu_same]; exact hl r
    · simp only [Live, setCpu_other u e]
  refine ⟨?_, ?_, ?_, hi.rc, ?_, ?_⟩
  · intro i
    by_cases e : i = c
    · subst e; rw [setCpu_same]; exact hu
    · rw [setCpu_other u e]; exact hi.cpu i
  · intro i j r l l' h1 h2
    by_cases e : i = c <;> by_cases f : j = c
    · rw [e, f]
    · subst e
      rw [setCpu_same] at h1
      rw [setCpu_other u f] at h2
      exact absurd h2 ((hn r l h1).2 j l' f)
    · subst f
      rw [setCpu_same] at h2
      rw [setCpu_other u e] at h1
      exact absurd h1 ((hn r l' h2).2 i l e)
    · rw [setCpu_other u e] at h1
      rw [setCpu_other u f] at h2
      exact hi.one i j r l l' h1 h2
  · intro i r l h
    by_cases e : i = c
    · subst e; rw [setCpu_same] at h; exact (hn r l h).1
    · rw [setCpu_other u e] at h; exact hi.has i r l h
  · intro r x hx h
    exact hi.idle r x hx (fun i hh => h i ((hL i r).mpr hh))
  · intro r x i hx h
    have h' := (hL i r).mp h
    obtain ⟨a, b, d⟩ := hi.live r x i hx h'
    refine ⟨a, b, ?_⟩
    by_cases e : i = c
    · subst e; rw [setCpu_same]; exact hz r x h' hx
    · rw [setCpu_other u e]; exact d

/-- The CPU that runs a REC changes it. -/
theorem inv_rec (hi : Inv P s) {c r : Nat} {l : Bool} {u : Cpu} {x : RecS} (hm : (s.cpu c).mode = .run r l) (hu : CpuInv P u)
    (hx : RcOk P x) (hn : u.mode = .host ∨ u.mode = .run r true)
    (hon : u.mode = .run r true → x.ctx.saved = false ∧ x.cptr = enableFlags x.sve false CPTR_INIT ∧
      (x.sve = true → u.hw.zcr2 = x.ctx.zcr2))
    (hoff : u.mode = .host → x.ctx.saved = true ∧ x.cptr = CPTR_INIT ∧ ∃ h0, Image P x.ctx h0) :
    Inv P (setRec (setCpu s c u) r x) := by
  have hother : ∀ i l', i ≠ c → (s.cpu i).mode ≠ .run r l' := fun i l' h k => h (hi.one i c r l' l k hm)
  have hmode : ∀ i r' l', ((setRec (setCpu s c u) r x).cpu i).mode = .run r' l' →
      (i = c ∧ r' = r ∧ u.mode = .run r true ∧ l' = true) ∨ (i ≠ c ∧ r' ≠ r ∧ (s.cpu i).mode = .run r' l') := by
    intro i r' l' h
    by_cases e : i = c
    · subst e
      simp only [setRec_cpu, setCpu_same] at h
      rcases hn with k | k
      · rw [k] at h; cases h
      · rw [k] at h; cases h; exact .inl ⟨rfl, rfl, k, rfl⟩
    · simp only [setRec_cpu, setCpu_other u e] at h
      refine .inr ⟨e, ?_, h⟩
      intro q
      subst q
      exact hother i l' e h
  refine ⟨?_, ?_, ?_, ?_, ?_, ?_⟩
  · intro i
    by_cases e : i = c
    · subst e; simp only [setRec_cpu, setCpu_same]; exact hu
    · simp only [setRec_cpu, setCpu_other u e]; exact hi.cpu i
  · intro i j r' l1 l2 h1 h2
    rcases hmode i r' l1 h1 with ⟨a, b, -⟩ | ⟨a, b, d⟩ <;> rcases hmode j r' l2 h2 with ⟨a', b', -⟩ | ⟨a', b', d'⟩
    · rw [a, a']
    · exact absurd b b'
    · exact absurd b' b
    · exact hi.one i j r' l1 l2 d d'
  · intro i r' l' h
    rcases hmode i r' l' h with ⟨a, b, -⟩ | ⟨a, b, d⟩
    · subst b; simp
    · rw [setRec_other x b]; exact hi.has i r' l' d
  · intro r' y hy
    by_cases e : r' = r
    · subst e; rw [setRec_same] at hy; cases hy; exact hx
    · rw [setRec_other x e] at hy; exact hi.rc r' y hy
  · intro r' y hy h
    by_cases e : r' = r
    · subst e; rw [setRec_same] at hy; cases hy
      apply hoff
      rcases hn with k | k
      · exact k
      · exfalso
        apply h c
        simp only [Live, setRec_cpu, setCpu_same]
        exact k
    · rw [setRec_other x e] at hy
      refine hi.idle r' y hy (fun i hh => h i ?_)
      have : i ≠ c := by
        intro q
        subst q
        rw [Live, hm] at hh
        cases hh
        exact e rfl
      simp only [Live, setRec_cpu, setCpu_other u this]
      exact hh
  · intro r' y i hy h
    rcases hmode i r' true h with ⟨a, b, d, -⟩ | ⟨a, b, d⟩
    · subst a b
      rw [setRec_same] at hy; cases hy
      simp only [setRec_cpu, setCpu_same]
      exact hon d
    · rw [setRec_other x b] at hy
      simp only [setRec_cpu, setCpu_other u a]
      exact hi.live r' y i hy d

theorem init_inv (h : Init P s) : Inv P s := by
  have hns : ∀ c, NsOk P (s.cpu c).ns ∧ (s.cpu c).ns.saved = false := by
    intro c
    have := h.ns c
    cases h1 : P.sve <;> cases h2 : P.sme <;>
      simp [contextInit, zeroCtx, need, h1, h2] at this <;> rw [← this] <;>
      exact ⟨⟨rfl, rfl, h1.symm, h2.symm, by simp [h1, h2], by simp [h1]⟩, rfl⟩
  refine ⟨?_, ?_, ?_, ?_, ?_, ?_⟩
  · intro c
    exact ⟨(hns c).1, h.flag c, h.cptr c, fun q => h.sm q c, fun _ => (hns c).2, fun r k => by rw [h.mode c] at k; cases k⟩
  · intro c c' r l l' k; rw [h.mode c] at k; cases k
  · intro c r l k; rw [h.mode c] at k; cases k
  · intro r x k; rw [h.recs r] at k; cases k
  · intro r x k; rw [h.recs r] at k; cases k
  · intro r x c k; rw [h.recs r] at k; cases k

/-- A realm step keeps what is not the realm's. -/
theorem realm_keeps {x : RecS} (hx : x.cptr = CPTR_INIT ∨ x.cptr = enableFlags x.sve false CPTR_INIT) {u h : Hw}
    (hs : RealmStep P x.cptr u h) : Rest u h ∧ h.sm = u.sm ∧ h.zcr2 = u.zcr2 ∧ h.cptr = u.cptr := by
  have q : fpen CPTR_INIT = false ∧ ∀ a, fpen (enableFlags a false CPTR_INIT) = true ∧
      smen (enableFlags a false CPTR_INIT) = false := by decide
  rcases hx with e | e
  · rw [e, RealmStep, q.1] at hs
    simp only [Bool.false_eq_true, if_false] at hs
    subst hs
    exact ⟨Rest.refl _, rfl, rfl, rfl⟩
  · rw [e, RealmStep, (q.2 _).1, (q.2 _).2] at hs
    simp only [if_true, Bool.false_and, Bool.false_eq_true, if_false] at hs
    split at hs
    · rw [hs.rest]; exact ⟨⟨rfl, rfl, rfl⟩, rfl, rfl, rfl⟩
    · rw [hs.rest]; exact ⟨⟨rfl, rfl, rfl⟩, rfl, rfl, rfl⟩

theorem Inv.cptr_cases (hi : Inv P s) {r : Nat} {x : RecS} (hx : s.rec_ r = some x) :
    x.cptr = CPTR_INIT ∨ x.cptr = enableFlags x.sve false CPTR_INIT := by
  by_cases h : ∃ c, Live s c r
  · obtain ⟨c, hc⟩ := h
    exact .inr (hi.live r x c hx hc).2.1
  · exact .inl (hi.idle r x hx (fun c k => h ⟨c, k⟩)).2.1

theorem NsOk.saved {c : Ctx} (h : NsOk P c) (b : Bool) : NsOk P { c with saved := b } :=
  ⟨h.ns, h.init, h.sve, h.sme, h.cptr, h.zcr2⟩

/-- No operation fails an assertion or traps at EL2, and the invariant is kept. -/
theorem inv_step (hi : Inv P s) (op : Op) (hc : Can P s op) : ∃ s', step P s op = some s' ∧ Inv P s' := by
  have hrun : ∀ {c r l}, (s.cpu c).mode = .run r l → ∀ r' l', (s.cpu c).mode = .run r' l' →
      (s.rec_ r').isSome = true ∧ ∀ c' l'', c' ≠ c → (s.cpu c').mode ≠ .run r' l'' :=
    fun _ r' l' k => ⟨hi.has _ r' l' k, fun c' l'' h k' => h (hi.one _ _ _ _ _ k' k)⟩
  cases op with
  | host c h =>
    obtain ⟨hm, h1, h2⟩ := hc
    have hu := hi.cpu c
    refine ⟨_, rfl, inv_cpu hi ⟨hu.ns, hu.flag, h1.trans hu.cptr, h2, hu.off, ?_⟩ (fun r => Iff.rfl) ?_ ?_⟩
    · intro r k; rw [hm] at k; cases k
    · intro r l k; rw [hm] at k; cases k
    · intro r x k; rw [hm] at k; cases k
  | rmi c hint fpu f =>
    have hm := hc.1
    obtain ⟨h, ns, e, k1, k2, k3, k4⟩ := step_rmi hi hc
    have hu := hi.cpu c
    refine ⟨_, e, inv_cpu hi ⟨k1, rfl, k4.cptr.trans hu.cptr, k4.sm, fun _ => k2, ?_⟩ (fun r => Iff.rfl) ?_ ?_⟩
    · intro r k; rw [hm] at k; cases k
    · intro r l k; rw [hm] at k; cases k
    · intro r x k; rw [hm] at k; cases k
  | enter c hint r =>
    obtain ⟨hm, hr, ho⟩ := hc
    obtain ⟨ns, e, k1, k2, k3⟩ := step_enter hi ⟨hm, hr, ho⟩
    have hu := hi.cpu c
    refine ⟨_, e, inv_cpu hi ⟨k1, hu.flag, hu.cptr, hu.sm, fun _ => k2, ?_⟩ ?_ ?_ ?_⟩
    · intro r k; cases k
    · intro r'; rw [hm]; simp
    · intro r' l k; cases k; exact ⟨hr, fun c' l' _ => ho c' l'⟩
    · intro r x k; rw [hm] at k; cases k
  | realm c h =>
    obtain ⟨r, l, x, hm, hx, h', hs, rfl⟩ := hc
    obtain ⟨q1, q2, q3, q4⟩ := realm_keeps (hi.cptr_cases hx) hs
    have hu := hi.cpu c
    refine ⟨_, rfl, inv_cpu hi ⟨hu.ns, hu.flag, hu.cptr, fun k => q2.trans (hu.sm k), hu.off, ?_⟩ (fun _ => Iff.rfl) (hrun hm) ?_⟩
    · intro r' k
      obtain ⟨a, b, h0, d, e⟩ := hu.on r' k
      exact ⟨a, q2.trans b, h0, d, q1.za.trans e.za, q1.zaMem.trans e.zaMem, q1.smcr2.trans e.smcr2⟩
    · intro r' y k hy hv
      exact q3.trans ((hi.live r' y c hy k).2.2 hv)
  | trap c e =>
    have hc' := hc
    obtain ⟨r, l, x, hm, hx, -⟩ := hc'
    have hu := hi.cpu c
    have hex : ∃ h0, ∀ r x, (s.cpu c).mode = .run r false → s.rec_ r = some x → Image P x.ctx h0 := by
      by_cases hl : l = false
      · subst hl
        obtain ⟨-, -, h0, im⟩ := hi.idle r x hx (fun c' h => by
          have := hi.one c c' r _ _ hm h
          subst this
          rw [Live, hm] at h; cases h)
        refine ⟨h0, fun r' y k hy => ?_⟩
        rw [hm] at k; cases k
        rw [hx] at hy; cases hy
        exact im
      · refine ⟨(s.cpu c).hw, fun r' y k _ => ?_⟩
        rw [hm] at k; cases k; exact absurd rfl hl
    obtain ⟨h0, him⟩ := hex
    rcases step_trap hi hc him with e | ⟨r, x, h, ns, hm, hx, e, k1, k2, k3, k4, k5, k6, k7, k8, k9⟩
    · exact ⟨s, e, hi⟩
    have hr := hi.rc r x hx
    have hidle := hi.idle r x hx (fun c' h => by
      have := hi.one c c' r _ _ hm h
      subst this
      rw [Live, hm] at h; cases h)
    refine ⟨_, e, inv_rec hi hm ⟨hu.ns.cfg k1, rfl, k8.trans hu.cptr, fun _ => k6, ?_, fun _ _ => ⟨k2, k6, _, k3, k7⟩⟩
      ⟨hr.ns, hr.init, hr.sve, hr.sme, hr.hint, hr.cptr, hr.plat⟩ (.inr rfl) ?_ ?_⟩
    · intro k; exact absurd rfl (k r)
    · intro _
      refine ⟨rfl, ?_, k9⟩
      rw [hidle.2.1]
    · intro k; cases k
  | rsi c fpu f =>
    have hu := hi.cpu c
    rcases step_rsi hi hc with e | ⟨r, h, ns, hm, e, k1, k2, k3, k4⟩ | ⟨r, x, h, ctx, hm, hx, e, k1, k2, k3, k4, k5, k6, k7⟩
    · exact ⟨s, e, hi⟩
    · refine ⟨_, e, inv_cpu hi ⟨k1, rfl, k4.cptr.trans hu.cptr, k4.sm, fun _ => k2, ?_⟩ (fun r => Iff.rfl) (hrun hm) ?_⟩
      · intro r k; rw [hm] at k; cases k
      · intro r x k; rw [hm] at k; cases k
    · have hr := hi.rc r x hx
      have hL := hi.live r x c hx hm
      obtain ⟨a, b, h0, d, e'⟩ := hu.on r hm
      refine ⟨_, e, inv_rec hi hm ⟨hu.ns, rfl, k6.trans hu.cptr, fun _ => k4, hu.off, fun _ _ => ⟨a, k4, h0, d, e'.trans k5⟩⟩
        (hr.cfg k1 rfl) (.inr hm) ?_ ?_⟩
      · intro _; exact ⟨k2, hL.2.1, fun q => (k7 q).trans k1.zcr2.symm⟩
      · intro k
        have k : (s.cpu c).mode = .host := k
        rw [hm] at k; cases k
  | leave c =>
    obtain ⟨r, l, hm⟩ := hc
    have hu := hi.cpu c
    have hex : ∃ h0, ∀ r, (s.cpu c).mode = .run r true → Image P (s.cpu c).ns h0 ∧ Rest h0 (s.cpu c).hw := by
      cases l with
      | false => exact ⟨(s.cpu c).hw, fun r' k => by rw [hm] at k; cases k⟩
      | true =>
        obtain ⟨a, b, h0, d, e⟩ := hu.on r hm
        exact ⟨h0, fun _ _ => ⟨d, e⟩⟩
    obtain ⟨h0, him⟩ := hex
    rcases step_leave hi ⟨r, l, hm⟩ him with ⟨r, hm, e⟩ | ⟨r, x, h, ctx, hm, hx, e, k1, k2, k3, k4, k5, k6, k7, k8⟩
    · refine ⟨_, e, inv_cpu hi ⟨hu.ns, hu.flag, hu.cptr, hu.sm, fun _ => hi.off_saved hm, ?_⟩ ?_ ?_ ?_⟩
      · intro r k; cases k
      · intro r'; rw [hm]; simp
      · intro r' l k; cases k
      · intro r' x k; rw [hm] at k; cases k
    · have hr := hi.rc r x hx
      have hL := hi.live r x c hx hm
      refine ⟨_, e, inv_rec hi hm ⟨hu.ns.saved false, rfl, k8.trans hu.cptr, k7, fun _ => rfl, ?_⟩
        (hr.cfg k1 rfl) (.inl rfl) ?_ ?_⟩
      · intro r k; cases k
      · intro k; cases k
      · intro _
        refine ⟨k2, ?_, _, k3⟩
        show disableFlags x.cptr = _
        rw [hL.2.1]
        have : ∀ a, disableFlags (enableFlags a false CPTR_INIT) = CPTR_INIT := by decide
        exact this _
  | create r sve len' =>
    obtain ⟨ctx, e, k1, k2, k3, z1, z2, z3, z4, z5, z6⟩ := step_create hc
    have hn := hc.1
    refine ⟨_, e, ⟨hi.cpu, hi.one, ?_, ?_, ?_, ?_⟩⟩
    · intro c r' l h
      by_cases q : r' = r
      · subst q; simp
      · rw [setRec_other _ q]; exact hi.has c r' l h
    · intro r' y hy
      by_cases q : r' = r
      · subst q; rw [setRec_same] at hy; cases hy; exact k1
      · rw [setRec_other _ q] at hy; exact hi.rc r' y hy
    · intro r' y hy h
      by_cases q : r' = r
      · subst q; rw [setRec_same] at hy; cases hy
        refine ⟨k2, rfl, { z := fun _ _ => 0, p := fun _ _ => 0, ffr := fun _ => 0, fpsr := 0, fpcr := 0, zcr1 := 0, zcr2 := 0,
                           smcr2 := 0, sm := false, za := false, zaMem := 0, cptr := 0 }, ?_, z4, z5, fun _ => z6, ?_, ?_⟩
        · intro k
          have k : ctx.sme = true := k
          rw [k1.sme] at k; cases k
        · intro _; simp [z1, z2, z3]
        · intro _; simp [z1]
      · rw [setRec_other _ q] at hy; exact hi.idle r' y hy h
    · intro r' y c hy h
      by_cases q : r' = r
      · subst q
        have := hi.has c r' true h
        rw [hn] at this; cases this
      · rw [setRec_other _ q] at hy; exact hi.live r' y c hy h
  | destroy r =>
    obtain ⟨-, ho⟩ := hc
    refine ⟨_, rfl, ⟨hi.cpu, hi.one, ?_, ?_, ?_, ?_⟩⟩
    · intro c r' l h
      have : r' ≠ r := fun q => ho c l (q ▸ h)
      simp only [this, if_false]
      exact hi.has c r' l h
    · intro r' y hy
      by_cases q : r' = r
      · simp [q] at hy
      · simp only [q, if_false] at hy; exact hi.rc r' y hy
    · intro r' y hy h
      by_cases q : r' = r
      · simp [q] at hy
      · simp only [q, if_false] at hy; exact hi.idle r' y hy h
    · intro r' y c hy h
      by_cases q : r' = r
      · simp [q] at hy
      · simp only [q, if_false] at hy; exact hi.live r' y c hy h

theorem reach_inv (h : Reach P s) : Inv P s := by
  induction h with
  | init h => exact init_inv h
  | step _ hc he ih =>
    obtain ⟨s', e, hi⟩ := inv_step ih _ hc
    rw [he] at e
    cases e
    exact hi

end

end Verif.Simd
