import Verif.Rmm.PropIso

/-!
# VMIDs, realm lifecycle and REC identities (C22, C23, C24)
-/

namespace Verif.Rmm

section
variable {P : Plat} {s s' : State} {ret : Ret}
open Demo

/-! ## C22 -/

/-- C22: two different live realms have different VMIDs. -/
theorem C22_unique (hP : PlatOk P) (hr : Reach P s) {r1 r2 : Nat} (h1 : s.st r1 = .rd) (h2 : s.st r2 = .rd)
    (hne : r1 ≠ r2) : (rdOf s r1).vmid ≠ (rdOf s r2).vmid := by
  obtain ⟨ti, di, rl, h⟩ := hr.inv hP
  exact fun hv => hne (h.vmidInj r1 r2 h1 h2 hv)

/-- C22: a VMID is reserved exactly while a realm that has it lives, and it is then in range. -/
theorem C22_reserved_iff (hP : PlatOk P) (hr : Reach P s) (v : Nat) :
    s.vmid v = true ↔ ∃ r, s.st r = .rd ∧ (rdOf s r).vmid = v ∧ v < P.vmidCount := by
  obtain ⟨ti, di, rl, h⟩ := hr.inv hP
  constructor
  · intro hv
    obtain ⟨r, h1, h2⟩ := h.vmidOwner v hv
    exact ⟨r, h1, h2, by rw [← h2]; exact (h.rds r h1).vmid.1⟩
  · rintro ⟨r, h1, rfl, _⟩
    exact (h.rds r h1).vmid.2

/-- C22: a reservation changes only by a REALM_CREATE that returns success, for its own VMID which was free, and by
a REALM_DESTROY that returns success, for the VMID of the destroyed realm. -/
theorem C22_changes (hP : PlatOk P) (hr : Reach P s) {op : Op} (e : step P s op = some (s', ret)) {v : Nat}
    (hne : s'.vmid v ≠ s.vmid v) : ret.status = 0 ∧
    ((∃ r p q, op = .realmCreate r p q ∧ q.vmid = v ∧ s.vmid v = false ∧ s'.vmid v = true ∧
        s'.st r = .rd ∧ (rdOf s' r).vmid = v) ∨
     (∃ r, op = .realmDestroy r ∧ s.st r = .rd ∧ (rdOf s r).vmid = v ∧ s'.vmid v = false ∧ s'.st r = .delegated)) := by
  obtain ⟨ti, di, rl, h⟩ := hr.inv hP
  rcases step_eff hP h e with ⟨rfl, _⟩ | hh
  · exact absurd rfl hne
  have hst := hh.status
  cases op with
  | realmCreate r p q =>
    have k : RealmCreateOk P s r q s' ret := hh
    obtain ⟨ts, _, rfl⟩ := k.st
    have hv : v = q.vmid := by
      by_contra hv; exact hne (upd_ne _ _ _ hv)
    subst hv
    refine ⟨by rw [k.ret], Or.inl ⟨r, p, q, rfl, rfl, k.vmid.2, upd_same _ _ _, ?_, ?_⟩⟩
    · unfold realmCreateSt; dsimp only; rw [upd_same]
    · simp [rdOf, getRd, realmCreateSt, upd_same]
  | realmDestroy r =>
    have k : RealmDestroyOk s r s' ret := hh
    have hv : v = (rdOf s r).vmid := by
      by_contra hv; apply hne; rw [k.st]; exact upd_ne _ _ _ hv
    subst hv
    refine ⟨by rw [k.ret], Or.inr ⟨r, rfl, k.rd, rfl, ?_, ?_⟩⟩
    · rw [k.st]; exact upd_same _ _ _
    · rw [k.st]; unfold realmDestroySt; dsimp only; rw [upd_same]
  | granuleDelegate a => obtain ⟨_, _, _, _, rfl⟩ := hh; exact absurd rfl hne
  | granuleUndelegate a => obtain ⟨_, _, _, rfl⟩ := hh; exact absurd rfl hne
  | rttCreate rd rtt a lvl => obtain ⟨d, g, e, _, k⟩ := hh; rw [k.st] at hne; exact absurd rfl hne
  | rttFold rd a lvl => obtain ⟨d, g, c, e, _, k⟩ := hh; rw [k.st] at hne; exact absurd rfl hne
  | rttDestroy rd a lvl => obtain ⟨d, g, c, _, k⟩ := hh; rw [k.st] at hne; exact absurd rfl hne
  | rttMapUnprotected rd a lvl desc => obtain ⟨d, g, _, k⟩ := hh; rw [k.st] at hne; exact absurd rfl hne
  | rttUnmapUnprotected rd a lvl => obtain ⟨d, g, _, k⟩ := hh; rw [k.st] at hne; exact absurd rfl hne
  | rttReadEntry rd a lvl => rw [hh.1] at hne; exact absurd rfl hne
  | dataCreateUnknown rd data a => obtain ⟨g, rp, k, _, rfl⟩ := hh; exact absurd rfl hne
  | dataCreate rd data a src flags => obtain ⟨g, rp, p, k, _, _, hn, hs, _, hm, rfl⟩ := hh; exact absurd rfl hne
  | dataDestroy rd a => obtain ⟨g, pa, rp, k⟩ := hh; rw [k.st] at hne; exact absurd rfl hne
  | rttInitRipas rd base top => obtain ⟨d, g, m, k⟩ := hh; rw [k.st] at hne; exact absurd rfl hne
  | rttSetRipas rd q base top => obtain ⟨d, g, m, k⟩ := hh; rw [k.st] at hne; exact absurd rfl hne
  | realmActivate rd => have k : ActivateOk P s rd s' ret := hh; rw [k.st] at hne; exact absurd rfl hne
  | recCreate rd rc pA q => have k : RecCreateOk P s rd rc q s' ret := hh; rw [k.st] at hne; exact absurd rfl hne
  | recDestroy rc => have k : RecDestroyOk s rc s' ret := hh; rw [k.st] at hne; exact absurd rfl hne
  | recAuxCount rd => rw [hh.1] at hne; exact absurd rfl hne
  | psciComplete c t st => have k : PsciOk P s c t st s' ret := hh; rw [k.st] at hne; exact absurd rfl hne
  | recEnter rc run acc rej => obtain ⟨rfl, k⟩ := hh; rw [k.st] at hne; exact absurd rfl hne
  | recRun rc stop off regs pc => obtain ⟨h0, h1, _, rfl⟩ := hh; exact absurd rfl hne
  | psciRequest rc => obtain ⟨h0, h1, _, h2, rfl⟩ := hh; exact absurd rfl hne
  | rsiIpaStateSet rc base top v chg =>
    obtain ⟨h0, h1, _, h5⟩ := hh
    rcases h5 with rfl | ⟨_, _, _, _, _, rfl⟩ <;> exact absurd rfl hne
  | psciSystemOff rc => obtain ⟨h0, h1, _, rfl⟩ := hh; exact absurd rfl hne
  | rsiExtend rc i v => obtain ⟨h0, h1, _, hi, hj, rfl⟩ := hh; exact absurd rfl hne
  | realmWrite rc a p => obtain ⟨_, _, _, y, rfl, h5⟩ := hh; exact absurd rfl hne
  | auxWrite rc a p => obtain ⟨_, _, _, _, h7, rfl⟩ := hh; exact absurd rfl hne
  | hostWrite a p => obtain ⟨_, _, _, rfl⟩ := hh; exact absurd rfl hne
  | el3Move a toNs => obtain ⟨_, _, rfl⟩ := hh; exact absurd rfl hne

/-- Two live realms; a third REALM_CREATE with the VMID of the first fails and leaves it reserved. -/
example : ∃ s s' ret, Reach plat s ∧
    step plat s (.realmCreate (G 130) (G 1) (rparams (G 131) 7)) = some (s', ret) ∧
    (ret.status == 1 && s.st (G 16) == .rd && s.st (G 128) == .rd && s'.vmid 7 && s'.vmid 8) = true :=
  Demo.ex_step (all ++ mkRealm2 ++ delegates 130 2) _
    (fun s s' ret => ret.status == 1 && s.st (G 16) == .rd && s.st (G 128) == .rd && s'.vmid 7 && s'.vmid 8)
    (by decide +kernel)

/-- And with a free VMID it succeeds. -/
example : ∃ s s' ret, Reach plat s ∧
    step plat s (.realmCreate (G 130) (G 1) (rparams (G 131) 9)) = some (s', ret) ∧
    (ret.status == 0 && !s.vmid 9 && s'.vmid 9) = true :=
  Demo.ex_step (all ++ mkRealm2 ++ delegates 130 2) _
    (fun s s' ret => ret.status == 0 && !s.vmid 9 && s'.vmid 9) (by decide +kernel)

/-! ## C23 -/

/-- The order of the lifecycle states. -/
def rank : RState → Nat
  | .new => 0
  | .active => 1
  | .off => 2

/-- C23: one step of the lifecycle of a realm that lives before and after. -/
theorem C23_step (hP : PlatOk P) (hr : Reach P s) {op : Op} (e : step P s op = some (s', ret)) {r : Nat}
    (h1 : s.st r = .rd) (h2 : s'.st r = .rd) :
    (rdOf s' r).state = (rdOf s r).state ∨
    ((rdOf s r).state = .new ∧ (rdOf s' r).state = .active ∧ op = .realmActivate r ∧ ret.status = 0) ∨
    ((rdOf s r).state = .active ∧ (rdOf s' r).state = .off ∧
      ∃ q, op = .psciSystemOff q ∧ s.st q = .recd ∧ (recOf s q).rd = r ∧ s.rc q = 1) := by
  obtain ⟨ti, di, rl, h⟩ := hr.inv hP
  rcases step_eff hP h e with ⟨rfl, _⟩ | hh
  · exact Or.inl rfl
  have hst := hh.status
  rcases hh.rd_step h h2 with ⟨_, k, _⟩ | k
  · rw [k]; exact Or.inl rfl
  cases k with
  | create k _ _ => rw [h1] at k; cases k
  | data _ _ _ k _ => rw [k]; exact Or.inl rfl
  | init _ _ _ k _ => rw [k]; exact Or.inl rfl
  | activate _ k1 k _ =>
    rcases hst with h0 | ⟨_, _, _, h0⟩
    · exact Or.inr (Or.inl ⟨k1, by rw [k], rfl, h0⟩)
    · cases h0
  | recCreate _ _ k _ => rw [k]; exact Or.inl rfl
  | recDestroy _ _ _ k _ => rw [k]; exact Or.inl rfl
  | extend _ _ _ _ _ _ k _ => rw [k]; exact Or.inl rfl
  | @systemOff q _ k1 k2 k3 k _ =>
    have hn := (h.recs q k1).run k2
    rw [k3] at hn
    cases hs : (rdOf s r).state with
    | new => exact absurd hs hn
    | active => exact Or.inr (Or.inr ⟨rfl, by rw [k], q, rfl, k1, k3, k2⟩)
    | off => left; rw [k]

/-- C23: over any history in which the realm is not destroyed the lifecycle never goes back. -/
theorem C23_monotone (hP : PlatOk P) (hr : Reach P s) {r : Nat} (h1 : s.st r = .rd)
    (run : Run P (fun _ op => op ≠ .realmDestroy r) s s') :
    s'.st r = .rd ∧ rank (rdOf s r).state ≤ rank (rdOf s' r).state := by
  induction run with
  | refl => exact ⟨h1, Nat.le_refl _⟩
  | tail k1 k2 k3 ih =>
    have hr' := Run.reach hr k1
    obtain ⟨ti, di, rl, h⟩ := hr'.inv hP
    rcases step_eff hP h k3 with ⟨he, _⟩ | hh
    · rw [he]; exact ih
    have hl := hh.rd_stays h ih.1 k2
    refine ⟨hl, Nat.le_trans ih.2 ?_⟩
    rcases C23_step hP hr' k3 ih.1 hl with k | ⟨k, k', _⟩ | ⟨k, k', _⟩
    · rw [k]
    · rw [k, k']; decide
    · rw [k, k']; decide

/-- C23: REALM_ACTIVATE always completes, and succeeds exactly for a NEW realm. -/
theorem C23_activate (hP : PlatOk P) (hr : Reach P s) (r : Nat) :
    ∃ s' ret, step P s (.realmActivate r) = some (s', ret) ∧
      (ret.status = 0 ↔ s.st r = .rd ∧ (rdOf s r).state = .new) ∧
      (ret.status = 0 → (rdOf s' r).state = .active) := by
  obtain ⟨ti, di, rl, h⟩ := hr.inv hP
  show ∃ s' ret, realmActivate P s r = some (s', ret) ∧ _
  unfold realmActivate
  by_cases h1 : lk P s r .rd = true
  swap
  · rw [if_neg h1]
    refine ⟨_, _, rfl, ⟨fun hh => absurd hh (by decide), fun hh => absurd ((lk_iff ..).mpr ⟨h.trk r ?_, hh.1⟩) h1⟩,
      fun hh => absurd hh (by decide)⟩
    rw [hh.1]; decide
  rw [if_pos h1, getRd_eq h ((lk_iff ..).mp h1).2]
  dsimp only
  by_cases h2 : (rdOf s r).state = .new
  · rw [if_pos h2]
    refine ⟨_, _, rfl, ⟨fun _ => ⟨((lk_iff ..).mp h1).2, h2⟩, fun _ => rfl⟩, fun _ => ?_⟩
    simp [rdOf, getRd, upd_same]
  · rw [if_neg h2]
    exact ⟨_, _, rfl, ⟨fun hh => absurd hh (by simp [errRealm]), fun hh => absurd hh.2 h2⟩,
      fun hh => absurd hh (by simp [errRealm])⟩

/-- C23: REALM_DESTROY always completes.  It succeeds exactly when the realm has no REC and its starting-level
tables hold no reference; then the descriptor and the starting-level tables are DELEGATED and zero, and no
other granule changed. -/
theorem C23_destroy (hP : PlatOk P) (hr : Reach P s) (r : Nat) :
    ∃ s' ret, step P s (.realmDestroy r) = some (s', ret) ∧
      (ret.status = 0 ↔ s.st r = .rd ∧ (¬ ∃ q, s.st q = .recd ∧ (recOf s q).rd = r) ∧
        ∀ j < (rdOf s r).nroots, s.rc ((rdOf s r).root + 4096 * j) = 0) ∧
      (ret.status = 0 → ∀ x,
        if x = r ∨ ∃ j < (rdOf s r).nroots, x = (rdOf s r).root + 4096 * j
        then s'.st x = .delegated ∧ s'.mem x = .page 0
        else s'.st x = s.st x ∧ s'.mem x = s.mem x) := by
  obtain ⟨ti, di, rl, h⟩ := hr.inv hP
  have norec : s.st r = .rd → (s.rc r = 0 ↔ ¬ ∃ q, s.st q = .recd ∧ (recOf s q).rd = r) := by
    intro h1
    have hR := h.rds r h1
    rw [hR.rc, List.length_eq_zero_iff, List.eq_nil_iff_forall_not_mem]
    constructor
    · rintro hh ⟨q, hq⟩; exact hh q ((hR.recs q).mpr hq)
    · intro hh q hq; exact hh ⟨q, (hR.recs q).mp hq⟩
  obtain ⟨s', ret, e, hh⟩ := realmDestroy_spec h r
  refine ⟨s', ret, e, ⟨fun h0 => ?_, fun ⟨k1, k2, k3⟩ => ?_⟩, fun h0 => ?_⟩
  · rcases hh with ⟨_, hn⟩ | k
    · exact absurd h0 hn
    · exact ⟨k.rd, (norec k.rd).mp k.rc, k.roots⟩
  · have hR := h.rds r k1
    unfold realmDestroy at e
    rw [if_pos ((lk_iff ..).mpr ⟨h.trk r (by rw [k1]; decide), k1⟩), if_pos ((norec k1).mpr k2), getRd_eq h k1] at e
    dsimp only at e
    rw [if_pos, if_pos, if_pos hR.vmid.1] at e
    · cases e; rfl
    · rw [List.all_eq_true]; intro j hj; exact decide_eq_true (k3 j (List.mem_range.mp hj))
    · rw [List.all_eq_true]; intro j hj; exact decide_eq_true (hR.roots j (List.mem_range.mp hj)).1
  · rcases hh with ⟨_, hn⟩ | k
    · exact absurd h0 hn
    intro x
    rw [k.st]
    unfold realmDestroySt
    dsimp only
    by_cases hx : x = r
    · rw [if_pos (Or.inl hx), hx, upd_same, upd_same]; exact ⟨rfl, rfl⟩
    · rw [upd_ne _ _ _ hx, upd_ne _ _ _ hx]
      by_cases hin : inRange (rdOf s r).root (rdOf s r).nroots x = true
      · rw [if_pos hin, if_pos hin, if_pos (Or.inr ((inRange_iff ..).mp hin))]; exact ⟨rfl, rfl⟩
      · rw [if_neg hin, if_neg hin, if_neg]
        · exact ⟨rfl, rfl⟩
        · rintro (hc | hc)
          · exact hx hc
          · exact hin ((inRange_iff ..).mpr hc)

/-- C23: a realm that REALM_DESTROY can destroy has no data page left, and afterwards nothing refers to it. -/
theorem C23_destroy_clean (hP : PlatOk P) (hr : Reach P s) {r : Nat}
    (e : step P s (.realmDestroy r) = some (s', ret)) (h0 : ret.status = 0) :
    (∀ a rp x, view s r a ≠ some (.assigned rp x)) ∧ (∀ a, view s' r a = none) ∧
    (¬ ∃ q, s'.st q = .recd ∧ (recOf s' q).rd = r) := by
  obtain ⟨ti, di, rl, h⟩ := hr.inv hP
  have k : RealmDestroyOk s r s' ret := step_eff' hP h e rfl h0
  obtain ⟨s2, r2, e2, k1, k2⟩ := C23_destroy hP hr r
  rw [e2] at e; cases e
  have hst : s'.st r = .delegated := by
    have := k2 h0 r; rw [if_pos (Or.inl rfl)] at this; exact this.1
  obtain ⟨ti', di', rl', h'⟩ := (Reach.step hr e2).inv hP
  refine ⟨?_, ?_, ?_⟩
  · intro a rp x hv
    obtain ⟨_, _, hd, hdi⟩ := view_assigned h hv
    obtain ⟨_, _, g, d, rp', pa, hg, hti, hen, _⟩ := h.data x hd
    obtain ⟨j, hj, rfl⟩ := only_roots h k.rd k.roots g hg (by rw [hti, hdi])
    have hz := k.roots j hj
    rw [(h.tab _ hg).rc] at hz
    have := cnt_eq_zero _ _ hz (idx d (di x).2) (idx_lt d _)
    rw [hen] at this; cases this
  · intro a
    unfold view; rw [leaf_not_rd h' (by rw [hst]; decide)]
  · rintro ⟨q, h1, h2⟩
    have := (h'.recs q h1).rd
    rw [h2, hst] at this; cases this

/-- C23: a realm is created NEW, without RECs, with the measured parameters as its only measurement, and its
address space has nothing mapped: protected addresses are empty and unprotected ones unassigned. -/
theorem C23_create (hP : PlatOk P) (hr : Reach P s) {r p : Nat} {q : RealmParams}
    (e : step P s (.realmCreate r p q) = some (s', ret)) (h0 : ret.status = 0) :
    s.st r = .delegated ∧ s'.st r = .rd ∧ (rdOf s' r).state = .new ∧ (rdOf s' r).recCount = 0 ∧
    (rdOf s' r).rim = [.params q.p] ∧ (∀ i, (rdOf s' r).rem i = []) ∧
    (¬ ∃ x, s'.st x = .recd ∧ (recOf s' x).rd = r) ∧
    (∀ a < ipaOf s' r, view s' r a = some (if a < parOf s' r then .unassigned .empty else .unassignedNs)) := by
  obtain ⟨ti, di, rl, h⟩ := hr.inv hP
  have k : RealmCreateOk P s r q s' ret := step_eff' hP h e rfl h0
  obtain ⟨ti', di', rl', h'⟩ := (Reach.step hr e).inv hP
  obtain ⟨ts, hts, hs'⟩ := k.st
  have hst : s'.st r = .rd := by rw [hs']; unfold realmCreateSt; dsimp only; rw [upd_same]
  have hrd : rdOf s' r = newRd q := by
    apply rdOf_of_mem; rw [hs']; unfold realmCreateSt; dsimp only; rw [upd_same]; rfl
  have hb := (h'.rds r hst).geo.bits1
  refine ⟨k.rd.2, hst, ?_, ?_, ?_, ?_, ?_, ?_⟩
  · rw [hrd]; rfl
  · rw [hrd]; rfl
  · rw [hrd]; rfl
  · intro i; rw [hrd]; rfl
  · rintro ⟨x, h1, h2⟩
    have h3 := (h'.recs x h1).idx
    rw [h2, hrd] at h3
    exact absurd h3 (Nat.not_lt_zero _)
  · intro a ha
    rw [k.view_new h a]
    unfold ipaOf at ha
    unfold parOf
    rw [hrd] at ha ⊢
    have e1 : (newRd q).ipaBits = q.p.s2sz := rfl
    rw [e1] at ha ⊢
    rw [if_pos ha]
    split <;> rfl

/-- C23: REALM_CREATE always completes, and succeeds exactly when the parameters page can be read and holds legal
parameters, the VMID is in range and free, and the descriptor and starting-level granules are distinct DELEGATED granules. -/
theorem C23_create_iff (hP : PlatOk P) (s : State) (r p : Nat) (q : RealmParams) :
    ∃ s' ret, step P s (.realmCreate r p q) = some (s', ret) ∧
      (ret.status = 0 ↔
        (P.tracked p = true ∧ s.st p = .ns ∧ s.pas p = .ns) ∧ Features.ParamsOk P.hw q.p ∧
        (q.vmid < P.vmidCount ∧ s.vmid q.vmid = false) ∧ (P.tracked r = true ∧ s.st r = .delegated) ∧
        ∀ j < q.p.rttNumStart, P.tracked (q.rttBase + 4096 * j) = true ∧
          s.st (q.rttBase + 4096 * j) = .delegated ∧ r ≠ q.rttBase + 4096 * j) := by
  obtain ⟨s', ret, e, hh⟩ := realmCreate_spec (s := s) hP r p q
  refine ⟨s', ret, e, fun h0 => ?_, fun ⟨k1, k2, k3, k4, k5⟩ => ?_⟩
  · rcases hh with ⟨_, hn⟩ | k
    · exact absurd h0 hn
    refine ⟨?_, k.ok, k.vmid, k.rd, fun j hj => ⟨(k.roots j hj).1, (k.roots j hj).2, k.disj j hj⟩⟩
    unfold realmCreate at e
    by_cases hc : (lk P s p .ns && decide (s.pas p = .ns)) = true
    · rw [Bool.and_eq_true, lk_iff, decide_eq_true_eq] at hc
      exact ⟨hc.1.1, hc.1.2, hc.2⟩
    · rw [if_neg hc] at e; cases e; exact absurd h0 (by decide)
  · unfold realmCreate at e
    rw [if_pos (by rw [Bool.and_eq_true, lk_iff, decide_eq_true_eq]; exact ⟨⟨k1.1, k1.2.1⟩, k1.2.2⟩)] at e
    obtain ⟨b, hb, hok⟩ := Features.C21_params_accepted_iff P.hw hP.hw q.p
    rw [hok.mpr k2] at hb
    rw [hb] at e
    dsimp only at e
    rw [if_pos k3] at e
    have hg := k2.geometry
    rw [← Features.lpa2Requested_eq] at hg
    obtain ⟨_, ts, hts, _⟩ := legal_geo hg (r := newRd q) rfl rfl rfl rfl
    rw [hts, if_neg, if_pos] at e
    · cases e; rfl
    · rw [Bool.and_eq_true, lk_iff, List.all_eq_true]
      refine ⟨k4, fun j hj => ?_⟩
      have := k5 j (List.mem_range.mp hj)
      exact (lk_iff ..).mpr ⟨this.1, this.2.1⟩
    · rintro ⟨c1, c2⟩
      have ha := hP.aligned r k4.1
      have h1 : 0 < q.p.rttNumStart := by
        by_contra hz
        rw [show q.p.rttNumStart = 0 by omega] at c2; omega
      have hb := hP.aligned _ (k5 0 h1).1
      have hj : (r - q.rttBase) / 4096 < q.p.rttNumStart := by omega
      have := (k5 _ hj).2.2
      apply this
      omega

/-- The lifecycle of the demo realm: NEW, ACTIVE, switched off by itself, and destroyed in the end. -/
example : ∃ s s' ret, Reach plat s ∧ step plat s (.realmActivate (G 16)) = some (s', ret) ∧
    (ret.status == 0 && ((rdOf s (G 16)).state matches .new) && ((rdOf s' (G 16)).state matches .active)) = true :=
  Demo.ex_step all _ (fun s s' ret => ret.status == 0 && ((rdOf s (G 16)).state matches .new) &&
    ((rdOf s' (G 16)).state matches .active)) (by decide +kernel)

example : ∃ s s' ret, Reach plat s ∧ step plat s (.psciSystemOff (G 32)) = some (s', ret) ∧
    (((rdOf s (G 16)).state matches .active) && ((rdOf s' (G 16)).state matches .off)) = true :=
  Demo.ex_step (all ++ enterRun (regs4 0 0 0 0)) _ (fun s s' _ => ((rdOf s (G 16)).state matches .active) &&
    ((rdOf s' (G 16)).state matches .off)) (by decide +kernel)

/-! ## C24 -/

/-- C24: a REC_CREATE that succeeds: the realm is NEW, the MPIDR is valid and the next one in sequence, and the
named granules become the REC and its auxiliary granules. -/
theorem C24_create (hP : PlatOk P) (hr : Reach P s) {rd r p : Nat} {q : RecParams}
    (e : step P s (.recCreate rd r p q) = some (s', ret)) (h0 : ret.status = 0) :
    s.st rd = .rd ∧ (rdOf s rd).state = .new ∧ Mpidr.isValid q.mpidr = true ∧
    (Mpidr.toIdx q.mpidr).toNat = (rdOf s rd).recCount ∧
    s.st r = .delegated ∧ s'.st r = .recd ∧ (recOf s' r).rd = rd ∧ (recOf s' r).idx = (rdOf s rd).recCount ∧
    (rdOf s' rd).recCount = (rdOf s rd).recCount + 1 ∧
    q.numAux64.toNat % 2 ^ 32 = (rdOf s rd).numAux ∧
    (recOf s' r).aux = (List.range (q.numAux64.toNat % 2 ^ 32)).map q.aux ∧
    (∀ x ∈ (recOf s' r).aux, s.st x = .delegated ∧ s'.st x = .recAux) ∧
    (∀ x, x ≠ r → x ∉ (recOf s' r).aux → s'.st x = s.st x) := by
  obtain ⟨ti, di, rl, h⟩ := hr.inv hP
  have k : RecCreateOk P s rd r q s' ret := step_eff' hP h e rfl h0
  obtain ⟨ti', di', rl', h'⟩ := (Reach.step hr e).inv hP
  have rr : rd ≠ r := ne_of_st k.rd k.recd.2 (by simp)
  have hs' := k.st
  have st_rec : s'.st r = .recd := by rw [hs']; exact upd_same _ _ _
  have mem_rec : s'.mem r = .recd (newRec rd (rdOf s rd).recCount q q.auxList) := by
    rw [hs']; unfold recCreateSt markAux; dsimp only; rw [upd_ne _ _ _ rr.symm, upd_same]
  have hrec : recOf s' r = newRec rd (rdOf s rd).recCount q q.auxList := recOf_of_mem mem_rec
  have haux : (recOf s' r).aux = q.auxList := by rw [hrec]; rfl
  have hna : q.numAux64.toNat % 2 ^ 32 = q.numAux := (BitVec.toNat_setWidth 32 q.numAux64).symm
  refine ⟨k.rd, k.new, k.mpidr.1, k.mpidr.2, k.recd.2, st_rec, ?_, ?_, ?_, hna.trans k.num, ?_, ?_, ?_⟩
  · rw [hrec]; rfl
  · rw [hrec]; rfl
  · rw [hs']; simp [rdOf, getRd, recCreateSt, upd_same]
  · rw [haux, hna]; rfl
  · rw [haux]
    intro x hx
    refine ⟨(k.aux x hx).2, ?_⟩
    rw [hs']; unfold recCreateSt markAux; dsimp only
    have hne : x ≠ r := by rintro rfl; exact k.recNot hx
    rw [upd_ne _ _ _ hne, if_pos hx]
  · rw [haux]
    intro x hx hn
    rw [hs']; unfold recCreateSt markAux; dsimp only
    rw [upd_ne _ _ _ hx, if_neg hn]

/-- C24: two different RECs of a realm have different indices, hence different MPIDRs: whatever valid MPIDR values
stand for the two indices, they differ. -/
theorem C24_unique (hP : PlatOk P) (hr : Reach P s) {x y : Nat} (hx : s.st x = .recd) (hy : s.st y = .recd)
    (hrd : (recOf s x).rd = (recOf s y).rd) (hne : x ≠ y) :
    (recOf s x).idx ≠ (recOf s y).idx ∧
    ∀ m n, (Mpidr.toIdx m).toNat = (recOf s x).idx → (Mpidr.toIdx n).toNat = (recOf s y).idx → m ≠ n := by
  obtain ⟨ti, di, rl, h⟩ := hr.inv hP
  have h1 : (recOf s x).idx ≠ (recOf s y).idx := fun hi => hne (h.recIdx x y hx hy hrd hi)
  refine ⟨h1, fun m n hm hn he => h1 ?_⟩
  rw [← hm, ← hn, he]

/-- C24: indices are below the number of RECs ever created for the realm. -/
theorem C24_index_lt (hP : PlatOk P) (hr : Reach P s) {x : Nat} (hx : s.st x = .recd) :
    s.st (recOf s x).rd = .rd ∧ (recOf s x).idx < (rdOf s (recOf s x).rd).recCount := by
  obtain ⟨ti, di, rl, h⟩ := hr.inv hP
  exact ⟨(h.recs x hx).rd, (h.recs x hx).idx⟩

/-- C24: the reference count of a realm descriptor is the number of the realm's RECs. -/
theorem C24_refcount (hP : PlatOk P) (hr : Reach P s) {r : Nat} (h1 : s.st r = .rd) :
    ∃ l : List Nat, l.Nodup ∧ (∀ x, x ∈ l ↔ s.st x = .recd ∧ (recOf s x).rd = r) ∧ s.rc r = l.length := by
  obtain ⟨ti, di, rl, h⟩ := hr.inv hP
  have hR := h.rds r h1
  exact ⟨rl r, hR.nodup, hR.recs, hR.rc⟩

/-- C24: each REC owns exactly the advertised number of distinct auxiliary granules, no auxiliary granule
belongs to two RECs, and every one belongs to some REC. -/
theorem C24_aux (hP : PlatOk P) (hr : Reach P s) :
    (∀ x, s.st x = .recd → (recOf s x).aux.Nodup ∧ (recOf s x).aux.length = (rdOf s (recOf s x).rd).numAux ∧
      ∀ y ∈ (recOf s x).aux, s.st y = .recAux) ∧
    (∀ x x' y, s.st x = .recd → s.st x' = .recd → y ∈ (recOf s x).aux → y ∈ (recOf s x').aux → x = x') ∧
    (∀ y, s.st y = .recAux → ∃ x, s.st x = .recd ∧ y ∈ (recOf s x).aux) := by
  obtain ⟨ti, di, rl, h⟩ := hr.inv hP
  refine ⟨fun x hx => ?_, fun x x' y hx hx' => h.auxDisj x x' y hx hx', h.auxOwner⟩
  have hX := h.recs x hx
  exact ⟨hX.auxNodup, by rw [hX.auxLen, (h.rds _ hX.rd).aux], hX.auxSt⟩

/-- C24: what REC_AUX_COUNT advertises is the number REC_CREATE requires. -/
theorem C24_aux_count (hP : PlatOk P) (hr : Reach P s) {r : Nat}
    (e : step P s (.recAuxCount r) = some (s', ret)) (h0 : ret.status = 0) :
    s.st r = .rd ∧ ret.x1 = (rdOf s r).numAux := by
  obtain ⟨ti, di, rl, h⟩ := hr.inv hP
  have k := step_eff' hP h e rfl h0
  exact ⟨k.2.1, by rw [k.2.2]⟩

/-- C24: the identity of a REC never changes while it lives: its realm, its index and its auxiliary granules. -/
theorem C24_identity_stable (hP : PlatOk P) (hr : Reach P s) {op : Op} (e : step P s op = some (s', ret)) {x : Nat}
    (hx : s.st x = .recd) (hx' : s'.st x = .recd) :
    (recOf s' x).rd = (recOf s x).rd ∧ (recOf s' x).idx = (recOf s x).idx ∧ (recOf s' x).aux = (recOf s x).aux := by
  obtain ⟨ti, di, rl, h⟩ := hr.inv hP
  rcases step_eff hP h e with ⟨rfl, _⟩ | hh
  · exact ⟨rfl, rfl, rfl⟩
  rcases hh.rec_step h hx' with ⟨_, k, _⟩ | k
  · rw [k]; exact ⟨rfl, rfl, rfl⟩
  have hc : ∀ c : Rec, (completeSetRipas c).rd = c.rd ∧ (completeSetRipas c).idx = c.idx ∧
      (completeSetRipas c).aux = c.aux := by
    intro c; unfold completeSetRipas; split <;> exact ⟨rfl, rfl, rfl⟩
  cases k with
  | create k _ _ => rw [hx] at k; cases k
  | setRipas _ _ _ k | psciCall _ _ _ _ k | psciTarget _ _ _ _ _ k | run _ _ _ k | psciReq _ _ _ _ k
  | ipaStateSet _ _ _ _ _ _ _ _ k | ipaStateSetErr _ _ _ k | systemOff _ _ _ k => rw [k]; exact ⟨rfl, rfl, rfl⟩
  | enter _ _ _ _ _ _ k => rw [k]; exact hc _

/-- C24: an index is never given out twice: the number of RECs created never decreases while the realm lives,
and a new REC gets an index that is above that of every REC created before. -/
theorem C24_count_monotone (hP : PlatOk P) (hr : Reach P s) {r : Nat} (h1 : s.st r = .rd)
    (run : Run P (fun _ op => op ≠ .realmDestroy r) s s') :
    s'.st r = .rd ∧ (rdOf s r).recCount ≤ (rdOf s' r).recCount := by
  induction run with
  | refl => exact ⟨h1, Nat.le_refl _⟩
  | tail k1 k2 k3 ih =>
    have hr' := Run.reach hr k1
    obtain ⟨ti, di, rl, h⟩ := hr'.inv hP
    rcases step_eff hP h k3 with ⟨he, _⟩ | hh
    · rw [he]; exact ih
    have hl := hh.rd_stays h ih.1 k2
    refine ⟨hl, Nat.le_trans ih.2 ?_⟩
    rcases hh.rd_step h hl with ⟨_, k, _⟩ | k
    · rw [k]
    cases k with
    | create k _ _ => rw [ih.1] at k; cases k
    | data _ _ _ k _ | init _ _ _ k _ | activate _ _ k _ | recDestroy _ _ _ k _ | systemOff _ _ _ _ k _
    | extend _ _ _ _ _ _ k _ => rw [k]
    | recCreate _ _ k _ => rw [k]; exact Nat.le_succ _

/-- Two RECs of one realm; one is destroyed and the next one gets index 2. -/
example : ∃ s s' ret, Reach plat s ∧
    step plat s (.recCreate (G 16) (G 32) (G 1) (recparams 2 (G 33))) = some (s', ret) ∧
    (ret.status == 0 && (recOf s' (G 32)).idx == 2 && (recOf s' (G 64)).idx == 1 && s'.rc (G 16) == 2) = true :=
  Demo.ex_step (all ++ [.recDestroy (G 32)]) _
    (fun _ s' ret => ret.status == 0 && (recOf s' (G 32)).idx == 2 && (recOf s' (G 64)).idx == 1 && s'.rc (G 16) == 2)
    (by decide +kernel)

/-- C24: only the low 32 bits of `num_aux` take part in REC_CREATE. -/
theorem C24_aux_count_cut {rd r p : Nat} {q : RecParams} (v : BitVec 64)
    (hv : v.toNat % 2 ^ 32 = q.numAux64.toNat % 2 ^ 32) :
    step P s (.recCreate rd r p { q with numAux64 := v }) = step P s (.recCreate rd r p q) := by
  have h : RecParams.numAux { q with numAux64 := v } = q.numAux := by
    unfold RecParams.numAux
    rw [BitVec.toNat_setWidth, BitVec.toNat_setWidth]
    exact hv
  have hl : RecParams.auxList { q with numAux64 := v } = q.auxList := by
    unfold RecParams.auxList
    rw [h]
  show recCreate P s rd r p { q with numAux64 := v } = recCreate P s rd r p q
  unfold recCreate
  rw [h, hl]
  rfl

/-- So a host that asks for 2^32 + 16 auxiliary granules gets a REC with 16: the count it passed is not the
number the realm needs, and the command still succeeds. -/
theorem C24_aux_count_wrap : ∃ s s' ret q, Reach plat s ∧
    step plat s (.recCreate (G 16) (G 32) (G 1) q) = some (s', ret) ∧ ret.status = 0 ∧
    q.numAux64.toNat ≠ (rdOf s (G 16)).numAux := by
  obtain ⟨s, s', ret, hr, e, h⟩ := Demo.ex_step (all ++ [.recDestroy (G 32)])
    (.recCreate (G 16) (G 32) (G 1) { recparams 2 (G 33) with numAux64 := 0x100000010 })
    (fun s _ ret => ret.status == 0 && (rdOf s (G 16)).numAux == 16) (by decide +kernel)
  rw [Bool.and_eq_true, beq_iff_eq, beq_iff_eq] at h
  refine ⟨s, s', ret, _, hr, e, h.1, ?_⟩
  rw [h.2]
  decide

end
end Verif.Rmm
