import Verif.Rmm.Foot

/-!
# How RECs and realm descriptors change in one step
-/

namespace Verif.Rmm

section
variable {P : Plat} {s s' : State} {ret : Ret} {ti : Nat → TabInfo} {di : Nat → Nat × Nat} {rl : Nat → List Nat}

/-- The possible changes of the REC in granule `x`. -/
inductive RecChange (s s' : State) (ret : Ret) (x : Nat) : Op → Prop
  | create {rd p q} : s.st x = .delegated → recOf s' x = newRec rd (rdOf s rd).recCount q q.auxList → s'.rc x = 0 →
      RecChange s s' ret x (.recCreate rd x p q)
  | setRipas {rd b t} : s.st x = .recd → s.rc x = 0 → s'.rc x = 0 →
      recOf s' x = { recOf s x with sr := { (recOf s x).sr with addr := ret.x1 } } →
      RecChange s s' ret x (.rttSetRipas rd x b t)
  | psciCall {t st} : s.st x = .recd → s.rc x = 0 → s'.rc x = 0 → (recOf s x).psciPending = true →
      recOf s' x = psciResult (recOf s x) (psciAnswer ((recOf s x).regs 0) st
        (decide (s.rc t ≠ 0) || (recOf s t).runnable)) →
      RecChange s s' ret x (.psciComplete x t st)
  | psciTarget {c st} : s.st x = .recd → s.rc x = 0 → s'.rc x = 0 → c ≠ x →
      psciTurnsOn (recOf s c) (recOf s x) st (s.rc x) = true → recOf s' x = psciTarget (recOf s c) (recOf s x) →
      RecChange s s' ret x (.psciComplete c x st)
  | enter {run rej} : s.st x = .recd → s.rc x = 0 → s'.rc x = 1 → (recOf s x).runnable = true →
      (recOf s x).psciPending = false → (rdOf s (recOf s x).rd).state = .active →
      recOf s' x = completeSetRipas { recOf s x with sr := { (recOf s x).sr with reject := rej } } →
      RecChange s s' ret x (.recEnter x run true rej)
  | run {stop off regs pc} : s.st x = .recd → s.rc x = 1 → s'.rc x = (if stop = true then 0 else 1) →
      recOf s' x = { recOf s x with
        regs := regs, pc := pc, runnable := (recOf s x).runnable && !(stop && off) } →
      RecChange s s' ret x (.recRun x stop off regs pc)
  | psciReq : s.st x = .recd → s.rc x = 1 → s'.rc x = 0 →
      (isCpuOn (low32 ((recOf s x).regs 0)) = true ∨ isAffinityInfo (low32 ((recOf s x).regs 0)) = true) →
      recOf s' x = { recOf s x with psciPending := true } → RecChange s s' ret x (.psciRequest x)
  | ipaStateSet {b t v c} : s.st x = .recd → s.rc x = 1 → s'.rc x = 0 →
      v ≠ .destroyed → b % 4096 = 0 → t % 4096 = 0 → b < t → t ≤ (rdOf s (recOf s x).rd).parSize →
      recOf s' x = { recOf s x with
        sr := { (recOf s x).sr with base := b, top := t, addr := b, ripas := v, chg := c }
        regs := fun i => if i = 0 then 0 else if i = 1 then BitVec.ofNat 64 t else (recOf s x).regs i } →
      RecChange s s' ret x (.rsiIpaStateSet x b t v c)
  | ipaStateSetErr {b t v c} : s.st x = .recd → s.rc x = 1 → s'.rc x = 1 →
      recOf s' x = { recOf s x with regs := fun i => if i = 0 then 1 else (recOf s x).regs i } →
      RecChange s s' ret x (.rsiIpaStateSet x b t v c)
  | systemOff : s.st x = .recd → s.rc x = 1 → s'.rc x = 0 → recOf s' x = recOf s x →
      RecChange s s' ret x (.psciSystemOff x)

theorem Eff.rec_step (h : InvG P s ti di rl) {op : Op} (e : Eff P s ti di s' ret op) {x : Nat}
    (hx : s'.st x = .recd) :
    (s.st x = .recd ∧ recOf s' x = recOf s x ∧ s'.rc x = s.rc x) ∨ RecChange s s' ret x op := by
  cases op with
  | granuleDelegate a =>
    obtain ⟨_, h2, _, _, rfl⟩ := e
    have hne : x ≠ a := by rintro rfl; simp [upd] at hx
    dsimp only at hx; rw [upd_ne _ _ _ hne] at hx
    exact Or.inl ⟨hx, recOf_congr (upd_ne _ _ _ hne), rfl⟩
  | granuleUndelegate a =>
    obtain ⟨_, h2, _, rfl⟩ := e
    have hne : x ≠ a := by rintro rfl; simp [upd] at hx
    dsimp only at hx; rw [upd_ne _ _ _ hne] at hx
    exact Or.inl ⟨hx, rfl, rfl⟩
  | rttCreate rd rtt a lvl =>
    obtain ⟨d, g, e, _, k⟩ := e
    rw [k.st] at hx ⊢
    have hne : x ≠ rtt := by rintro rfl; simp [rttCreateSt, upd] at hx
    have hst : s.st x = .recd := by simp only [rttCreateSt] at hx; rwa [upd_ne _ _ _ hne] at hx
    have hg := ne_of_st hst k.at_.st (by simp)
    refine Or.inl ⟨hst, recOf_congr ?_, ?_⟩ <;> simp only [rttCreateSt]
    · rw [upd_ne _ _ _ hg, upd_ne _ _ _ hne]
    · rw [upd_ne _ _ _ hg, upd_ne _ _ _ hne]
  | rttFold rd a lvl =>
    obtain ⟨d, g, c, e, _, k⟩ := e
    rw [k.st] at hx ⊢
    have hne : x ≠ c := by rintro rfl; simp [dropTableSt, upd] at hx
    have hst : s.st x = .recd := by simp only [dropTableSt] at hx; rwa [upd_ne _ _ _ hne] at hx
    have hg := ne_of_st hst k.ch.at_.st (by simp)
    refine Or.inl ⟨hst, recOf_congr ?_, ?_⟩ <;> simp only [dropTableSt]
    · rw [upd_ne _ _ _ hne, upd_ne _ _ _ hg]
    · rw [upd_ne _ _ _ hg, upd_ne _ _ _ hne]
  | rttDestroy rd a lvl =>
    obtain ⟨d, g, c, _, k⟩ := e
    rw [k.st] at hx ⊢
    have hne : x ≠ c := by rintro rfl; simp [dropTableSt, upd] at hx
    have hst : s.st x = .recd := by simp only [dropTableSt] at hx; rwa [upd_ne _ _ _ hne] at hx
    have hg := ne_of_st hst k.ch.at_.st (by simp)
    refine Or.inl ⟨hst, recOf_congr ?_, ?_⟩ <;> simp only [dropTableSt]
    · rw [upd_ne _ _ _ hne, upd_ne _ _ _ hg]
    · rw [upd_ne _ _ _ hg, upd_ne _ _ _ hne]
  | rttMapUnprotected rd a lvl desc =>
    obtain ⟨d, g, _, k⟩ := e
    rw [k.st] at hx ⊢
    exact Or.inl ⟨hx, recOf_congr (upd_ne _ _ _ (ne_of_st hx k.at_.st (by simp))), rfl⟩
  | rttUnmapUnprotected rd a lvl =>
    obtain ⟨d, g, _, k⟩ := e
    rw [k.st] at hx ⊢
    exact Or.inl ⟨hx, recOf_congr (upd_ne _ _ _ (ne_of_st hx k.at_.st (by simp))), rfl⟩
  | rttReadEntry rd a lvl => rw [e.1] at hx ⊢; exact Or.inl ⟨hx, rfl, rfl⟩
  | dataCreateUnknown rd data a =>
    obtain ⟨g, rp, k, _, rfl⟩ := e
    have hne : x ≠ data := by rintro rfl; simp [dataCreateSt, upd] at hx
    have hst : s.st x = .recd := by simp only [dataCreateSt] at hx; rwa [upd_ne _ _ _ hne] at hx
    have hg := ne_of_st hst k.at_.st (by simp)
    exact Or.inl ⟨hst, recOf_congr (upd_ne _ _ _ hg), upd_ne _ _ _ hg⟩
  | dataCreate rd data a src flags =>
    obtain ⟨g, rp, p, k, _, _, _, _, _, _, rfl⟩ := e
    have hne : x ≠ data := by rintro rfl; simp [dataCreatedSt, dataCreateSt, upd] at hx
    have hst : s.st x = .recd := by simp only [dataCreatedSt, dataCreateSt] at hx; rwa [upd_ne _ _ _ hne] at hx
    have hg := ne_of_st hst k.at_.st (by simp)
    have hr := ne_of_st hst k.at_.rd (by simp)
    refine Or.inl ⟨hst, recOf_congr ?_, upd_ne _ _ _ hg⟩
    simp only [dataCreatedSt, dataCreateSt]
    rw [upd_ne _ _ _ hg, upd_ne _ _ _ hr, upd_ne _ _ _ hne]
  | dataDestroy rd a =>
    obtain ⟨g, pa, rp, k⟩ := e
    rw [k.st] at hx ⊢
    have hne : x ≠ pa := by rintro rfl; simp [upd] at hx
    have hst : s.st x = .recd := by dsimp only at hx; rwa [upd_ne _ _ _ hne] at hx
    have hg := ne_of_st hst k.at_.st (by simp)
    refine Or.inl ⟨hst, recOf_congr ?_, upd_ne _ _ _ hg⟩
    dsimp only
    rw [upd_ne _ _ _ hne, upd_ne _ _ _ hg]
  | rttInitRipas rd base top =>
    obtain ⟨d, g, m, k⟩ := e
    rw [k.st] at hx ⊢
    have hst : s.st x = .recd := hx
    refine Or.inl ⟨hx, recOf_congr ?_, rfl⟩
    dsimp only
    rw [upd_ne _ _ _ (ne_of_st hst k.at_.rd (by simp)), upd_ne _ _ _ (ne_of_st hst k.at_.st (by simp))]
  | rttSetRipas rd q base top =>
    obtain ⟨d, g, m, k⟩ := e
    have hst : s.st x = .recd := by rw [k.st] at hx; exact hx
    by_cases hq : x = q
    · subst hq
      refine Or.inr (.setRipas hst k.idle (by rw [k.st]; exact k.idle) ?_)
      rw [k.x1]
      exact recOf_of_mem (by rw [k.st]; exact upd_same _ _ _)
    · rw [k.st]
      refine Or.inl ⟨hst, recOf_congr ?_, rfl⟩
      dsimp only
      rw [upd_ne _ _ _ hq, upd_ne _ _ _ (ne_of_st hst k.at_.st (by simp))]
  | realmActivate rd =>
    have k : ActivateOk P s rd s' ret := e
    rw [k.st] at hx ⊢
    exact Or.inl ⟨hx, recOf_congr (upd_ne _ _ _ (ne_of_st hx k.rd.2 (by simp))), rfl⟩
  | realmCreate rd pA q =>
    have k : RealmCreateOk P s rd q s' ret := e
    obtain ⟨ts, _, rfl⟩ := k.st
    have hne : x ≠ rd := by rintro rfl; simp [realmCreateSt, upd] at hx
    simp only [realmCreateSt] at hx ⊢
    rw [upd_ne _ _ _ hne] at hx
    by_cases hin : inRange q.rttBase q.p.rttNumStart x = true
    · rw [if_pos hin] at hx; cases hx
    · rw [if_neg hin] at hx
      refine Or.inl ⟨hx, recOf_congr ?_, trivial⟩
      dsimp only
      rw [upd_ne _ _ _ hne, if_neg hin]
  | realmDestroy rd =>
    have k : RealmDestroyOk s rd s' ret := e
    rw [k.st] at hx ⊢
    have hne : x ≠ rd := by rintro rfl; simp [realmDestroySt, upd] at hx
    simp only [realmDestroySt] at hx ⊢
    rw [upd_ne _ _ _ hne] at hx
    by_cases hin : inRange (rdOf s rd).root (rdOf s rd).nroots x = true
    · rw [if_pos hin] at hx; cases hx
    · rw [if_neg hin] at hx
      refine Or.inl ⟨hx, recOf_congr ?_, trivial⟩
      dsimp only
      rw [upd_ne _ _ _ hne, if_neg hin]
  | recCreate rd rc pA q =>
    have k : RecCreateOk P s rd rc q s' ret := e
    by_cases hq : x = rc
    · subst hq
      have hrd : x ≠ rd := ne_of_st k.recd.2 k.rd (by simp)
      refine Or.inr (.create k.recd.2 (recOf_of_mem ?_) ?_)
      · rw [k.st]
        simp only [recCreateSt]
        rw [upd_ne _ _ _ hrd, upd_same]
      · rw [k.st]
        simp only [recCreateSt, markAux]
        rw [upd_ne _ _ _ hrd]
        exact h.rc0 x (Or.inr (Or.inl k.recd.2))
    · rw [k.st] at hx ⊢
      simp only [recCreateSt, markAux] at hx ⊢
      rw [upd_ne _ _ _ hq] at hx
      by_cases hin : x ∈ q.auxList
      · rw [if_pos hin] at hx; cases hx
      · rw [if_neg hin] at hx
        have hrd := ne_of_st hx k.rd (by simp)
        refine Or.inl ⟨hx, recOf_congr ?_, ?_⟩
        · dsimp only; rw [upd_ne _ _ _ hrd, upd_ne _ _ _ hq]
        · rw [upd_ne _ _ _ hrd]
  | recDestroy rc =>
    have k : RecDestroyOk s rc s' ret := e
    rw [k.st] at hx ⊢
    have hne : x ≠ rc := by rintro rfl; simp [recDestroySt, upd] at hx
    simp only [recDestroySt] at hx ⊢
    rw [upd_ne _ _ _ hne] at hx
    by_cases hin : x ∈ (recOf s rc).aux
    · rw [if_pos hin] at hx; cases hx
    · rw [if_neg hin] at hx
      have hrd := ne_of_st hx (h.recs rc k.recd).rd (by simp)
      refine Or.inl ⟨hx, recOf_congr ?_, ?_⟩
      · dsimp only; rw [upd_ne _ _ _ hne, if_neg hin]
      · rw [upd_ne _ _ _ hrd]
  | recAuxCount rd => rw [e.1] at hx ⊢; exact Or.inl ⟨hx, rfl, rfl⟩
  | psciComplete c t st =>
    have k : PsciOk P s c t st s' ret := e
    have hst : s.st x = .recd := by rw [k.st] at hx; exact hx
    by_cases hc : x = c
    · subst hc
      refine Or.inr (.psciCall hst k.rc (by rw [k.st]; exact k.rc) k.pend (recOf_of_mem ?_))
      rw [k.st]; exact upd_same _ _ _
    · by_cases ht : x = t
      · subst ht
        by_cases hon : psciTurnsOn (recOf s c) (recOf s x) st (s.rc x) = true
        · have hz : s.rc x = 0 := by
            by_contra hz
            revert hon
            unfold psciTurnsOn
            simp [hz]
          refine Or.inr (.psciTarget hst hz (by rw [k.st]; exact hz) (Ne.symm hc) hon (recOf_of_mem ?_))
          rw [k.st]
          dsimp only
          rw [upd_ne _ _ _ hc, if_pos hon, upd_same]
        · rw [k.st]
          refine Or.inl ⟨hst, recOf_congr ?_, rfl⟩
          dsimp only
          rw [upd_ne _ _ _ hc, if_neg hon]
      · rw [k.st]
        refine Or.inl ⟨hst, recOf_congr ?_, rfl⟩
        dsimp only
        rw [upd_ne _ _ _ hc]
        split
        · rw [upd_ne _ _ _ ht]
        · rfl
  | recEnter rc run acc rej =>
    obtain ⟨rfl, k⟩ := e
    have hst : s.st x = .recd := by rw [k.st] at hx; exact hx
    by_cases hq : x = rc
    · subst hq
      refine Or.inr (.enter hst k.rc (by rw [k.st]; exact upd_same _ _ _) k.runnable k.pend k.active (recOf_of_mem ?_))
      rw [k.st]; exact upd_same _ _ _
    · rw [k.st]
      exact Or.inl ⟨hst, recOf_congr (upd_ne _ _ _ hq), upd_ne _ _ _ hq⟩
  | recRun rc stop off regs pc =>
    obtain ⟨h0, h1, _, rfl⟩ := e
    by_cases hq : x = rc
    · subst hq
      exact Or.inr (.run h0 h1 (upd_same _ _ _) (recOf_of_mem (upd_same _ _ _)))
    · exact Or.inl ⟨hx, recOf_congr (upd_ne _ _ _ hq), upd_ne _ _ _ hq⟩
  | psciRequest rc =>
    obtain ⟨h0, h1, _, h2, rfl⟩ := e
    by_cases hq : x = rc
    · subst hq
      refine Or.inr (.psciReq h0 h1 (upd_same _ _ _) ?_ (recOf_of_mem (upd_same _ _ _)))
      rcases h2.2.2 with h3 | h3
      · exact Or.inl h3.1
      · exact Or.inr h3.1
    · exact Or.inl ⟨hx, recOf_congr (upd_ne _ _ _ hq), upd_ne _ _ _ hq⟩
  | rsiIpaStateSet rc base top v chg =>
    obtain ⟨h0, h1, _, h5⟩ := e
    rcases h5 with rfl | ⟨h2, h3, h4, h5, h6, rfl⟩
    · by_cases hq : x = rc
      · subst hq
        exact Or.inr (.ipaStateSetErr h0 h1 h1 (recOf_of_mem (upd_same _ _ _)))
      · exact Or.inl ⟨hx, recOf_congr (upd_ne _ _ _ hq), rfl⟩
    · by_cases hq : x = rc
      · subst hq
        exact Or.inr (.ipaStateSet h0 h1 (upd_same _ _ _) h2 h3 h4 h5 h6 (recOf_of_mem (upd_same _ _ _)))
      · exact Or.inl ⟨hx, recOf_congr (upd_ne _ _ _ hq), upd_ne _ _ _ hq⟩
  | psciSystemOff rc =>
    obtain ⟨h0, h1, _, rfl⟩ := e
    have hne := ne_of_st hx (h.recs rc h0).rd (by simp)
    by_cases hq : x = rc
    · subst hq
      exact Or.inr (.systemOff h0 h1 (upd_same _ _ _) (recOf_congr (upd_ne _ _ _ hne)))
    · exact Or.inl ⟨hx, recOf_congr (upd_ne _ _ _ hne), upd_ne _ _ _ hq⟩
  | rsiExtend rc i v =>
    obtain ⟨h0, _, _, _, _, rfl⟩ := e
    exact Or.inl ⟨hx, recOf_congr (upd_ne _ _ _ (ne_of_st hx (h.recs rc h0).rd (by simp))), rfl⟩
  | realmWrite rc a p =>
    obtain ⟨_, _, _, y, rfl, h5⟩ := e
    refine Or.inl ⟨hx, recOf_congr (upd_ne _ _ _ ?_), rfl⟩
    rcases h5 with ⟨h6, _⟩ | ⟨h6, _⟩ <;> exact ne_of_st hx h6 (by simp)
  | auxWrite rc a p =>
    obtain ⟨_, _, _, _, h7, rfl⟩ := e
    exact Or.inl ⟨hx, recOf_congr (upd_ne _ _ _ (ne_of_st hx h7 (by simp))), rfl⟩
  | hostWrite a p =>
    obtain ⟨h0, _, _, rfl⟩ := e
    exact Or.inl ⟨hx, recOf_congr (upd_ne _ _ _ (ne_of_st hx h0 (by simp))), rfl⟩
  | el3Move a toNs => obtain ⟨_, _, rfl⟩ := e; exact Or.inl ⟨hx, rfl, rfl⟩

/-- The possible changes of the realm descriptor in granule `x`. -/
inductive RdChange (s s' : State) (ret : Ret) (x : Nat) : Op → Prop
  | create {p q} : s.st x = .delegated →
      rdOf s' x = { state := .new, recCount := 0, d0 := dOf q.p.rttLevelStart, ipaBits := q.p.s2sz
                    nroots := q.p.rttNumStart, root := q.rttBase, vmid := q.vmid
                    lpa2 := Features.lpa2Requested q.p, numAux := 16, algo := q.p.algorithm
                    rim := [.params q.p], rem := fun _ => [] } → s'.rc x = 0 →
      RdChange s s' ret x (.realmCreate x p q)
  | data {d a src fl p} : s.st x = .rd → (rdOf s x).state = .new → s.mem src = .page p →
      rdOf s' x = { rdOf s x with
        rim := (rdOf s x).rim ++ [.data a (if fl = 1 then some p else none)] } → s'.rc x = s.rc x →
      RdChange s s' ret x (.dataCreate x d a src fl)
  | init {b t d m} : s.st x = .rd → (rdOf s x).state = .new → ret.x1 = b + m * sz d →
      rdOf s' x = { rdOf s x with rim := (rdOf s x).rim ++ ripasEvs d b m } → s'.rc x = s.rc x →
      RdChange s s' ret x (.rttInitRipas x b t)
  | activate : s.st x = .rd → (rdOf s x).state = .new → rdOf s' x = { rdOf s x with state := .active } →
      s'.rc x = s.rc x → RdChange s s' ret x (.realmActivate x)
  | recCreate {r p q} : s.st x = .rd → (rdOf s x).state = .new →
      rdOf s' x = { rdOf s x with
        recCount := (rdOf s x).recCount + 1
        rim := if q.flags.getLsbD 0 = true then (rdOf s x).rim ++
          [.recd ((List.range 8).map q.gprs) q.pc q.flags] else (rdOf s x).rim } → s'.rc x = s.rc x + 1 →
      RdChange s s' ret x (.recCreate x r p q)
  | recDestroy {r} : s.st x = .rd → s.st r = .recd → (recOf s r).rd = x → rdOf s' x = rdOf s x →
      s'.rc x = s.rc x - 1 → RdChange s s' ret x (.recDestroy r)
  | systemOff {r} : s.st x = .rd → s.st r = .recd → s.rc r = 1 → (recOf s r).rd = x →
      rdOf s' x = { rdOf s x with state := .off } → s'.rc x = s.rc x → RdChange s s' ret x (.psciSystemOff r)
  | extend {r i v} : s.st x = .rd → s.st r = .recd → s.rc r = 1 → (recOf s r).rd = x → 1 ≤ i → i ≤ 4 →
      rdOf s' x = { rdOf s x with rem := upd (rdOf s x).rem i ((rdOf s x).rem i ++ [v]) } → s'.rc x = s.rc x →
      RdChange s s' ret x (.rsiExtend r i v)

theorem Eff.rd_step (h : InvG P s ti di rl) {op : Op} (e : Eff P s ti di s' ret op) {x : Nat}
    (hx : s'.st x = .rd) :
    (s.st x = .rd ∧ rdOf s' x = rdOf s x ∧ s'.rc x = s.rc x) ∨ RdChange s s' ret x op := by
  by_cases ht : op.target s = some x
  swap
  · have hs := (Eff.rd_iff h e ht).mp hx
    have k := Eff.kept h e (.rd rfl hs) ht
    exact Or.inl ⟨hs, rdOf_congr k.2.1, k.2.2⟩
  cases op with
  | granuleDelegate a => cases ht
  | granuleUndelegate a => cases ht
  | rttCreate rd rtt a lvl =>
    cases ht
    obtain ⟨d, g, e, _, k⟩ := e
    have hg := ne_of_st k.at_.rd k.at_.st (by simp)
    rw [k.st]
    have hne : x ≠ rtt := by rintro rfl; have := k.at_.rd; rw [k.del] at this; cases this
    refine Or.inl ⟨k.at_.rd, rdOf_congr ?_, ?_⟩ <;> simp only [rttCreateSt]
    · rw [upd_ne _ _ _ hg, upd_ne _ _ _ hne]
    · rw [upd_ne _ _ _ hg, upd_ne _ _ _ hne]
  | rttFold rd a lvl =>
    cases ht
    obtain ⟨d, g, c, e, _, k⟩ := e
    have hst := k.ch.at_.rd
    have hne := ne_of_st hst k.ch.cst (by simp)
    have hg := ne_of_st hst k.ch.at_.st (by simp)
    rw [k.st]
    refine Or.inl ⟨hst, rdOf_congr ?_, ?_⟩ <;> simp only [dropTableSt]
    · rw [upd_ne _ _ _ hne, upd_ne _ _ _ hg]
    · rw [upd_ne _ _ _ hg, upd_ne _ _ _ hne]
  | rttDestroy rd a lvl =>
    cases ht
    obtain ⟨d, g, c, _, k⟩ := e
    have hst := k.ch.at_.rd
    have hne := ne_of_st hst k.ch.cst (by simp)
    have hg := ne_of_st hst k.ch.at_.st (by simp)
    rw [k.st]
    refine Or.inl ⟨hst, rdOf_congr ?_, ?_⟩ <;> simp only [dropTableSt]
    · rw [upd_ne _ _ _ hne, upd_ne _ _ _ hg]
    · rw [upd_ne _ _ _ hg, upd_ne _ _ _ hne]
  | rttMapUnprotected rd a lvl desc =>
    cases ht
    obtain ⟨d, g, _, k⟩ := e
    rw [k.st]
    exact Or.inl ⟨k.at_.rd, rdOf_congr (upd_ne _ _ _ (ne_of_st k.at_.rd k.at_.st (by simp))), rfl⟩
  | rttUnmapUnprotected rd a lvl =>
    cases ht
    obtain ⟨d, g, _, k⟩ := e
    rw [k.st]
    exact Or.inl ⟨k.at_.rd, rdOf_congr (upd_ne _ _ _ (ne_of_st k.at_.rd k.at_.st (by simp))), rfl⟩
  | rttReadEntry rd a lvl => rw [e.1] at hx ⊢; exact Or.inl ⟨hx, rfl, rfl⟩
  | dataCreateUnknown rd data a =>
    cases ht
    obtain ⟨g, rp, k, _, rfl⟩ := e
    have hg := ne_of_st k.at_.rd k.at_.st (by simp)
    exact Or.inl ⟨k.at_.rd, rdOf_congr (upd_ne _ _ _ hg), upd_ne _ _ _ hg⟩
  | dataCreate rd data a src flags =>
    cases ht
    obtain ⟨g, rp, p, k, _, _, hn, _, _, hm, rfl⟩ := e
    have hg := ne_of_st k.at_.rd k.at_.st (by simp)
    refine Or.inr (.data k.at_.rd hn hm (rdOf_of_mem ?_) (upd_ne _ _ _ hg))
    simp only [dataCreatedSt, dataCreateSt]
    rw [upd_ne _ _ _ hg, upd_same]
  | dataDestroy rd a =>
    cases ht
    obtain ⟨g, pa, rp, k⟩ := e
    have hst := k.at_.rd
    have hg := ne_of_st hst k.at_.st (by simp)
    have hne := ne_of_st hst (k.pa_data h).1 (by simp)
    rw [k.st]
    refine Or.inl ⟨hst, rdOf_congr ?_, upd_ne _ _ _ hg⟩
    dsimp only
    rw [upd_ne _ _ _ hne, upd_ne _ _ _ hg]
  | rttInitRipas rd base top =>
    cases ht
    obtain ⟨d, g, m, k⟩ := e
    refine Or.inr (.init (d := d) (m := m) k.at_.rd k.new (by rw [k.ret]) (rdOf_of_mem ?_) (by rw [k.st]))
    rw [k.st]
    exact upd_same _ _ _
  | rttSetRipas rd q base top =>
    cases ht
    obtain ⟨d, g, m, k⟩ := e
    have hst := k.at_.rd
    rw [k.st]
    refine Or.inl ⟨hst, rdOf_congr ?_, rfl⟩
    dsimp only
    rw [upd_ne _ _ _ (ne_of_st hst k.rst (by simp)), upd_ne _ _ _ (ne_of_st hst k.at_.st (by simp))]
  | realmActivate rd =>
    cases ht
    have k : ActivateOk P s x s' ret := e
    exact Or.inr (.activate k.rd.2 k.new (rdOf_of_mem (by rw [k.st]; exact upd_same _ _ _)) (by rw [k.st]))
  | realmCreate rd pA q =>
    cases ht
    have k : RealmCreateOk P s x q s' ret := e
    obtain ⟨ts, _, rfl⟩ := k.st
    exact Or.inr (.create k.rd.2 (rdOf_of_mem (by unfold realmCreateSt; dsimp only; rw [upd_same])) (h.rc0 x (Or.inr (Or.inl k.rd.2))))
  | realmDestroy rd =>
    cases ht
    have k : RealmDestroyOk s x s' ret := e
    rw [k.st] at hx
    simp [realmDestroySt, upd] at hx
  | recCreate rd rc pA q =>
    cases ht
    have k : RecCreateOk P s x rc q s' ret := e
    refine Or.inr (.recCreate k.rd k.new (rdOf_of_mem ?_) ?_)
    · rw [k.st]; exact upd_same _ _ _
    · rw [k.st]; exact upd_same _ _ _
  | recDestroy rc =>
    have k : RecDestroyOk s rc s' ret := e
    have hrd := (h.recs rc k.recd).rd
    have hxx : (recOf s rc).rd = x := by simpa [Op.target, k.recd] using ht
    rw [hxx] at hrd
    refine Or.inr (.recDestroy hrd k.recd hxx (rdOf_congr ?_) ?_)
    · rw [k.st]
      simp only [recDestroySt]
      rw [upd_ne _ _ _ (ne_of_st hrd k.recd (by simp)), if_neg]
      intro hin
      have := (h.recs rc k.recd).auxSt x hin
      rw [hrd] at this; cases this
    · rw [k.st]
      simp only [recDestroySt, hxx]
      exact upd_same _ _ _
  | recAuxCount rd => rw [e.1] at hx ⊢; exact Or.inl ⟨hx, rfl, rfl⟩
  | psciComplete c t st =>
    have k : PsciOk P s c t st s' ret := e
    rw [k.st] at hx ⊢
    have hst : s.st x = .rd := hx
    refine Or.inl ⟨hst, rdOf_congr ?_, rfl⟩
    dsimp only
    rw [upd_ne _ _ _ (ne_of_st hst k.call.2 (by simp))]
    split
    · rw [upd_ne _ _ _ (ne_of_st hst k.tgt.2 (by simp))]
    · rfl
  | recEnter rc run acc rej =>
    obtain ⟨rfl, k⟩ := e
    rw [k.st] at hx ⊢
    have hst : s.st x = .rd := hx
    have hq := ne_of_st hst k.recd.2 (by simp)
    exact Or.inl ⟨hst, rdOf_congr (upd_ne _ _ _ hq), upd_ne _ _ _ hq⟩
  | recRun rc stop off regs pc =>
    obtain ⟨h0, h1, _, rfl⟩ := e
    have hq : x ≠ rc := ne_of_st hx h0 (by simp)
    exact Or.inl ⟨hx, rdOf_congr (upd_ne _ _ _ hq), upd_ne _ _ _ hq⟩
  | psciRequest rc =>
    obtain ⟨h0, h1, _, h2, rfl⟩ := e
    have hq : x ≠ rc := ne_of_st hx h0 (by simp)
    exact Or.inl ⟨hx, rdOf_congr (upd_ne _ _ _ hq), upd_ne _ _ _ hq⟩
  | rsiIpaStateSet rc base top v chg =>
    obtain ⟨h0, h1, _, h5⟩ := e
    rcases h5 with rfl | ⟨_, _, _, _, _, rfl⟩
    · have hq : x ≠ rc := ne_of_st hx h0 (by simp)
      exact Or.inl ⟨hx, rdOf_congr (upd_ne _ _ _ hq), rfl⟩
    · have hq : x ≠ rc := ne_of_st hx h0 (by simp)
      exact Or.inl ⟨hx, rdOf_congr (upd_ne _ _ _ hq), upd_ne _ _ _ hq⟩
  | psciSystemOff rc =>
    obtain ⟨h0, h1, _, rfl⟩ := e
    have hxx : (recOf s rc).rd = x := by simpa [Op.target, h0] using ht
    have hq : x ≠ rc := ne_of_st hx h0 (by simp)
    refine Or.inr (.systemOff hx h0 h1 hxx (rdOf_of_mem ?_) (upd_ne _ _ _ hq))
    dsimp only
    rw [hxx]; exact upd_same _ _ _
  | rsiExtend rc i v =>
    obtain ⟨h0, h1, _, hi, hj, rfl⟩ := e
    have hxx : (recOf s rc).rd = x := by simpa [Op.target, h0] using ht
    refine Or.inr (.extend hx h0 h1 hxx hi hj (rdOf_of_mem ?_) rfl)
    dsimp only
    rw [hxx]; exact upd_same _ _ _
  | realmWrite rc a p =>
    obtain ⟨_, _, _, y, rfl, h5⟩ := e
    refine Or.inl ⟨hx, rdOf_congr (upd_ne _ _ _ ?_), rfl⟩
    rcases h5 with ⟨h6, _⟩ | ⟨h6, _⟩ <;> exact ne_of_st hx h6 (by simp)
  | auxWrite rc a p =>
    obtain ⟨_, _, _, _, h7, rfl⟩ := e
    exact Or.inl ⟨hx, rdOf_congr (upd_ne _ _ _ (ne_of_st hx h7 (by simp))), rfl⟩
  | hostWrite a p => cases ht
  | el3Move a toNs => cases ht

end
end Verif.Rmm
