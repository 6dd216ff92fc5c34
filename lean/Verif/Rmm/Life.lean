import Verif.Rmm.Hist

/-!
# How the state and contents of a granule change in one step
-/

namespace Verif.Rmm

section
variable {P : Plat} {s s' : State} {ret : Ret} {ti : Nat → TabInfo} {di : Nat → Nat × Nat} {rl : Nat → List Nat}

/-- The possible changes of the state of granule `x`: every command that moves `x`
from one state to another, with the contents it leaves in `x`. -/
inductive StChange (s s' : State) (x : Nat) : Op → Prop
  | delegate : s.st x = .ns → s'.st x = .delegated → s'.mem x = .page 0 → StChange s s' x (.granuleDelegate x)
  | undelegate : s.st x = .delegated → s'.st x = .ns → s'.mem x = s.mem x → StChange s s' x (.granuleUndelegate x)
  | rttCreate {rd a lvl} : s.st x = .delegated → s'.st x = .rtt → StChange s s' x (.rttCreate rd x a lvl)
  | rttFold {rd a lvl} : s.st x = .rtt → s'.st x = .delegated → s'.mem x = .page 0 →
      StChange s s' x (.rttFold rd a lvl)
  | rttDestroy {rd a lvl} : s.st x = .rtt → s'.st x = .delegated → s'.mem x = .page 0 →
      StChange s s' x (.rttDestroy rd a lvl)
  | dataUnknown {rd a} : s.st x = .delegated → s'.st x = .data → s'.mem x = .page 0 →
      StChange s s' x (.dataCreateUnknown rd x a)
  | data {rd a src fl} : s.st x = .delegated → s'.st x = .data → s.st src = .ns → s'.mem x = s.mem src →
      (rdOf s rd).state = .new → StChange s s' x (.dataCreate rd x a src fl)
  | dataDestroy {rd a} : s.st x = .data → s'.st x = .delegated → s'.mem x = .page 0 →
      StChange s s' x (.dataDestroy rd a)
  | rd {p q} : s.st x = .delegated → s'.st x = .rd → StChange s s' x (.realmCreate x p q)
  | root {rd p q} : s.st x = .delegated → s'.st x = .rtt → StChange s s' x (.realmCreate rd p q)
  | realmDestroy {rd} : s.st x = .rd ∨ s.st x = .rtt → s'.st x = .delegated → s'.mem x = .page 0 →
      StChange s s' x (.realmDestroy rd)
  | recd {rd p q} : s.st x = .delegated → s'.st x = .recd → StChange s s' x (.recCreate rd x p q)
  | aux {rd r p q} : s.st x = .delegated → s'.st x = .recAux → s'.mem x = .page 0 →
      StChange s s' x (.recCreate rd r p q)
  | recDestroy {r} : s.st x = .recd ∨ s.st x = .recAux → s'.st x = .delegated → s'.mem x = .page 0 →
      StChange s s' x (.recDestroy r)

theorem Eff.st_step (h : InvG P s ti di rl) {op : Op} (e : Eff P s ti di s' ret op) (x : Nat) :
    s'.st x = s.st x ∨ StChange s s' x op := by
  cases op with
  | granuleDelegate a =>
    obtain ⟨_, h2, _, _, rfl⟩ := e
    by_cases hx : x = a
    · subst hx
      exact Or.inr (.delegate h2 (upd_same _ _ _) (upd_same _ _ _))
    · exact Or.inl (upd_ne _ _ _ hx)
  | granuleUndelegate a =>
    obtain ⟨_, h2, _, rfl⟩ := e
    by_cases hx : x = a
    · subst hx
      exact Or.inr (.undelegate h2 (upd_same _ _ _) rfl)
    · exact Or.inl (upd_ne _ _ _ hx)
  | rttCreate rd rtt a lvl =>
    obtain ⟨d, g, e, _, k⟩ := e
    rw [k.st]
    by_cases hx : x = rtt
    · subst hx; exact Or.inr (.rttCreate k.del (upd_same _ _ _))
    · exact Or.inl (upd_ne _ _ _ hx)
  | rttFold rd a lvl =>
    obtain ⟨d, g, c, e, _, k⟩ := e
    rw [k.st]
    by_cases hx : x = c
    · subst hx; exact Or.inr (.rttFold k.ch.cst (upd_same _ _ _) (upd_same _ _ _))
    · exact Or.inl (upd_ne _ _ _ hx)
  | rttDestroy rd a lvl =>
    obtain ⟨d, g, c, _, k⟩ := e
    rw [k.st]
    by_cases hx : x = c
    · subst hx; exact Or.inr (.rttDestroy k.ch.cst (upd_same _ _ _) (upd_same _ _ _))
    · exact Or.inl (upd_ne _ _ _ hx)
  | rttMapUnprotected rd a lvl desc => obtain ⟨d, g, _, k⟩ := e; rw [k.st]; exact Or.inl rfl
  | rttUnmapUnprotected rd a lvl => obtain ⟨d, g, _, k⟩ := e; rw [k.st]; exact Or.inl rfl
  | rttReadEntry rd a lvl => rw [e.1]; exact Or.inl rfl
  | dataCreateUnknown rd data a =>
    obtain ⟨g, rp, k, _, rfl⟩ := e
    by_cases hx : x = data
    · subst hx
      refine Or.inr (.dataUnknown k.del (upd_same _ _ _) ?_)
      simp only [dataCreateSt]
      rw [upd_ne _ _ _ (ne_of_st k.del k.at_.st (by simp))]
      exact h.delPage x k.del
    · exact Or.inl (upd_ne _ _ _ hx)
  | dataCreate rd data a src flags =>
    obtain ⟨g, rp, p, k, _, _, hn, hs, _, hm, rfl⟩ := e
    by_cases hx : x = data
    · subst hx
      refine Or.inr (.data k.del (upd_same _ _ _) hs ?_ hn)
      simp only [dataCreatedSt, dataCreateSt]
      rw [upd_ne _ _ _ (ne_of_st k.del k.at_.st (by simp)), upd_ne _ _ _ (ne_of_st k.del k.at_.rd (by simp)),
        upd_same, hm]
    · exact Or.inl (upd_ne _ _ _ hx)
  | dataDestroy rd a =>
    obtain ⟨g, pa, rp, k⟩ := e
    have hd := (k.pa_data h).1
    rw [k.st]
    by_cases hx : x = pa
    · subst hx; exact Or.inr (.dataDestroy hd (upd_same _ _ _) (upd_same _ _ _))
    · exact Or.inl (upd_ne _ _ _ hx)
  | rttInitRipas rd base top => obtain ⟨d, g, m, k⟩ := e; rw [k.st]; exact Or.inl rfl
  | rttSetRipas rd q base top => obtain ⟨d, g, m, k⟩ := e; rw [k.st]; exact Or.inl rfl
  | realmActivate rd => have k : ActivateOk P s rd s' ret := e; rw [k.st]; exact Or.inl rfl
  | realmCreate rd pA q =>
    have k : RealmCreateOk P s rd q s' ret := e
    obtain ⟨ts, _, rfl⟩ := k.st
    by_cases hx : x = rd
    · subst hx; exact Or.inr (.rd k.rd.2 (by unfold realmCreateSt; dsimp only; rw [upd_same]))
    · by_cases hin : inRange q.rttBase q.p.rttNumStart x = true
      · obtain ⟨j, hj, rfl⟩ := (inRange_iff ..).mp hin
        refine Or.inr (.root (k.roots j hj).2 ?_)
        simp only [realmCreateSt]; rw [upd_ne _ _ _ hx, if_pos hin]
      · left
        simp only [realmCreateSt]; rw [upd_ne _ _ _ hx, if_neg hin]
  | realmDestroy rd =>
    have k : RealmDestroyOk s rd s' ret := e
    rw [k.st]
    by_cases hx : x = rd
    · subst hx
      exact Or.inr (.realmDestroy (Or.inl k.rd) (by unfold realmDestroySt; dsimp only; rw [upd_same])
        (by unfold realmDestroySt; dsimp only; rw [upd_same]))
    · by_cases hin : inRange (rdOf s rd).root (rdOf s rd).nroots x = true
      · obtain ⟨j, hj, hxe⟩ := (inRange_iff ..).mp hin
        refine Or.inr (.realmDestroy (Or.inr ?_) ?_ ?_)
        · rw [hxe]; exact ((h.rds rd k.rd).roots j hj).1
        · simp only [realmDestroySt]; rw [upd_ne _ _ _ hx, if_pos hin]
        · simp only [realmDestroySt]; rw [upd_ne _ _ _ hx, if_pos hin]
      · left
        simp only [realmDestroySt]; rw [upd_ne _ _ _ hx, if_neg hin]
  | recCreate rd rc pA q =>
    have k : RecCreateOk P s rd rc q s' ret := e
    rw [k.st]
    by_cases hx : x = rc
    · subst hx; exact Or.inr (.recd k.recd.2 (by unfold recCreateSt; dsimp only; rw [upd_same]))
    · by_cases hin : x ∈ q.auxList
      · have hd := (k.aux x hin).2
        refine Or.inr (.aux hd ?_ ?_)
        · simp only [recCreateSt, markAux]; rw [upd_ne _ _ _ hx, if_pos hin]
        · simp only [recCreateSt, markAux]
          rw [upd_ne _ _ _ (ne_of_st hd k.rd (by simp)), upd_ne _ _ _ hx]
          exact h.delPage x hd
      · left
        simp only [recCreateSt, markAux]; rw [upd_ne _ _ _ hx, if_neg hin]
  | recDestroy rc =>
    have k : RecDestroyOk s rc s' ret := e
    rw [k.st]
    by_cases hx : x = rc
    · subst hx
      exact Or.inr (.recDestroy (Or.inl k.recd) (by unfold recDestroySt; dsimp only; rw [upd_same])
        (by unfold recDestroySt; dsimp only; rw [upd_same]))
    · by_cases hin : x ∈ (recOf s rc).aux
      · refine Or.inr (.recDestroy (Or.inr ((h.recs rc k.recd).auxSt x hin)) ?_ ?_)
        · simp only [recDestroySt]; rw [upd_ne _ _ _ hx, if_pos hin]
        · simp only [recDestroySt]; rw [upd_ne _ _ _ hx, if_pos hin]
      · left
        simp only [recDestroySt]; rw [upd_ne _ _ _ hx, if_neg hin]
  | recAuxCount rd => rw [e.1]; exact Or.inl rfl
  | psciComplete c t st => have k : PsciOk P s c t st s' ret := e; rw [k.st]; exact Or.inl rfl
  | recEnter rc run acc rej => obtain ⟨rfl, k⟩ := e; rw [k.st]; exact Or.inl rfl
  | recRun rc stop off regs pc => obtain ⟨h0, h1, _, rfl⟩ := e; exact Or.inl rfl
  | psciRequest rc => obtain ⟨h0, h1, _, h2, rfl⟩ := e; exact Or.inl rfl
  | rsiIpaStateSet rc base top v chg =>
    obtain ⟨h0, h1, _, h5⟩ := e
    rcases h5 with rfl | ⟨_, _, _, _, _, rfl⟩ <;> exact Or.inl rfl
  | psciSystemOff rc => obtain ⟨h0, h1, _, rfl⟩ := e; exact Or.inl rfl
  | rsiExtend rc i v => obtain ⟨h0, h1, _, hi, hj, rfl⟩ := e; exact Or.inl rfl
  | realmWrite rc a p => obtain ⟨_, _, _, y, rfl, h5⟩ := e; exact Or.inl rfl
  | auxWrite rc a p => obtain ⟨_, _, _, _, h7, rfl⟩ := e; exact Or.inl rfl
  | hostWrite a p => obtain ⟨_, _, _, rfl⟩ := e; exact Or.inl rfl
  | el3Move a toNs => obtain ⟨_, _, rfl⟩ := e; exact Or.inl rfl

/-- The contents of a data granule change only by a store of the realm that owns it. -/
theorem Eff.data_mem (h : InvG P s ti di rl) {op : Op} (e : Eff P s ti di s' ret op) {x : Nat}
    (hx : s.st x = .data) (hx' : s'.st x = .data) :
    s'.mem x = s.mem x ∨ ∃ r a p, op = .realmWrite r a p ∧ s.st r = .recd ∧ s.rc r = 1 ∧
      (recOf s r).rd = (di x).1 ∧ view s (recOf s r).rd a = some (.assigned .ram x) ∧ s'.mem x = .page p := by
  have hrd := h.data x hx
  by_cases ht : op.target s = some (di x).1
  swap
  · exact Or.inl (Eff.kept h e (.data hx rfl) ht).2.1
  cases op with
  | granuleDelegate a => cases ht
  | granuleUndelegate a => cases ht
  | rttCreate rd rtt a lvl =>
    obtain ⟨d, g, e, _, k⟩ := e
    rw [k.st]; left; simp only [rttCreateSt]
    rw [upd_ne _ _ _ (ne_of_st hx k.at_.st (by simp)), upd_ne _ _ _ (ne_of_st hx k.del (by simp))]
  | rttFold rd a lvl =>
    obtain ⟨d, g, c, e, _, k⟩ := e
    rw [k.st]; left; simp only [dropTableSt]
    rw [upd_ne _ _ _ (ne_of_st hx k.ch.cst (by simp)), upd_ne _ _ _ (ne_of_st hx k.ch.at_.st (by simp))]
  | rttDestroy rd a lvl =>
    obtain ⟨d, g, c, _, k⟩ := e
    rw [k.st]; left; simp only [dropTableSt]
    rw [upd_ne _ _ _ (ne_of_st hx k.ch.cst (by simp)), upd_ne _ _ _ (ne_of_st hx k.ch.at_.st (by simp))]
  | rttMapUnprotected rd a lvl desc =>
    obtain ⟨d, g, _, k⟩ := e; rw [k.st]; exact Or.inl (upd_ne _ _ _ (ne_of_st hx k.at_.st (by simp)))
  | rttUnmapUnprotected rd a lvl =>
    obtain ⟨d, g, _, k⟩ := e; rw [k.st]; exact Or.inl (upd_ne _ _ _ (ne_of_st hx k.at_.st (by simp)))
  | rttReadEntry rd a lvl => rw [e.1]; exact Or.inl rfl
  | dataCreateUnknown rd data a =>
    obtain ⟨g, rp, k, _, rfl⟩ := e
    exact Or.inl (upd_ne _ _ _ (ne_of_st hx k.at_.st (by simp)))
  | dataCreate rd data a src flags =>
    obtain ⟨g, rp, p, k, _, _, hn, hs, _, hm, rfl⟩ := e
    left; simp only [dataCreatedSt, dataCreateSt]
    rw [upd_ne _ _ _ (ne_of_st hx k.at_.st (by simp)), upd_ne _ _ _ (ne_of_st hx k.at_.rd (by simp)),
      upd_ne _ _ _ (ne_of_st hx k.del (by simp))]
  | dataDestroy rd a =>
    obtain ⟨g, pa, rp, k⟩ := e
    rw [k.st] at hx' ⊢
    have hne : x ≠ pa := by rintro rfl; simp [upd] at hx'
    left; dsimp only
    rw [upd_ne _ _ _ hne, upd_ne _ _ _ (ne_of_st hx k.at_.st (by simp))]
  | rttInitRipas rd base top =>
    obtain ⟨d, g, m, k⟩ := e; rw [k.st]; left; dsimp only
    rw [upd_ne _ _ _ (ne_of_st hx k.at_.rd (by simp)), upd_ne _ _ _ (ne_of_st hx k.at_.st (by simp))]
  | rttSetRipas rd q base top =>
    obtain ⟨d, g, m, k⟩ := e; rw [k.st]; left; dsimp only
    rw [upd_ne _ _ _ (ne_of_st hx k.rst (by simp)), upd_ne _ _ _ (ne_of_st hx k.at_.st (by simp))]
  | realmActivate rd =>
    have k : ActivateOk P s rd s' ret := e; rw [k.st]
    exact Or.inl (upd_ne _ _ _ (ne_of_st hx k.rd.2 (by simp)))
  | realmCreate rd pA q =>
    have k : RealmCreateOk P s rd q s' ret := e
    obtain ⟨ts, _, rfl⟩ := k.st
    left; simp only [realmCreateSt]
    rw [upd_ne _ _ _ (ne_of_st hx k.rd.2 (by simp)), if_neg]
    intro hin
    obtain ⟨j, hj, rfl⟩ := (inRange_iff ..).mp hin
    have := (k.roots j hj).2
    rw [hx] at this; cases this
  | realmDestroy rd =>
    have k : RealmDestroyOk s rd s' ret := e
    rw [k.st]; left; simp only [realmDestroySt]
    rw [upd_ne _ _ _ (ne_of_st hx k.rd (by simp)), if_neg]
    intro hin
    obtain ⟨j, hj, rfl⟩ := (inRange_iff ..).mp hin
    have := ((h.rds rd k.rd).roots j hj).1
    rw [hx] at this; cases this
  | recCreate rd rc pA q =>
    have k : RecCreateOk P s rd rc q s' ret := e
    rw [k.st]; left; simp only [recCreateSt, markAux]
    rw [upd_ne _ _ _ (ne_of_st hx k.rd (by simp)), upd_ne _ _ _ (ne_of_st hx k.recd.2 (by simp))]
  | recDestroy rc =>
    have k : RecDestroyOk s rc s' ret := e
    rw [k.st]; left; simp only [recDestroySt]
    rw [upd_ne _ _ _ (ne_of_st hx k.recd (by simp)), if_neg]
    intro hin
    have := (h.recs rc k.recd).auxSt x hin
    rw [hx] at this; cases this
  | recAuxCount rd => rw [e.1]; exact Or.inl rfl
  | psciComplete c t st =>
    have k : PsciOk P s c t st s' ret := e
    rw [k.st]; left; dsimp only
    rw [upd_ne _ _ _ (ne_of_st hx k.call.2 (by simp))]
    split
    · rw [upd_ne _ _ _ (ne_of_st hx k.tgt.2 (by simp))]
    · rfl
  | recEnter rc run acc rej =>
    obtain ⟨rfl, k⟩ := e; rw [k.st]; exact Or.inl (upd_ne _ _ _ (ne_of_st hx k.recd.2 (by simp)))
  | recRun rc stop off regs pc =>
    obtain ⟨h0, h1, _, rfl⟩ := e; exact Or.inl (upd_ne _ _ _ (ne_of_st hx h0 (by simp)))
  | psciRequest rc =>
    obtain ⟨h0, h1, _, h2, rfl⟩ := e; exact Or.inl (upd_ne _ _ _ (ne_of_st hx h0 (by simp)))
  | rsiIpaStateSet rc base top v chg =>
    obtain ⟨h0, h1, _, h5⟩ := e
    rcases h5 with rfl | ⟨_, _, _, _, _, rfl⟩ <;> exact Or.inl (upd_ne _ _ _ (ne_of_st hx h0 (by simp)))
  | psciSystemOff rc =>
    obtain ⟨h0, h1, _, rfl⟩ := e
    exact Or.inl (upd_ne _ _ _ (ne_of_st hx (h.recs rc h0).rd (by simp)))
  | rsiExtend rc i v =>
    obtain ⟨h0, h1, _, hi, hj, rfl⟩ := e
    exact Or.inl (upd_ne _ _ _ (ne_of_st hx (h.recs rc h0).rd (by simp)))
  | realmWrite rc a p =>
    obtain ⟨h0, h1, _, y, rfl, h5⟩ := e
    by_cases hy : x = y
    · subst hy
      rcases h5 with ⟨_, h6, h7, _⟩ | ⟨h6, _⟩
      · exact Or.inr ⟨rc, a, p, rfl, h0, h1, by rw [h6], h7, upd_same _ _ _⟩
      · rw [hx] at h6; cases h6
    · exact Or.inl (upd_ne _ _ _ hy)
  | auxWrite rc a p =>
    obtain ⟨_, _, _, _, h7, rfl⟩ := e; exact Or.inl (upd_ne _ _ _ (ne_of_st hx h7 (by simp)))
  | hostWrite a p => cases ht
  | el3Move a toNs => cases ht

/-- The address space a granule is in changes only by delegation, undelegation and
moves of EL3 that do not involve the Realm address space. -/
theorem Eff.pas_step {op : Op} (e : Eff P s ti di s' ret op) (x : Nat) :
    s'.pas x = s.pas x ∨
    (op = .granuleDelegate x ∧ s.pas x = .ns ∧ s'.pas x = .realm) ∨
    (op = .granuleUndelegate x ∧ s'.pas x = .ns) ∨
    (∃ b, op = .el3Move x b ∧ s.pas x ≠ .realm ∧ s'.pas x ≠ .realm) := by
  cases op with
  | granuleDelegate a =>
    obtain ⟨_, h2, h3, _, rfl⟩ := e
    by_cases hx : x = a
    · subst hx; exact Or.inr (Or.inl ⟨rfl, h3, upd_same _ _ _⟩)
    · exact Or.inl (upd_ne _ _ _ hx)
  | granuleUndelegate a =>
    obtain ⟨_, h2, _, rfl⟩ := e
    by_cases hx : x = a
    · subst hx; exact Or.inr (Or.inr (Or.inl ⟨rfl, upd_same _ _ _⟩))
    · exact Or.inl (upd_ne _ _ _ hx)
  | rttCreate rd rtt a lvl => obtain ⟨d, g, e, _, k⟩ := e; rw [k.st]; exact Or.inl rfl
  | rttFold rd a lvl => obtain ⟨d, g, c, e, _, k⟩ := e; rw [k.st]; exact Or.inl rfl
  | rttDestroy rd a lvl => obtain ⟨d, g, c, _, k⟩ := e; rw [k.st]; exact Or.inl rfl
  | rttMapUnprotected rd a lvl desc => obtain ⟨d, g, _, k⟩ := e; rw [k.st]; exact Or.inl rfl
  | rttUnmapUnprotected rd a lvl => obtain ⟨d, g, _, k⟩ := e; rw [k.st]; exact Or.inl rfl
  | rttReadEntry rd a lvl => rw [e.1]; exact Or.inl rfl
  | dataCreateUnknown rd data a => obtain ⟨g, rp, k, _, rfl⟩ := e; exact Or.inl rfl
  | dataCreate rd data a src flags => obtain ⟨g, rp, p, k, _, _, hn, hs, _, hm, rfl⟩ := e; exact Or.inl rfl
  | dataDestroy rd a => obtain ⟨g, pa, rp, k⟩ := e; rw [k.st]; exact Or.inl rfl
  | rttInitRipas rd base top => obtain ⟨d, g, m, k⟩ := e; rw [k.st]; exact Or.inl rfl
  | rttSetRipas rd q base top => obtain ⟨d, g, m, k⟩ := e; rw [k.st]; exact Or.inl rfl
  | realmActivate rd => have k : ActivateOk P s rd s' ret := e; rw [k.st]; exact Or.inl rfl
  | realmCreate rd pA q =>
    have k : RealmCreateOk P s rd q s' ret := e
    obtain ⟨ts, _, rfl⟩ := k.st; exact Or.inl rfl
  | realmDestroy rd => have k : RealmDestroyOk s rd s' ret := e; rw [k.st]; exact Or.inl rfl
  | recCreate rd rc pA q => have k : RecCreateOk P s rd rc q s' ret := e; rw [k.st]; exact Or.inl rfl
  | recDestroy rc => have k : RecDestroyOk s rc s' ret := e; rw [k.st]; exact Or.inl rfl
  | recAuxCount rd => rw [e.1]; exact Or.inl rfl
  | psciComplete c t st => have k : PsciOk P s c t st s' ret := e; rw [k.st]; exact Or.inl rfl
  | recEnter rc run acc rej => obtain ⟨rfl, k⟩ := e; rw [k.st]; exact Or.inl rfl
  | recRun rc stop off regs pc => obtain ⟨h0, h1, _, rfl⟩ := e; exact Or.inl rfl
  | psciRequest rc => obtain ⟨h0, h1, _, h2, rfl⟩ := e; exact Or.inl rfl
  | rsiIpaStateSet rc base top v chg =>
    obtain ⟨h0, h1, _, h5⟩ := e
    rcases h5 with rfl | ⟨_, _, _, _, _, rfl⟩ <;> exact Or.inl rfl
  | psciSystemOff rc => obtain ⟨h0, h1, _, rfl⟩ := e; exact Or.inl rfl
  | rsiExtend rc i v => obtain ⟨h0, h1, _, hi, hj, rfl⟩ := e; exact Or.inl rfl
  | realmWrite rc a p => obtain ⟨_, _, _, y, rfl, h5⟩ := e; exact Or.inl rfl
  | auxWrite rc a p => obtain ⟨_, _, _, _, h7, rfl⟩ := e; exact Or.inl rfl
  | hostWrite a p => obtain ⟨_, _, _, rfl⟩ := e; exact Or.inl rfl
  | el3Move a toNs =>
    obtain ⟨h0, _, rfl⟩ := e
    by_cases hx : x = a
    · subst hx
      refine Or.inr (Or.inr (Or.inr ⟨toNs, rfl, h0, ?_⟩))
      dsimp only
      rw [upd_same]; cases toNs <;> simp
    · exact Or.inl (upd_ne _ _ _ hx)

/-- Error statuses of operations that had an effect: only PSCI_COMPLETE. -/
theorem Eff.status {op : Op} (e : Eff P s ti di s' ret op) :
    ret.status = 0 ∨ ∃ c t st, op = .psciComplete c t st := by
  cases op with
  | granuleDelegate a => obtain ⟨_, _, _, rfl, _⟩ := e; exact Or.inl rfl
  | granuleUndelegate a => obtain ⟨_, _, rfl, _⟩ := e; exact Or.inl rfl
  | rttCreate rd rtt a lvl => obtain ⟨d, g, e, _, k⟩ := e; rw [k.ret]; exact Or.inl rfl
  | rttFold rd a lvl => obtain ⟨d, g, c, e, _, k⟩ := e; rw [k.ret]; exact Or.inl rfl
  | rttDestroy rd a lvl => obtain ⟨d, g, c, _, k⟩ := e; exact Or.inl k.status
  | rttMapUnprotected rd a lvl desc => obtain ⟨d, g, _, k⟩ := e; rw [k.ret]; exact Or.inl rfl
  | rttUnmapUnprotected rd a lvl => obtain ⟨d, g, _, k⟩ := e; rw [k.ret]; exact Or.inl rfl
  | rttReadEntry rd a lvl => obtain ⟨_, _, _, _, _, k⟩ := e; rw [k.ret]; exact Or.inl rfl
  | dataCreateUnknown rd data a => obtain ⟨g, rp, k, rfl, _⟩ := e; exact Or.inl rfl
  | dataCreate rd data a src flags => obtain ⟨g, rp, p, k, rfl, _⟩ := e; exact Or.inl rfl
  | dataDestroy rd a => obtain ⟨g, pa, rp, k⟩ := e; rw [k.ret]; exact Or.inl rfl
  | rttInitRipas rd base top => obtain ⟨d, g, m, k⟩ := e; rw [k.ret]; exact Or.inl rfl
  | rttSetRipas rd q base top => obtain ⟨d, g, m, k⟩ := e; exact Or.inl k.status
  | realmActivate rd => have k : ActivateOk P s rd s' ret := e; rw [k.ret]; exact Or.inl rfl
  | realmCreate rd pA q => have k : RealmCreateOk P s rd q s' ret := e; rw [k.ret]; exact Or.inl rfl
  | realmDestroy rd => have k : RealmDestroyOk s rd s' ret := e; rw [k.ret]; exact Or.inl rfl
  | recCreate rd rc pA q => have k : RecCreateOk P s rd rc q s' ret := e; rw [k.ret]; exact Or.inl rfl
  | recDestroy rc => have k : RecDestroyOk s rc s' ret := e; rw [k.ret]; exact Or.inl rfl
  | recAuxCount rd => rw [e.2.2]; exact Or.inl rfl
  | psciComplete c t st => exact Or.inr ⟨c, t, st, rfl⟩
  | recEnter rc run acc rej => obtain ⟨rfl, k⟩ := e; rw [k.ret]; exact Or.inl rfl
  | recRun rc stop off regs pc => obtain ⟨h0, h1, rfl, _⟩ := e; exact Or.inl rfl
  | psciRequest rc => obtain ⟨h0, h1, rfl, _⟩ := e; exact Or.inl rfl
  | rsiIpaStateSet rc base top v chg => obtain ⟨h0, h1, rfl, _⟩ := e; exact Or.inl rfl
  | psciSystemOff rc => obtain ⟨h0, h1, rfl, _⟩ := e; exact Or.inl rfl
  | rsiExtend rc i v => obtain ⟨h0, h1, rfl, _⟩ := e; exact Or.inl rfl
  | realmWrite rc a p => obtain ⟨h0, h1, rfl, _⟩ := e; exact Or.inl rfl
  | auxWrite rc a p => obtain ⟨h0, h1, rfl, _⟩ := e; exact Or.inl rfl
  | hostWrite a p => obtain ⟨h0, h1, rfl, _⟩ := e; exact Or.inl rfl
  | el3Move a toNs => obtain ⟨h0, rfl, _⟩ := e; exact Or.inl rfl

end
end Verif.Rmm
