import Verif.Rmm.Step

/-!
# The RMM machine: the effect of each operation

`step_eff` collects the command specifications: an operation that completes either
changed nothing or had the effect `Eff`.  `step_inv` is the invariant theorem.
-/

namespace Verif.Rmm

/-- The effect of an operation that did something. -/
def Eff (P : Plat) (s : State) (ti : Nat → TabInfo) (di : Nat → Nat × Nat) (s' : State) (ret : Ret) : Op → Prop
  | .granuleDelegate a => P.tracked a = true ∧ s.st a = .ns ∧ s.pas a = .ns ∧ ret = {} ∧
      s' = { s with
        st := upd s.st a .delegated
        mem := upd s.mem a (.page 0)
        pas := upd s.pas a .realm }
  | .granuleUndelegate a => P.tracked a = true ∧ s.st a = .delegated ∧ ret = {} ∧
      s' = { s with st := upd s.st a .ns, pas := upd s.pas a .ns }
  | .rttCreate rd rtt a lvl => ∃ (d g : Nat) (e : Entry), lvl = 3 - (d : Int) ∧
      RttCreateOk P s ti rd rtt a d g e s' ret
  | .rttFold rd a lvl => ∃ (d g c : Nat) (e : Entry), lvl = 3 - (d : Int) ∧ RttFoldOk s ti rd a d g c e s' ret
  | .rttDestroy rd a lvl => ∃ (d g c : Nat), lvl = 3 - (d : Int) ∧ RttDestroyOk s ti rd a d g c s' ret
  | .rttMapUnprotected rd a lvl desc => ∃ (d g : Nat), lvl = 3 - (d : Int) ∧ MapOk s ti rd a d g desc s' ret
  | .rttUnmapUnprotected rd a lvl => ∃ (d g : Nat), lvl = 3 - (d : Int) ∧ UnmapOk s ti rd a d g s' ret
  | .rttReadEntry rd a lvl => s' = s ∧ ∃ (tgt d g : Nat), lvl = 3 - (tgt : Int) ∧ ReadOk s ti rd a tgt d g ret
  | .dataCreateUnknown rd data a => ∃ g rp, DataOk s ti rd data a g rp ∧ ret = {} ∧
      s' = dataCreateSt s data g (idx 0 a) (tabOf s g) rp
  | .dataCreate rd data a src flags => ∃ g rp p, DataOk s ti rd data a g rp ∧ ret = {} ∧
      (flags = 0 ∨ flags = 1) ∧ (rdOf s rd).state = .new ∧ s.st src = .ns ∧ s.pas src = .ns ∧
      s.mem src = .page p ∧ s' = dataCreatedSt s rd data a g p flags
  | .dataDestroy rd a => ∃ g pa rp, DataDestroyOk s ti rd a g pa rp s' ret
  | .rttInitRipas rd base top => ∃ d g m, InitOk s ti rd base top d g m s' ret
  | .rttSetRipas rd r base top => ∃ d g m, SetOk s ti rd r base top d g m s' ret
  | .realmActivate rd => ActivateOk P s rd s' ret
  | .realmCreate rd _ q => RealmCreateOk P s rd q s' ret
  | .realmDestroy rd => RealmDestroyOk s rd s' ret
  | .recCreate rd r _ q => RecCreateOk P s rd r q s' ret
  | .recDestroy r => RecDestroyOk s r s' ret
  | .recAuxCount rd => s' = s ∧ s.st rd = .rd ∧ ret = { x1 := (rdOf s rd).numAux }
  | .psciComplete c t st => PsciOk P s c t st s' ret
  | .recEnter r run acc rej => acc = true ∧ EnterOk P s r run rej s' ret
  | .recRun r stop off regs pc => s.st r = .recd ∧ s.rc r = 1 ∧ ret = {} ∧ s' = { s with
      mem := upd s.mem r (.recd { recOf s r with
        regs := regs, pc := pc, runnable := (recOf s r).runnable && !(stop && off) })
      rc := upd s.rc r (if stop then 0 else 1) }
  | .psciRequest r => s.st r = .recd ∧ s.rc r = 1 ∧ ret = {} ∧
      ((Mpidr.el1ToIdx ((recOf s r).regs 1)).toNat < (rdOf s (recOf s r).rd).recCount ∧
        (Mpidr.el1ToIdx ((recOf s r).regs 1)).toNat ≠ (recOf s r).idx ∧
        ((isCpuOn (low32 ((recOf s r).regs 0)) = true ∧
          ((recOf s r).regs 2).toNat < (rdOf s (recOf s r).rd).parSize) ∨
         (isAffinityInfo (low32 ((recOf s r).regs 0)) = true ∧ (recOf s r).regs 2 = 0))) ∧
      s' = { s with
        mem := upd s.mem r (.recd { recOf s r with psciPending := true })
        rc := upd s.rc r 0 }
  | .rsiIpaStateSet r base top v chg => s.st r = .recd ∧ s.rc r = 1 ∧ ret = {} ∧
      ((s' = { s with mem := upd s.mem r (.recd { recOf s r with
          regs := fun i => if i = 0 then 1 else (recOf s r).regs i }) }) ∨
       (v ≠ .destroyed ∧ base % 4096 = 0 ∧ top % 4096 = 0 ∧ base < top ∧
         top ≤ (rdOf s (recOf s r).rd).parSize ∧
        s' = { s with
          mem := upd s.mem r (.recd { recOf s r with
            sr := { (recOf s r).sr with base := base, top := top, addr := base, ripas := v, chg := chg }
            regs := fun i => if i = 0 then 0 else if i = 1 then BitVec.ofNat 64 top else (recOf s r).regs i })
          rc := upd s.rc r 0 }))
  | .psciSystemOff r => s.st r = .recd ∧ s.rc r = 1 ∧ ret = {} ∧ s' = { s with
      mem := upd s.mem (recOf s r).rd (.rd { rdOf s (recOf s r).rd with state := .off })
      rc := upd s.rc r 0 }
  | .rsiExtend r i v => s.st r = .recd ∧ s.rc r = 1 ∧ ret = {} ∧ 1 ≤ i ∧ i ≤ 4 ∧ s' = { s with
      mem := upd s.mem (recOf s r).rd (.rd { rdOf s (recOf s r).rd with
        rem := upd (rdOf s (recOf s r).rd).rem i ((rdOf s (recOf s r).rd).rem i ++ [v]) }) }
  | .realmWrite r a p => s.st r = .recd ∧ s.rc r = 1 ∧ ret = {} ∧
      ∃ x, s' = { s with mem := upd s.mem x (.page p) } ∧
        ((s.st x = .data ∧ di x = ((recOf s r).rd, a / 4096 * 4096) ∧
            view s (recOf s r).rd a = some (.assigned .ram x) ∧ a < (rdOf s (recOf s r).rd).parSize) ∨
         (s.st x = .ns ∧ s.pas x = .ns ∧ (rdOf s (recOf s r).rd).parSize ≤ a ∧
            ∃ at_, view s (recOf s r).rd a = some (.assignedNs at_ x)))
  | .auxWrite r a p => s.st r = .recd ∧ s.rc r = 1 ∧ ret = {} ∧ a ∈ (recOf s r).aux ∧ s.st a = .recAux ∧
      s' = { s with mem := upd s.mem a (.page p) }
  | .hostWrite a p => s.st a = .ns ∧ s.pas a = .ns ∧ ret = {} ∧ s' = { s with mem := upd s.mem a (.page p) }
  | .el3Move a toNs => s.pas a ≠ .realm ∧ ret = {} ∧
      s' = { s with pas := upd s.pas a (if toNs then .ns else .other) }

section
variable {P : Plat} {s : State} {ti : Nat → TabInfo} {di : Nat → Nat × Nat} {rl : Nat → List Nat}

/-- What an operation that completes did: an error and no change, or its effect. -/
theorem step_eff (hP : PlatOk P) (h : InvG P s ti di rl) {op : Op} {s' : State} {ret : Ret}
    (e : step P s op = some (s', ret)) :
    (s' = s ∧ (op.rmi = true → ret.status ≠ 0)) ∨ Eff P s ti di s' ret op := by
  cases op with
  | granuleDelegate a =>
    obtain ⟨s2, r2, e2, hh⟩ := granuleDelegate_spec (P := P) (s := s) a
    rw [step, e2] at e; cases e
    exact hh.imp (fun x => ⟨x.1, fun _ => x.2⟩) id
  | granuleUndelegate a =>
    obtain ⟨s2, r2, e2, hh⟩ := granuleUndelegate_spec h a
    rw [step, e2] at e; cases e
    exact hh.imp (fun x => ⟨x.1, fun _ => x.2⟩) id
  | rttCreate rd rtt a lvl =>
    obtain ⟨s2, r2, e2, hh⟩ := rttCreate_spec h rd rtt a lvl
    rw [step, e2] at e; cases e
    exact hh.imp (fun x => ⟨x.1, fun _ => x.2⟩) id
  | rttFold rd a lvl =>
    obtain ⟨s2, r2, e2, hh⟩ := rttFold_spec h rd a lvl
    rw [step, e2] at e; cases e
    exact hh.imp (fun x => ⟨x.1, fun _ => x.2⟩) id
  | rttDestroy rd a lvl =>
    obtain ⟨s2, r2, e2, hh⟩ := rttDestroy_spec h rd a lvl
    rw [step, e2] at e; cases e
    exact hh.imp (fun x => ⟨x.1, fun _ => x.2⟩) id
  | rttMapUnprotected rd a lvl desc =>
    by_cases hlv : s.st rd = .rd ∧ lvl < 3 - ((rdOf s rd).d0 : Int)
    · obtain ⟨h1, h2⟩ := rttMapUnprotected_above h hlv.1 hlv.2 e
      exact Or.inl ⟨h1, fun _ => h2⟩
    · obtain ⟨s2, r2, e2, hh⟩ := rttMapUnprotected_spec h rd a lvl desc (fun hr => by
        by_contra hx; exact hlv ⟨hr, by omega⟩)
      rw [step, e2] at e; cases e
      exact hh.imp (fun x => ⟨x.1, fun _ => x.2⟩) id
  | rttUnmapUnprotected rd a lvl =>
    by_cases hlv : s.st rd = .rd ∧ lvl < 3 - ((rdOf s rd).d0 : Int)
    · obtain ⟨h1, h2⟩ := rttUnmapUnprotected_above h hlv.1 hlv.2 e
      exact Or.inl ⟨h1, fun _ => h2⟩
    · obtain ⟨s2, r2, e2, hh⟩ := rttUnmapUnprotected_spec h rd a lvl (fun hr => by
        by_contra hx; exact hlv ⟨hr, by omega⟩)
      rw [step, e2] at e; cases e
      exact hh.imp (fun x => ⟨x.1, fun _ => x.2⟩) id
  | rttReadEntry rd a lvl =>
    obtain ⟨r2, e2, hh⟩ := rttReadEntry_spec h rd a lvl
    rw [step, e2] at e; cases e
    exact hh.imp (fun x => ⟨rfl, fun _ => x⟩) (fun x => ⟨rfl, x⟩)
  | dataCreateUnknown rd data a =>
    obtain ⟨s2, r2, e2, hh⟩ := dataCreateUnknown_spec h rd data a
    rw [step, e2] at e; cases e
    exact hh.imp (fun x => ⟨x.1, fun _ => x.2⟩) id
  | dataCreate rd data a src flags =>
    obtain ⟨s2, r2, e2, hh⟩ := dataCreate_spec h rd data a src flags
    rw [step, e2] at e; cases e
    exact hh.imp (fun x => ⟨x.1, fun _ => x.2⟩) id
  | dataDestroy rd a =>
    obtain ⟨s2, r2, e2, hh⟩ := dataDestroy_spec h rd a
    rw [step, e2] at e; cases e
    exact hh.imp (fun x => ⟨x.1, fun _ => x.2⟩) id
  | rttInitRipas rd base top =>
    obtain ⟨s2, r2, e2, hh⟩ := rttInitRipas_spec h rd base top
    rw [step, e2] at e; cases e
    exact hh.imp (fun x => ⟨x.1, fun _ => x.2⟩) id
  | rttSetRipas rd r base top =>
    obtain ⟨s2, r2, e2, hh⟩ := rttSetRipas_spec h rd r base top
    rw [step, e2] at e; cases e
    exact hh.imp (fun x => ⟨x.1, fun _ => x.2⟩) id
  | realmActivate rd =>
    obtain ⟨s2, r2, e2, hh⟩ := realmActivate_spec h rd
    rw [step, e2] at e; cases e
    exact hh.imp (fun x => ⟨x.1, fun _ => x.2⟩) id
  | realmCreate rd pA q =>
    obtain ⟨s2, r2, e2, hh⟩ := realmCreate_spec hP rd pA q
    rw [step, e2] at e; cases e
    exact hh.imp (fun x => ⟨x.1, fun _ => x.2⟩) id
  | realmDestroy rd =>
    obtain ⟨s2, r2, e2, hh⟩ := realmDestroy_spec h rd
    rw [step, e2] at e; cases e
    exact hh.imp (fun x => ⟨x.1, fun _ => x.2⟩) id
  | recCreate rd r pA q =>
    rcases recCreate_spec h rd r pA q with ⟨e2, _⟩ | ⟨s2, r2, e2, hh⟩
    · rw [step, e2] at e; cases e
    · rw [step, e2] at e; cases e
      exact hh.imp (fun x => ⟨x.1, fun _ => x.2⟩) id
  | recDestroy r =>
    obtain ⟨s2, r2, e2, hh⟩ := recDestroy_spec h r
    rw [step, e2] at e; cases e
    exact hh.imp (fun x => ⟨x.1, fun _ => x.2⟩) id
  | recAuxCount rd =>
    rw [step, recAuxCount] at e
    by_cases h1 : lk P s rd .rd = true
    · have hrd := ((lk_iff ..).mp h1).2
      rw [if_pos h1, getRd_eq h hrd] at e
      cases e
      exact Or.inr ⟨rfl, hrd, rfl⟩
    · rw [if_neg h1] at e; cases e
      exact Or.inl ⟨rfl, fun _ => by decide⟩
  | psciComplete c t st =>
    rcases psciComplete_spec h c t st with ⟨e2, _⟩ | ⟨s2, r2, e2, hh⟩
    · rw [step, e2] at e; cases e
    · rw [step, e2] at e; cases e
      exact hh.imp (fun x => ⟨x.1, fun _ => x.2⟩) id
  | recEnter r run acc rej =>
    obtain ⟨s2, r2, e2, hh⟩ := recEnter_spec h r run acc rej
    rw [step, e2] at e; cases e
    exact hh.imp (fun x => ⟨x.1, fun _ => x.2⟩) id
  | recRun r stop off regs pc =>
    obtain ⟨s2, r2, e2, h0, hh⟩ := recRun_spec h r stop off regs pc
    rw [step, e2] at e; cases e
    exact hh.imp (fun x => ⟨x, fun y => by cases y⟩) (fun x => ⟨x.1, x.2.1, h0, x.2.2⟩)
  | psciRequest r =>
    obtain ⟨s2, r2, e2, h0, hh⟩ := psciRequest_spec h r
    rw [step, e2] at e; cases e
    exact hh.imp (fun x => ⟨x, fun y => by cases y⟩) (fun x => ⟨x.1, x.2.1, h0, x.2.2⟩)
  | rsiIpaStateSet r base top v chg =>
    obtain ⟨s2, r2, e2, h0, hh⟩ := rsiIpaStateSet_spec h r base top v chg
    rw [step, e2] at e; cases e
    exact hh.imp (fun x => ⟨x, fun y => by cases y⟩) (fun x => ⟨x.1, x.2.1, h0, x.2.2⟩)
  | psciSystemOff r =>
    obtain ⟨s2, r2, e2, h0, hh⟩ := psciSystemOff_spec h r
    rw [step, e2] at e; cases e
    exact hh.imp (fun x => ⟨x, fun y => by cases y⟩) (fun x => ⟨x.1, x.2.1, h0, x.2.2⟩)
  | rsiExtend r i v =>
    obtain ⟨s2, r2, e2, h0, hh⟩ := rsiExtend_spec h r i v
    rw [step, e2] at e; cases e
    exact hh.imp (fun x => ⟨x, fun y => by cases y⟩) (fun x => ⟨x.1, x.2.1, h0, x.2.2⟩)
  | realmWrite r a p =>
    obtain ⟨s2, r2, e2, h0, hh⟩ := realmWrite_spec h r a p
    rw [step, e2] at e; cases e
    exact hh.imp (fun x => ⟨x, fun y => by cases y⟩) (fun x => ⟨x.1, x.2.1, h0, x.2.2⟩)
  | auxWrite r a p =>
    obtain ⟨s2, r2, e2, h0, hh⟩ := auxWrite_spec h r a p
    rw [step, e2] at e; cases e
    exact hh.imp (fun x => ⟨x, fun y => by cases y⟩) (fun x => ⟨x.1, x.2.1, h0, x.2.2⟩)
  | hostWrite a p =>
    obtain ⟨s2, r2, e2, h0, hh⟩ := hostWrite_spec h a p
    rw [step, e2] at e; cases e
    exact hh.imp (fun x => ⟨x, fun y => by cases y⟩) (fun x => ⟨x.1, x.2.1, h0, x.2.2⟩)
  | el3Move a toNs =>
    rw [step, el3Move] at e
    split at e
    · cases e; exact Or.inl ⟨rfl, fun y => by cases y⟩
    · rename_i h1; cases e; exact Or.inr ⟨h1, rfl, rfl⟩

/-- The effect keeps the invariant, and the ghost data of granules that were there
before stays. -/
theorem Eff.inv (hP : PlatOk P) (h : InvG P s ti di rl) {op : Op} {s' : State} {ret : Ret}
    (e : step P s op = some (s', ret)) (k : Eff P s ti di s' ret op) :
    ∃ ti' di' rl', InvG P s' ti' di' rl' ∧ (∀ g, s.st g = .rtt → ti' g = ti g) ∧
      (∀ x, s.st x = .data → di' x = di x) := by
  have same : InvG P s' ti di rl → ∃ ti' di' rl', InvG P s' ti' di' rl' ∧ (∀ g, s.st g = .rtt → ti' g = ti g) ∧
      (∀ x, s.st x = .data → di' x = di x) := fun i => ⟨ti, di, rl, i, fun _ _ => rfl, fun _ _ => rfl⟩
  cases op with
  | granuleDelegate a =>
    obtain ⟨h1, h2, _, _, rfl⟩ := k
    exact same (inv_delegate h h1 h2)
  | granuleUndelegate a =>
    obtain ⟨h1, h2, _, rfl⟩ := k
    exact same (inv_undelegate h h1 h2)
  | rttCreate rd rtt a lvl =>
    obtain ⟨d, g, en, _, k⟩ := k
    refine ⟨_, _, _, k.inv h, ?_, fun _ _ => rfl⟩
    intro x hx
    exact upd_ne _ _ _ (ne_of_st hx k.del (by simp))
  | rttFold rd a lvl => obtain ⟨d, g, c, en, _, k⟩ := k; exact same (k.inv h)
  | rttDestroy rd a lvl => obtain ⟨d, g, c, _, k⟩ := k; exact same (k.inv h)
  | rttMapUnprotected rd a lvl desc => obtain ⟨d, g, _, k⟩ := k; exact same (k.inv h)
  | rttUnmapUnprotected rd a lvl => obtain ⟨d, g, _, k⟩ := k; exact same (k.inv h)
  | rttReadEntry rd a lvl => obtain ⟨rfl, _⟩ := k; exact same h
  | dataCreateUnknown rd data a =>
    obtain ⟨g, rp, k, _, rfl⟩ := k
    refine ⟨_, _, _, inv_dataCreateUnknown hP h k, fun _ _ => rfl, ?_⟩
    intro x hx
    exact upd_ne _ _ _ (ne_of_st hx k.del (by simp))
  | dataCreate rd data a src flags =>
    obtain ⟨g, rp, p, k, _, _, _, _, _, _, rfl⟩ := k
    refine ⟨_, _, _, inv_dataCreate hP h k, fun _ _ => rfl, ?_⟩
    intro x hx
    exact upd_ne _ _ _ (ne_of_st hx k.del (by simp))
  | dataDestroy rd a => obtain ⟨g, pa, rp, k⟩ := k; exact same (k.inv h)
  | rttInitRipas rd base top => obtain ⟨d, g, m, k⟩ := k; exact same (k.inv h)
  | rttSetRipas rd r base top => obtain ⟨d, g, m, k⟩ := k; exact same (k.inv h)
  | realmActivate rd => exact same (ActivateOk.inv h k)
  | realmCreate rd pA q =>
    have k : RealmCreateOk P s rd q s' ret := k
    refine ⟨_, _, _, k.inv h, ?_, fun _ _ => rfl⟩
    intro x hx
    unfold realmTi
    rw [if_neg]
    intro hr
    rw [inRange_iff] at hr
    obtain ⟨j, hj, rfl⟩ := hr
    rw [(k.roots j hj).2] at hx
    simp at hx
  | realmDestroy rd => exact same (RealmDestroyOk.inv h k)
  | recCreate rd r pA q =>
    have k : RecCreateOk P s rd r q s' ret := k
    exact ⟨_, _, _, k.inv h, fun _ _ => rfl, fun _ _ => rfl⟩
  | recDestroy r =>
    have k : RecDestroyOk s r s' ret := k
    exact ⟨_, _, _, k.inv h, fun _ _ => rfl, fun _ _ => rfl⟩
  | recAuxCount rd => obtain ⟨rfl, _⟩ := k; exact same h
  | psciComplete c t st => exact same (PsciOk.inv h k)
  | recEnter r run acc rej => exact same (EnterOk.inv h k.2)
  | recRun r stop off regs pc => exact same (recRun_inv h e)
  | psciRequest r => exact same (psciRequest_inv h e)
  | rsiIpaStateSet r base top v chg => exact same (rsiIpaStateSet_inv h e)
  | psciSystemOff r => exact same (psciSystemOff_inv h e)
  | rsiExtend r i v => exact same (rsiExtend_inv h e)
  | realmWrite r a p => exact same (realmWrite_inv h e)
  | auxWrite r a p => exact same (auxWrite_inv h e)
  | hostWrite a p => exact same (hostWrite_inv h e)
  | el3Move a toNs => exact same (el3Move_inv h e)

/-- The invariant is kept by every operation. -/
theorem step_inv (hP : PlatOk P) {op : Op} {s' : State} {ret : Ret} (h : Inv P s)
    (e : step P s op = some (s', ret)) : Inv P s' := by
  obtain ⟨ti, di, rl, h⟩ := h
  rcases step_eff hP h e with ⟨rfl, _⟩ | k
  · exact ⟨ti, di, rl, h⟩
  · obtain ⟨ti', di', rl', h', _⟩ := k.inv hP h e
    exact ⟨ti', di', rl', h'⟩

theorem Reach.inv (hP : PlatOk P) {s : State} (h : Reach P s) : Inv P s := by
  induction h with
  | init h => exact h.inv
  | step _ e ih => exact step_inv hP ih e

end

end Verif.Rmm
