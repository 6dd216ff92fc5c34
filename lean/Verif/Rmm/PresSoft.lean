import Verif.Rmm.PresRec

/-!
# Commands and steps that move no granule: what they do, and the invariant

REALM_ACTIVATE, PSCI_COMPLETE, REC_ENTER, the realm's own steps, and the steps of the
rest of the system.
-/

namespace Verif.Rmm

variable {P : Plat} {s : State} {ti : Nat → TabInfo} {di : Nat → Nat × Nat} {rl : Nat → List Nat}

theorem getRd_eq' (h : InvG P s ti di rl) {a : Nat} (ha : s.st a = .rd) : getRd s a = some (rdOf s a) :=
  getRd_of_mem (h.rds a ha).mem

theorem getRec_eq' (h : InvG P s ti di rl) {a : Nat} (ha : s.st a = .recd) :
    getRec s a = some (recOf s a) := getRec_of_mem (h.recs a ha).mem

/-! ## REALM_ACTIVATE -/

structure ActivateOk (P : Plat) (s : State) (rdA : Nat) (s' : State) (ret : Ret) : Prop where
  rd : P.tracked rdA = true ∧ s.st rdA = .rd
  new : (rdOf s rdA).state = .new
  st : s' = { s with mem := upd s.mem rdA (.rd { rdOf s rdA with state := .active }) }
  ret : ret = {}

theorem realmActivate_spec (h : InvG P s ti di rl) (rdA : Nat) :
    ∃ s' ret, realmActivate P s rdA = some (s', ret) ∧
      ((s' = s ∧ ret.status ≠ 0) ∨ ActivateOk P s rdA s' ret) := by
  unfold realmActivate
  by_cases h1 : lk P s rdA .rd = true
  swap
  · rw [if_neg h1]; exact ⟨_, _, rfl, Or.inl ⟨rfl, by decide⟩⟩
  rw [if_pos h1]
  obtain ⟨ht, hst⟩ := (lk_iff ..).mp h1
  rw [getRd_eq' h hst]
  dsimp only
  by_cases h2 : (rdOf s rdA).state = .new
  · rw [if_pos h2]
    exact ⟨_, _, rfl, Or.inr ⟨⟨ht, hst⟩, h2, rfl, rfl⟩⟩
  · rw [if_neg h2]; exact ⟨_, _, rfl, Or.inl ⟨rfl, by decide⟩⟩

theorem ActivateOk.inv (h : InvG P s ti di rl) {rdA s' ret} (k : ActivateOk P s rdA s' ret) :
    InvG P s' ti di rl := by
  rw [k.st]
  exact inv_rd h rdA _ k.rd.2 ⟨rfl, rfl, rfl, rfl, rfl, rfl, rfl⟩ (Nat.le_refl _) (fun e => by cases e)

/-! ## PSCI_COMPLETE -/

/-- The answer PSCI_COMPLETE gives to the caller, as a function of the request, the
host's status and whether the target is on. -/
def psciAnswer (fid status : BitVec 64) (on : Bool) : BitVec 64 :=
  if isCpuOn fid then
    if on then psciAlreadyOn else if status = psciDenied then psciDenied else psciSuccess
  else if on then 0 else 1

/-- The target after a successful CPU_ON. -/
def psciTarget (c t : Rec) : Rec :=
  { t with regs := fun i => if i = 0 then c.regs 3 else t.regs i, pc := c.regs 2, runnable := true }

/-- Whether CPU_ON turns the target on. -/
def psciTurnsOn (c t : Rec) (status : BitVec 64) (rcT : Nat) : Bool :=
  isCpuOn (c.regs 0) && decide (status = psciSuccess) && decide (rcT = 0) && !t.runnable

structure PsciOk (P : Plat) (s : State) (callA tgtA : Nat) (status : BitVec 64) (s' : State) (ret : Ret) :
    Prop where
  ne : callA ≠ tgtA
  call : P.tracked callA = true ∧ s.st callA = .recd
  tgt : P.tracked tgtA = true ∧ s.st tgtA = .recd
  rc : s.rc callA = 0
  pend : (recOf s callA).psciPending = true
  same : (recOf s callA).rd = (recOf s tgtA).rd
  idx : (Mpidr.el1ToIdx ((recOf s callA).regs 1)).toNat = (recOf s tgtA).idx
  fid : isCpuOn ((recOf s callA).regs 0) = true ∧ (status = psciSuccess ∨ status = psciDenied) ∨
    isCpuOn ((recOf s callA).regs 0) = false ∧
      isAffinityInfo ((recOf s callA).regs 0) = true ∧ status = psciSuccess
  st : s' = { s with
    mem := upd (if psciTurnsOn (recOf s callA) (recOf s tgtA) status (s.rc tgtA)
      then upd s.mem tgtA (.recd (psciTarget (recOf s callA) (recOf s tgtA))) else s.mem) callA
      (.recd (psciResult (recOf s callA) (psciAnswer ((recOf s callA).regs 0) status
        (decide (s.rc tgtA ≠ 0) || (recOf s tgtA).runnable)))) }
  ret : ret = if isCpuOn ((recOf s callA).regs 0) ∧ status = psciDenied ∧
      (s.rc tgtA ≠ 0 ∨ (recOf s tgtA).runnable = true) then errInput else {}

theorem psciComplete_spec (h : InvG P s ti di rl) (callA tgtA : Nat) (status : BitVec 64) :
    (psciComplete P s callA tgtA status = none ∧ s.st callA = .recd ∧
      (recOf s callA).psciPending = true ∧ s.rc callA = 0 ∧
      isCpuOn ((recOf s callA).regs 0) = false ∧ isAffinityInfo ((recOf s callA).regs 0) = false) ∨
    ∃ s' ret, psciComplete P s callA tgtA status = some (s', ret) ∧
      ((s' = s ∧ ret.status ≠ 0) ∨ PsciOk P s callA tgtA status s' ret) := by
  unfold psciComplete
  by_cases h1 : callA ≠ tgtA ∧ lk P s callA .recd = true ∧ lk P s tgtA .recd = true
  swap
  · rw [if_neg h1]; exact Or.inr ⟨_, _, rfl, Or.inl ⟨rfl, by decide⟩⟩
  rw [if_pos h1]
  obtain ⟨hne, hl1, hl2⟩ := h1
  obtain ⟨ht1, hs1⟩ := (lk_iff ..).mp hl1
  obtain ⟨ht2, hs2⟩ := (lk_iff ..).mp hl2
  by_cases h2 : s.rc callA ≠ 0
  · rw [if_pos h2]; exact Or.inr ⟨_, _, rfl, Or.inl ⟨rfl, by decide⟩⟩
  rw [if_neg h2, getRec_eq' h hs1, getRec_eq' h hs2]
  dsimp only
  by_cases h3 : (recOf s callA).psciPending = false
  · rw [if_pos h3]; exact Or.inr ⟨_, _, rfl, Or.inl ⟨rfl, by decide⟩⟩
  rw [if_neg h3]
  have h3' : (recOf s callA).psciPending = true := by simpa using h3
  by_cases h4 : (recOf s callA).rd ≠ (recOf s tgtA).rd
  · rw [if_pos h4]; exact Or.inr ⟨_, _, rfl, Or.inl ⟨rfl, by decide⟩⟩
  rw [if_neg h4]
  by_cases h5 : (Mpidr.el1ToIdx ((recOf s callA).regs 1)).toNat ≠ (recOf s tgtA).idx
  · rw [if_pos h5]; exact Or.inr ⟨_, _, rfl, Or.inl ⟨rfl, by decide⟩⟩
  rw [if_neg h5]
  have h4' := not_not.mp h4
  have h5' := not_not.mp h5
  have h2' := not_not.mp h2
  have hsd : psciSuccess ≠ psciDenied := by decide
  by_cases h6 : isCpuOn ((recOf s callA).regs 0) = true
  · rw [if_pos h6]
    by_cases h7 : status ≠ psciSuccess ∧ status ≠ psciDenied
    · rw [if_pos h7]; exact Or.inr ⟨_, _, rfl, Or.inl ⟨rfl, by decide⟩⟩
    rw [if_neg h7]
    have h7' : status = psciSuccess ∨ status = psciDenied := by
      by_contra hh; exact h7 ⟨fun e => hh (Or.inl e), fun e => hh (Or.inr e)⟩
    by_cases h8 : s.rc tgtA ≠ 0 ∨ (recOf s tgtA).runnable = true
    · rw [if_pos h8]
      have hon : (decide (s.rc tgtA ≠ 0) || (recOf s tgtA).runnable) = true := by
        simpa using h8
      have hto : psciTurnsOn (recOf s callA) (recOf s tgtA) status (s.rc tgtA) = false := by
        unfold psciTurnsOn
        rcases h8 with h8 | h8
        · simp [h8]
        · simp [h8]
      refine Or.inr ⟨_, _, rfl, Or.inr ⟨hne, ⟨ht1, hs1⟩, ⟨ht2, hs2⟩, h2', h3', h4', h5', Or.inl ⟨h6, h7'⟩, ?_, ?_⟩⟩
      · rw [hto, hon]
        unfold psciAnswer
        rw [if_pos h6, if_pos rfl]
        rfl
      · by_cases h9 : status = psciDenied
        · rw [if_pos h9, if_pos ⟨h6, h9, h8⟩]
        · rw [if_neg h9, if_neg (fun hh => h9 hh.2.1)]
    · rw [if_neg h8]
      have hon : (decide (s.rc tgtA ≠ 0) || (recOf s tgtA).runnable) = false := by
        simp only [not_or, not_not, Bool.not_eq_true] at h8
        simp [h8.1, h8.2]
      have hrt : s.rc tgtA = 0 ∧ (recOf s tgtA).runnable = false := by
        simp only [not_or, not_not, Bool.not_eq_true] at h8
        exact h8
      by_cases h9 : status = psciDenied
      · rw [if_pos h9]
        have hto : psciTurnsOn (recOf s callA) (recOf s tgtA) status (s.rc tgtA) = false := by
          unfold psciTurnsOn
          rw [h9, decide_eq_false (fun e => hsd e.symm)]
          simp
        refine Or.inr ⟨_, _, rfl, Or.inr ⟨hne, ⟨ht1, hs1⟩, ⟨ht2, hs2⟩, h2', h3', h4', h5', Or.inl ⟨h6, h7'⟩, ?_, ?_⟩⟩
        · rw [hto, hon]
          unfold psciAnswer
          rw [if_pos h6, if_pos h9]
          rfl
        · rw [if_neg (fun hh => h8 hh.2.2)]
      · rw [if_neg h9]
        have h9' : status = psciSuccess := by
          rcases h7' with e | e
          · exact e
          · exact absurd e h9
        have hto : psciTurnsOn (recOf s callA) (recOf s tgtA) status (s.rc tgtA) = true := by
          unfold psciTurnsOn
          rw [h6, h9', hrt.1, hrt.2]; rfl
        refine Or.inr ⟨_, _, rfl, Or.inr ⟨hne, ⟨ht1, hs1⟩, ⟨ht2, hs2⟩, h2', h3', h4', h5', Or.inl ⟨h6, h7'⟩, ?_, ?_⟩⟩
        · rw [hto, hon]
          unfold psciAnswer
          rw [if_pos h6, if_neg h9]
          rfl
        · rw [if_neg (fun hh => h8 hh.2.2)]
  · rw [if_neg h6]
    have h6' : isCpuOn ((recOf s callA).regs 0) = false := by simpa using h6
    by_cases h7 : isAffinityInfo ((recOf s callA).regs 0) = true
    · rw [if_pos h7]
      by_cases h8 : status ≠ psciSuccess
      · rw [if_pos h8]; exact Or.inr ⟨_, _, rfl, Or.inl ⟨rfl, by decide⟩⟩
      rw [if_neg h8]
      have hto : psciTurnsOn (recOf s callA) (recOf s tgtA) status (s.rc tgtA) = false := by
        unfold psciTurnsOn; rw [h6']; rfl
      refine Or.inr ⟨_, _, rfl, Or.inr ⟨hne, ⟨ht1, hs1⟩, ⟨ht2, hs2⟩, h2', h3', h4', h5',
        Or.inr ⟨h6', h7, not_not.mp h8⟩, ?_, ?_⟩⟩
      · rw [hto, if_neg Bool.false_ne_true]
        unfold psciAnswer
        rw [if_neg h6]
        by_cases h9 : s.rc tgtA ≠ 0 ∨ (recOf s tgtA).runnable = true
        · rw [if_pos h9, if_pos (by simpa using h9)]
        · rw [if_neg h9, if_neg (by simpa using h9)]
      · rw [if_neg (fun hh => h6 hh.1)]
    · rw [if_neg h7]
      exact Or.inl ⟨rfl, hs1, h3', h2', h6', by simpa using h7⟩

/-- A REC keeps what ties it to the realm; its refcount does not change. -/
theorem inv_rec_same (h : InvG P s ti di rl) (a : Nat) (c : Rec) (ha : s.st a = .recd)
    (h1 : c.rd = (recOf s a).rd) (h2 : c.idx = (recOf s a).idx)
    (h3 : c.aux = (recOf s a).aux) (h4 : SrOk (rdOf s (recOf s a).rd) c.sr) :
    InvG P { s with mem := upd s.mem a (.recd c) } ti di rl := by
  have := inv_rec h a c (s.rc a) ha h1 h2 h3 h4 (h.recs a ha).rc (fun e1 e2 => absurd e1 e2)
  rw [upd_self] at this
  exact this

theorem recOf_upd_ne (s : State) {a b : Nat} (v : Content) (m : Nat → Nat) (hne : b ≠ a) :
    recOf { s with mem := upd s.mem a v, rc := m } b = recOf s b := by
  have e : (upd s.mem a v) b = s.mem b := upd_ne s.mem a v hne
  unfold recOf getRec
  simp only [e]

theorem PsciOk.inv (h : InvG P s ti di rl) {callA tgtA status s' ret}
    (k : PsciOk P s callA tgtA status s' ret) : InvG P s' ti di rl := by
  rw [k.st]
  by_cases hto : psciTurnsOn (recOf s callA) (recOf s tgtA) status (s.rc tgtA) = true
  · rw [if_pos hto]
    have i1 := inv_rec_same h tgtA (psciTarget (recOf s callA) (recOf s tgtA)) k.tgt.2 rfl rfl rfl
      (h.recs _ k.tgt.2).sr
    have e : recOf { s with mem := upd s.mem tgtA (.recd (psciTarget (recOf s callA) (recOf s tgtA))) } callA
        = recOf s callA := recOf_upd_ne s _ _ k.ne
    have := inv_rec_same i1 callA (psciResult (recOf s callA) (psciAnswer ((recOf s callA).regs 0) status
      (decide (s.rc tgtA ≠ 0) || (recOf s tgtA).runnable))) k.call.2 (by rw [e]; rfl) (by rw [e]; rfl)
      (by rw [e]; rfl) (by have := (i1.recs callA k.call.2).sr; rw [e] at this; rw [e]; exact this)
    exact this
  · rw [if_neg hto]
    exact inv_rec_same h callA _ k.call.2 rfl rfl rfl (h.recs _ k.call.2).sr

/-! ## REC_ENTER -/

structure EnterOk (P : Plat) (s : State) (recA runA : Nat) (reject : Bool) (s' : State) (ret : Ret) :
    Prop where
  run : P.tracked runA = true ∧ s.st runA = .ns ∧ s.pas runA = .ns
  recd : P.tracked recA = true ∧ s.st recA = .recd
  rc : s.rc recA = 0
  active : (rdOf s (recOf s recA).rd).state = .active
  runnable : (recOf s recA).runnable = true
  pend : (recOf s recA).psciPending = false
  st : s' = { s with
    rc := upd s.rc recA 1
    mem := upd s.mem recA (.recd (completeSetRipas
      { recOf s recA with sr := { (recOf s recA).sr with reject := reject } })) }
  ret : ret = {}

theorem recEnter_spec (h : InvG P s ti di rl) (recA runA : Nat) (accepted reject : Bool) :
    ∃ s' ret, recEnter P s recA runA accepted reject = some (s', ret) ∧
      ((s' = s ∧ ret.status ≠ 0) ∨ (accepted = true ∧ EnterOk P s recA runA reject s' ret)) := by
  unfold recEnter
  by_cases h1 : lk P s runA .ns = true
  swap
  · rw [if_neg h1]; exact ⟨_, _, rfl, Or.inl ⟨rfl, by decide⟩⟩
  rw [if_pos h1]
  by_cases h2 : lk P s recA .recd = true
  swap
  · rw [if_neg h2]; exact ⟨_, _, rfl, Or.inl ⟨rfl, by decide⟩⟩
  rw [if_pos h2]
  obtain ⟨ht1, hs1⟩ := (lk_iff ..).mp h1
  obtain ⟨ht2, hs2⟩ := (lk_iff ..).mp h2
  by_cases h3 : s.rc recA ≠ 0
  · rw [if_pos h3]; exact ⟨_, _, rfl, Or.inl ⟨rfl, by decide⟩⟩
  rw [if_neg h3]
  by_cases h4 : s.pas runA ≠ .ns
  · rw [if_pos h4]; exact ⟨_, _, rfl, Or.inl ⟨rfl, by decide⟩⟩
  rw [if_neg h4, getRec_eq' h hs2]
  dsimp only
  rw [getRd_eq' h (h.recs _ hs2).rd]
  dsimp only
  cases hst : (rdOf s (recOf s recA).rd).state with
  | new => exact ⟨_, _, rfl, Or.inl ⟨rfl, by decide⟩⟩
  | off => exact ⟨_, _, rfl, Or.inl ⟨rfl, by decide⟩⟩
  | active =>
    dsimp only
    by_cases h5 : (recOf s recA).runnable = false
    · rw [if_pos h5]; exact ⟨_, _, rfl, Or.inl ⟨rfl, by decide⟩⟩
    rw [if_neg h5]
    by_cases h6 : (recOf s recA).psciPending = true
    · rw [if_pos h6]; exact ⟨_, _, rfl, Or.inl ⟨rfl, by decide⟩⟩
    rw [if_neg h6]
    by_cases h7 : accepted = false
    · rw [if_pos h7]; exact ⟨_, _, rfl, Or.inl ⟨rfl, by decide⟩⟩
    rw [if_neg h7]
    exact ⟨_, _, rfl, Or.inr ⟨by simpa using h7, ⟨ht1, hs1, not_not.mp h4⟩, ⟨ht2, hs2⟩, not_not.mp h3, hst,
      by simpa using h5, by simpa using h6, rfl, rfl⟩⟩

theorem completeSetRipas_same (c : Rec) :
    (completeSetRipas c).rd = c.rd ∧ (completeSetRipas c).idx = c.idx ∧ (completeSetRipas c).aux = c.aux ∧
    (completeSetRipas c).runnable = c.runnable ∧ (completeSetRipas c).psciPending = c.psciPending := by
  unfold completeSetRipas
  split <;> exact ⟨rfl, rfl, rfl, rfl, rfl⟩

theorem completeSetRipas_sr {r : Rd} {c : Rec} (h : SrOk r c.sr) : SrOk r (completeSetRipas c).sr := by
  unfold completeSetRipas
  split
  · exact h
  · exact ⟨⟨h.al.1, Nat.zero_mod _⟩, fun e => absurd rfl e, Nat.zero_le _, h.ripas⟩

theorem EnterOk.inv (h : InvG P s ti di rl) {recA runA reject s' ret}
    (k : EnterOk P s recA runA reject s' ret) : InvG P s' ti di rl := by
  rw [k.st]
  have hc := completeSetRipas_same { recOf s recA with sr := { (recOf s recA).sr with reject := reject } }
  have hs := (h.recs _ k.recd.2).sr
  refine inv_rec h recA _ 1 k.recd.2 hc.1 hc.2.1 hc.2.2.1 (completeSetRipas_sr ?_) (Nat.le_refl _) ?_
  · exact ⟨hs.al, hs.le, hs.par, hs.ripas⟩
  · intro _ _; rw [k.active]; intro e; cases e

/-! ## Steps of a running realm -/

theorem recRun_spec (h : InvG P s ti di rl) (recA : Nat) (stop off : Bool) (regs : Nat → BitVec 64)
    (pc : BitVec 64) :
    ∃ s' ret, recRun s recA stop off regs pc = some (s', ret) ∧ ret = {} ∧
      (s' = s ∨ (s.st recA = .recd ∧ s.rc recA = 1 ∧ s' = { s with
        mem := upd s.mem recA (.recd { recOf s recA with
          regs := regs, pc := pc, runnable := (recOf s recA).runnable && !(stop && off) })
        rc := upd s.rc recA (if stop then 0 else 1) })) := by
  unfold recRun
  by_cases h1 : s.st recA = .recd ∧ s.rc recA = 1
  swap
  · rw [if_neg h1]; exact ⟨_, _, rfl, rfl, Or.inl rfl⟩
  rw [if_pos h1, getRec_eq' h h1.1]
  refine ⟨_, _, rfl, rfl, Or.inr ⟨h1.1, h1.2, ?_⟩⟩
  cases stop with
  | true => rfl
  | false =>
    have : upd s.rc recA 1 = s.rc := by rw [← h1.2, upd_self]
    simp only [this, Bool.false_eq_true, if_false]

theorem inv_recRun (h : InvG P s ti di rl) {recA : Nat} {c : Rec} {stop : Bool}
    (hs : s.st recA = .recd) (hr : s.rc recA = 1) (h1 : c.rd = (recOf s recA).rd)
    (h2 : c.idx = (recOf s recA).idx) (h3 : c.aux = (recOf s recA).aux)
    (h4 : SrOk (rdOf s (recOf s recA).rd) c.sr) :
    InvG P { s with mem := upd s.mem recA (.recd c), rc := upd s.rc recA (if stop then 0 else 1) } ti di rl := by
  refine inv_rec h recA c _ hs h1 h2 h3 h4 ?_ (fun _ hh => absurd hr hh)
  split <;> omega

theorem psciRequest_spec (h : InvG P s ti di rl) (recA : Nat) :
    ∃ s' ret, psciRequest s recA = some (s', ret) ∧ ret = {} ∧
      (s' = s ∨ (s.st recA = .recd ∧ s.rc recA = 1 ∧
        ((Mpidr.el1ToIdx ((recOf s recA).regs 1)).toNat < (rdOf s (recOf s recA).rd).recCount ∧
          (Mpidr.el1ToIdx ((recOf s recA).regs 1)).toNat ≠ (recOf s recA).idx ∧
          ((isCpuOn (low32 ((recOf s recA).regs 0)) = true ∧
            ((recOf s recA).regs 2).toNat < (rdOf s (recOf s recA).rd).parSize) ∨
           (isAffinityInfo (low32 ((recOf s recA).regs 0)) = true ∧ (recOf s recA).regs 2 = 0))) ∧
        s' = { s with
          mem := upd s.mem recA (.recd { recOf s recA with psciPending := true })
          rc := upd s.rc recA 0 })) := by
  unfold psciRequest
  by_cases h1 : s.st recA = .recd ∧ s.rc recA = 1
  swap
  · rw [if_neg h1]; exact ⟨_, _, rfl, rfl, Or.inl rfl⟩
  rw [if_pos h1, getRec_eq' h h1.1]
  dsimp only
  rw [getRd_eq' h (h.recs _ h1.1).rd]
  dsimp only
  split
  · rename_i h2
    exact ⟨_, _, rfl, rfl, Or.inr ⟨h1.1, h1.2, h2, rfl⟩⟩
  · exact ⟨_, _, rfl, rfl, Or.inl rfl⟩

theorem rsiIpaStateSet_spec (h : InvG P s ti di rl) (recA base top : Nat) (v : Ripas) (chg : Bool) :
    ∃ s' ret, rsiIpaStateSet s recA base top v chg = some (s', ret) ∧ ret = {} ∧
      (s' = s ∨ (s.st recA = .recd ∧ s.rc recA = 1 ∧
        ((s' = { s with mem := upd s.mem recA (.recd { recOf s recA with
            regs := fun i => if i = 0 then 1 else (recOf s recA).regs i }) }) ∨
         (v ≠ .destroyed ∧ base % 4096 = 0 ∧ top % 4096 = 0 ∧ base < top ∧
           top ≤ (rdOf s (recOf s recA).rd).parSize ∧
          s' = { s with
            mem := upd s.mem recA (.recd { recOf s recA with
              sr := { (recOf s recA).sr with base := base, top := top, addr := base, ripas := v, chg := chg }
              regs := fun i => if i = 0 then 0 else if i = 1 then BitVec.ofNat 64 top else (recOf s recA).regs i })
            rc := upd s.rc recA 0 })))) := by
  unfold rsiIpaStateSet
  by_cases h1 : s.st recA = .recd ∧ s.rc recA = 1
  swap
  · rw [if_neg h1]; exact ⟨_, _, rfl, rfl, Or.inl rfl⟩
  rw [if_pos h1, getRec_eq' h h1.1]
  dsimp only
  rw [getRd_eq' h (h.recs _ h1.1).rd]
  dsimp only
  split
  · exact ⟨_, _, rfl, rfl, Or.inr ⟨h1.1, h1.2, Or.inl rfl⟩⟩
  · rename_i h2
    simp only [not_or, not_not] at h2
    refine ⟨_, _, rfl, rfl, Or.inr ⟨h1.1, h1.2, Or.inr ⟨h2.1, h2.2.1, h2.2.2.1, by omega, by omega, rfl⟩⟩⟩

theorem psciSystemOff_spec (h : InvG P s ti di rl) (recA : Nat) :
    ∃ s' ret, psciSystemOff s recA = some (s', ret) ∧ ret = {} ∧
      (s' = s ∨ (s.st recA = .recd ∧ s.rc recA = 1 ∧ s' = { s with
        mem := upd s.mem (recOf s recA).rd (.rd { rdOf s (recOf s recA).rd with state := .off })
        rc := upd s.rc recA 0 })) := by
  unfold psciSystemOff
  by_cases h1 : s.st recA = .recd ∧ s.rc recA = 1
  swap
  · rw [if_neg h1]; exact ⟨_, _, rfl, rfl, Or.inl rfl⟩
  rw [if_pos h1, getRec_eq' h h1.1]
  dsimp only
  rw [if_pos (h.recs _ h1.1).rd, getRd_eq' h (h.recs _ h1.1).rd]
  exact ⟨_, _, rfl, rfl, Or.inr ⟨h1.1, h1.2, rfl⟩⟩

theorem rsiExtend_spec (h : InvG P s ti di rl) (recA i v : Nat) :
    ∃ s' ret, rsiExtend s recA i v = some (s', ret) ∧ ret = {} ∧
      (s' = s ∨ (s.st recA = .recd ∧ s.rc recA = 1 ∧ 1 ≤ i ∧ i ≤ 4 ∧ s' = { s with
        mem := upd s.mem (recOf s recA).rd (.rd { rdOf s (recOf s recA).rd with
          rem := upd (rdOf s (recOf s recA).rd).rem i ((rdOf s (recOf s recA).rd).rem i ++ [v]) }) })) := by
  unfold rsiExtend
  by_cases h1 : s.st recA = .recd ∧ s.rc recA = 1
  swap
  · rw [if_neg h1]; exact ⟨_, _, rfl, rfl, Or.inl rfl⟩
  rw [if_pos h1, getRec_eq' h h1.1]
  dsimp only
  rw [if_pos (h.recs _ h1.1).rd, getRd_eq' h (h.recs _ h1.1).rd]
  dsimp only
  split
  · rename_i h2
    exact ⟨_, _, rfl, rfl, Or.inr ⟨h1.1, h1.2, h2.1, h2.2, rfl⟩⟩
  · exact ⟨_, _, rfl, rfl, Or.inl rfl⟩

theorem psciRequest_inv (h : InvG P s ti di rl) {recA s' ret} (e : psciRequest s recA = some (s', ret)) :
    InvG P s' ti di rl := by
  obtain ⟨s2, r2, e2, _, h2⟩ := psciRequest_spec h recA
  rw [e2] at e; cases e
  rcases h2 with rfl | ⟨h1, h3, _, rfl⟩
  · exact h
  · exact inv_recRun (stop := true) h h1 h3 rfl rfl rfl (h.recs _ h1).sr

theorem recRun_inv (h : InvG P s ti di rl) {recA stop off regs pc s' ret}
    (e : recRun s recA stop off regs pc = some (s', ret)) : InvG P s' ti di rl := by
  obtain ⟨s2, r2, e2, _, h2⟩ := recRun_spec h recA stop off regs pc
  rw [e2] at e; cases e
  rcases h2 with rfl | ⟨h1, h3, rfl⟩
  · exact h
  · refine inv_recRun h h1 h3 ?_ ?_ ?_ ?_
    · rfl
    · rfl
    · rfl
    · exact (h.recs _ h1).sr

theorem rsiIpaStateSet_inv (h : InvG P s ti di rl) {recA base top v chg s' ret}
    (e : rsiIpaStateSet s recA base top v chg = some (s', ret)) : InvG P s' ti di rl := by
  obtain ⟨s2, r2, e2, _, h2⟩ := rsiIpaStateSet_spec h recA base top v chg
  rw [e2] at e; cases e
  rcases h2 with rfl | ⟨h1, h3, rfl | ⟨hv, hb, ht, hlt, hp, rfl⟩⟩
  · exact h
  · exact inv_rec_same h recA _ h1 rfl rfl rfl (h.recs _ h1).sr
  · refine inv_recRun (stop := true) h h1 h3 rfl rfl rfl ?_
    exact ⟨⟨hb, ht⟩, fun _ => ⟨Nat.le_refl _, Nat.le_of_lt hlt⟩, hp, hv⟩

theorem psciSystemOff_inv (h : InvG P s ti di rl) {recA s' ret}
    (e : psciSystemOff s recA = some (s', ret)) : InvG P s' ti di rl := by
  obtain ⟨s2, r2, e2, _, h2⟩ := psciSystemOff_spec h recA
  rw [e2] at e; cases e
  rcases h2 with rfl | ⟨h1, h3, rfl⟩
  · exact h
  · have hrd := (h.recs _ h1).rd
    have i1 := inv_rd h (recOf s recA).rd { rdOf s (recOf s recA).rd with state := .off } hrd
      ⟨rfl, rfl, rfl, rfl, rfl, rfl, rfl⟩ (Nat.le_refl _) (fun e => by cases e)
    have hne : recA ≠ (recOf s recA).rd := by
      intro e; rw [← e, h1] at hrd; cases hrd
    have i2 := inv_recRun (stop := true) (c := recOf s recA) i1 h1 h3
    have er : recOf { s with
        mem := upd s.mem (recOf s recA).rd (.rd { rdOf s (recOf s recA).rd with state := .off }) } recA =
          recOf s recA :=
      recOf_upd_ne s _ _ hne
    rw [er] at i2
    have := i2 rfl rfl rfl (by have := (i1.recs recA h1).sr; rw [er] at this; exact this)
    have em : upd (upd s.mem (recOf s recA).rd (.rd { rdOf s (recOf s recA).rd with state := .off })) recA
        (.recd (recOf s recA)) = upd s.mem (recOf s recA).rd (.rd { rdOf s (recOf s recA).rd with state := .off }) := by
      rw [← (h.recs _ h1).mem]
      rw [← upd_ne s.mem (recOf s recA).rd (.rd { rdOf s (recOf s recA).rd with state := .off }) hne, upd_self]
    dsimp only at this
    rw [em] at this
    exact this

theorem rsiExtend_inv (h : InvG P s ti di rl) {recA i v s' ret}
    (e : rsiExtend s recA i v = some (s', ret)) : InvG P s' ti di rl := by
  obtain ⟨s2, r2, e2, _, h2⟩ := rsiExtend_spec h recA i v
  rw [e2] at e; cases e
  rcases h2 with rfl | ⟨h1, h3, _, _, rfl⟩
  · exact h
  · exact inv_rd h _ _ (h.recs _ h1).rd ⟨rfl, rfl, rfl, rfl, rfl, rfl, rfl⟩ (Nat.le_refl _) id

end Verif.Rmm
