import Verif.Rmm.PropGranule

/-!
# Failing commands and assertions (C06, C07)
-/

namespace Verif.Rmm

section
variable {P : Plat} {s s' : State} {ret : Ret}
open Demo

/-! ## C06 -/

/-- C06: an RMI command other than PSCI_COMPLETE that does not return success leaves the
whole state as it was. -/
theorem C06_no_effect (hP : PlatOk P) (hr : Reach P s) {op : Op} (e : step P s op = some (s', ret))
    (hst : ret.status ≠ 0) (hop : ∀ c t st, op ≠ .psciComplete c t st) : s' = s := by
  obtain ⟨ti, di, rl, h⟩ := hr.inv hP
  rcases step_eff hP h e with ⟨rfl, _⟩ | hh
  · rfl
  · rcases hh.status with h0 | ⟨c, t, st, h0⟩
    · exact absurd h0 hst
    · exact absurd h0 (hop c t st)

/-- C06: when PSCI_COMPLETE does not return success, either nothing changed, or the host denied a
CPU_ON whose target is on: then the calling REC is told ALREADY_ON and the request is
over, and nothing else changed. -/
theorem C06_psci_complete (hP : PlatOk P) (hr : Reach P s) {c t : Nat} {st : BitVec 64}
    (e : step P s (.psciComplete c t st) = some (s', ret)) (hst : ret.status ≠ 0) :
    s' = s ∨
    (st = psciDenied ∧ isCpuOn ((recOf s c).regs 0) = true ∧ (s.rc t ≠ 0 ∨ (recOf s t).runnable = true) ∧
      s.st c = .recd ∧ s.st t = .recd ∧ (recOf s c).psciPending = true ∧
      (recOf s' c).regs 0 = psciAlreadyOn ∧ (recOf s' c).psciPending = false ∧
      s'.st = s.st ∧ s'.rc = s.rc ∧ s'.pas = s.pas ∧ s'.vmid = s.vmid ∧ ∀ x, x ≠ c → s'.mem x = s.mem x) := by
  obtain ⟨ti, di, rl, h⟩ := hr.inv hP
  rcases step_eff hP h e with ⟨rfl, _⟩ | hh
  · exact Or.inl rfl
  right
  have k : PsciOk P s c t st s' ret := hh
  have hc : isCpuOn ((recOf s c).regs 0) = true ∧ st = psciDenied ∧ (s.rc t ≠ 0 ∨ (recOf s t).runnable = true) := by
    by_contra hn
    rw [k.ret, if_neg hn] at hst
    exact hst rfl
  obtain ⟨h1, h2, h3⟩ := hc
  have hoff : psciTurnsOn (recOf s c) (recOf s t) st (s.rc t) = false := by
    unfold psciTurnsOn
    rw [h2]
    simp [psciDenied, psciSuccess]
  have hs := k.st
  rw [hoff, if_neg (by simp)] at hs
  have hon : (decide (s.rc t ≠ 0) || (recOf s t).runnable) = true := by
    rcases h3 with h3 | h3 <;> simp [h3]
  rw [hon] at hs
  have hrec : recOf s' c = psciResult (recOf s c) (psciAnswer ((recOf s c).regs 0) st true) := by
    rw [hs]; simp [recOf, getRec, upd_same]
  refine ⟨h2, h1, h3, k.call.2, k.tgt.2, k.pend, ?_, ?_, ?_, ?_, ?_, ?_, ?_⟩
  · rw [hrec]; simp [psciResult, psciAnswer, h1]
  · rw [hrec]; rfl
  · rw [hs]
  · rw [hs]
  · rw [hs]
  · rw [hs]
  · intro x hx; rw [hs]; exact upd_ne _ _ _ hx

/-- C06: when PSCI_COMPLETE returns success, the host gave one of the two statuses that it may give, SUCCESS (0) or DENIED (-3),
and the calling REC gets in X0 what PSCI says: for CPU_ON SUCCESS, DENIED or ALREADY_ON (-4), for AFFINITY_INFO whether the
target is on (0) or off (1).  The target changes only if the host agreed to a CPU_ON of a target that was off. -/
theorem C06_psci_answer (hP : PlatOk P) (hr : Reach P s) {c t : Nat} {st : BitVec 64}
    (e : step P s (.psciComplete c t st) = some (s', ret)) (hst : ret.status = 0) :
    (recOf s' c).psciPending = false ∧ (∀ x, x ≠ c → x ≠ t → s'.mem x = s.mem x) ∧
    ((((recOf s c).regs 0 = 0x84000003 ∨ (recOf s c).regs 0 = 0xC4000003) ∧
      ((st = 0 ∧ s.rc t = 0 ∧ (recOf s t).runnable = false ∧ (recOf s' c).regs 0 = 0 ∧
          (recOf s' t).runnable = true ∧ (recOf s' t).pc = (recOf s c).regs 2 ∧ (recOf s' t).regs 0 = (recOf s c).regs 3) ∨
        (st = -3 ∧ s.rc t = 0 ∧ (recOf s t).runnable = false ∧ (recOf s' c).regs 0 = -3 ∧ s'.mem t = s.mem t) ∨
        (st = 0 ∧ (s.rc t ≠ 0 ∨ (recOf s t).runnable = true) ∧ (recOf s' c).regs 0 = -4 ∧ s'.mem t = s.mem t))) ∨
     (((recOf s c).regs 0 = 0x84000004 ∨ (recOf s c).regs 0 = 0xC4000004) ∧ st = 0 ∧ s'.mem t = s.mem t ∧
      (((s.rc t ≠ 0 ∨ (recOf s t).runnable = true) ∧ (recOf s' c).regs 0 = 0) ∨
       (s.rc t = 0 ∧ (recOf s t).runnable = false ∧ (recOf s' c).regs 0 = 1)))) := by
  obtain ⟨ti, di, rl, h⟩ := hr.inv hP
  rcases step_eff hP h e with ⟨_, h0⟩ | hh
  · exact absurd hst (h0 rfl)
  have k : PsciOk P s c t st s' ret := hh
  have hne : t ≠ c := fun x => k.ne x.symm
  have hrec : recOf s' c = psciResult (recOf s c) (psciAnswer ((recOf s c).regs 0) st
      (decide (s.rc t ≠ 0) || (recOf s t).runnable)) := by
    rw [k.st]; simp [recOf, getRec, upd_same]
  have hmt : s'.mem t = if psciTurnsOn (recOf s c) (recOf s t) st (s.rc t) = true
      then .recd (psciTarget (recOf s c) (recOf s t)) else s.mem t := by
    rw [k.st]
    show upd _ c _ t = _
    rw [upd_ne _ _ _ hne]
    split
    · rw [upd_same]
    · rfl
  refine ⟨by rw [hrec]; rfl, ?_, ?_⟩
  · intro x hx hx'
    rw [k.st]
    show upd _ c _ x = _
    rw [upd_ne _ _ _ hx]
    split
    · exact upd_ne _ _ _ hx'
    · rfl
  have hr0 : (recOf s' c).regs 0 = psciAnswer ((recOf s c).regs 0) st
      (decide (s.rc t ≠ 0) || (recOf s t).runnable) := by rw [hrec]; rfl
  have hrt : psciTurnsOn (recOf s c) (recOf s t) st (s.rc t) = true →
      recOf s' t = psciTarget (recOf s c) (recOf s t) := by
    intro ht
    rw [ht, if_pos rfl] at hmt
    simp [recOf, getRec, hmt]
  rcases k.fid with ⟨hf, hs⟩ | ⟨hf, hf', hs⟩
  · left
    refine ⟨by simpa [isCpuOn] using hf, ?_⟩
    by_cases hon : s.rc t ≠ 0 ∨ (recOf s t).runnable = true
    · have hs0 : st = 0 := by
        rcases hs with hs | hs
        · exact hs
        · rw [k.ret, if_pos ⟨hf, hs, hon⟩] at hst
          exact absurd hst (by decide)
      have hb : (decide (s.rc t ≠ 0) || (recOf s t).runnable) = true := by rcases hon with h | h <;> simp [h]
      have hoff : psciTurnsOn (recOf s c) (recOf s t) st (s.rc t) = false := by
        unfold psciTurnsOn
        rcases hon with h | h <;> simp [h]
      refine .inr (.inr ⟨hs0, hon, ?_, ?_⟩)
      · rw [hr0, hb]; simp [psciAnswer, hf, psciAlreadyOn]
      · rw [hmt, hoff, if_neg (by simp)]
    · have h1 : s.rc t = 0 := by by_contra hc; exact hon (.inl hc)
      have h2 : (recOf s t).runnable = false := by
        cases hc : (recOf s t).runnable
        · rfl
        · exact absurd (.inr hc) hon
      have hb : (decide (s.rc t ≠ 0) || (recOf s t).runnable) = false := by simp [h1, h2]
      rcases hs with hs | hs
      · have ht : psciTurnsOn (recOf s c) (recOf s t) st (s.rc t) = true := by
          unfold psciTurnsOn; simp [hf, hs, h1, h2]
        have hs0 : st = 0 := hs
        refine .inl ⟨hs0, h1, h2, ?_, ?_, ?_, ?_⟩
        · rw [hr0, hb, hs0]; simp only [psciAnswer, hf]; decide
        · rw [hrt ht]; rfl
        · rw [hrt ht]; rfl
        · rw [hrt ht]; rfl
      · have hs0 : st = -3 := hs
        have ht : psciTurnsOn (recOf s c) (recOf s t) st (s.rc t) = false := by
          unfold psciTurnsOn; rw [hs]; simp [psciDenied, psciSuccess]
        refine .inr (.inl ⟨hs0, h1, h2, ?_, ?_⟩)
        · rw [hr0, hb, hs0]; simp only [psciAnswer, hf]; decide
        · rw [hmt, ht, if_neg (by simp)]
  · right
    have ht : psciTurnsOn (recOf s c) (recOf s t) st (s.rc t) = false := by unfold psciTurnsOn; simp [hf]
    refine ⟨by simpa [isAffinityInfo] using hf', hs, by rw [hmt, ht, if_neg (by simp)], ?_⟩
    by_cases hon : s.rc t ≠ 0 ∨ (recOf s t).runnable = true
    · have hb : (decide (s.rc t ≠ 0) || (recOf s t).runnable) = true := by rcases hon with h | h <;> simp [h]
      exact .inl ⟨hon, by rw [hr0, hb]; simp [psciAnswer, hf]⟩
    · have h1 : s.rc t = 0 := by by_contra hc; exact hon (.inl hc)
      have h2 : (recOf s t).runnable = false := by
        cases hc : (recOf s t).runnable
        · rfl
        · exact absurd (.inr hc) hon
      exact .inr ⟨h1, h2, by rw [hr0, h1, h2]; simp [psciAnswer, hf]⟩

/-- A register file with the given first four registers. -/
def Demo.regs4 (a b c d : BitVec 64) : Nat → BitVec 64 := fun i =>
  if i = 0 then a else if i = 1 then b else if i = 2 then c else if i = 3 then d else 0

/-- Enter REC 0 and have it run until its registers are `regs`. -/
def Demo.enterRun (regs : Nat → BitVec 64) : List Op :=
  [.realmActivate (G 16), .recEnter (G 32) (G 1) true false, .recRun (G 32) false false regs 0]

/-- C06: the exception is real.  The host denies a CPU_ON for a REC that is on: PSCI_COMPLETE returns
an error although it changed the calling REC. -/
theorem C06_denied_has_effect : ∃ s s' ret, Reach plat s ∧
    step plat s (.psciComplete (G 32) (G 64) psciDenied) = some (s', ret) ∧ ret.status = 1 ∧ s' ≠ s := by
  obtain ⟨s, s', ret, hr, e, hp⟩ := Demo.ex_step
    (all ++ enterRun (regs4 0xC4000003 1 0x2000 7) ++ [.psciRequest (G 32)]) (.psciComplete (G 32) (G 64) psciDenied)
    (fun s s' ret => ret.status == 1 && (recOf s (G 32)).psciPending && !(recOf s' (G 32)).psciPending)
    (by decide +kernel)
  refine ⟨s, s', ret, hr, e, ?_⟩
  simp only [Bool.and_eq_true, beq_iff_eq, Bool.not_eq_true'] at hp
  refine ⟨hp.1.1, fun hs => ?_⟩
  rw [hs, hp.1.2] at hp; cases hp.2

/-- The host agrees to a CPU_ON, and the target starts. -/
example : ∃ s s' ret, Reach plat s ∧ step plat s (.psciComplete (G 32) (G 64) 0) = some (s', ret) ∧ ret.status = 0 ∧
    (recOf s (G 64)).runnable = false ∧ (recOf s' (G 64)).runnable = true := by
  obtain ⟨s, s', ret, hr, e, hp⟩ := Demo.ex_step
    (all ++ [.realmActivate (G 16), .recEnter (G 64) (G 1) true false, .recRun (G 64) true true (fun _ => 0) 0] ++
      enterRun (regs4 0xC4000003 1 0x2000 7) ++ [.psciRequest (G 32)]) (.psciComplete (G 32) (G 64) 0)
    (fun s s' ret => ret.status == 0 && !(recOf s (G 64)).runnable && (recOf s' (G 64)).runnable)
    (by decide +kernel)
  simp only [Bool.and_eq_true, beq_iff_eq, Bool.not_eq_true'] at hp
  exact ⟨s, s', ret, hr, e, hp.1.1, hp.1.2, hp.2⟩

/-- Failing commands deep inside: a DATA_CREATE on an address that is already assigned, an RTT_CREATE
of an occupied entry, a REALM_DESTROY with RECs, a REC_CREATE that took its auxiliary granules before failing. -/
example : statuses ((run plat boot (all ++ delegates 90 17)).getD boot)
    [.dataCreate (G 16) (G 90) 0 (G 5) 0, .rttCreate (G 16) (G 90) 0 3, .realmDestroy (G 16),
     .recCreate (G 16) (G 90) (G 1) (recparams 7 (G 91))] =
    [some (4, 3), some (4, 2), some (2, 0), some (1, 0)] := by decide +kernel

/-! ## C07 -/

/-- C07, partial: outside the four situations of `Op.asserts` no operation fails an assertion, in any
reachable state. What is missing: in those situations an assertion does fail, see the
theorems below, so the full statement "no command ever fails an assertion" is false of this code. -/
theorem C07_no_assertion_partial (hP : PlatOk P) (hr : Reach P s) (op : Op) (ha : ¬ op.asserts P s) :
    step P s op ≠ none := by
  obtain ⟨ti, di, rl, h⟩ := hr.inv hP
  obtain ⟨s', ret, e⟩ := step_some hP h op ha
  rw [e]; simp

/-- C07: whole executions. If no operation of a sequence is in one of the four situations when it is
issued, the sequence runs to its end. -/
theorem C07_run_partial (hP : PlatOk P) : ∀ (l : List Op) {s : State}, Reach P s →
    (∀ l1 op l2 t, l = l1 ++ op :: l2 → run P s l1 = some t → ¬ op.asserts P t) → run P s l ≠ none := by
  intro l
  induction l with
  | nil => intro s _ _; simp [run]
  | cons op l ih =>
    intro s hr hn
    obtain ⟨ti, di, rl, h⟩ := hr.inv hP
    obtain ⟨s', ret, e⟩ := step_some hP h op (hn [] op l s rfl rfl)
    unfold run
    rw [e]
    dsimp only
    refine ih (.step hr e) (fun l1 op' l2 t hl ht => ?_)
    refine hn (op :: l1) op' l2 t (by rw [hl]; rfl) ?_
    unfold run
    rw [e]
    exact ht

/-- A step from a state reached by a concrete execution fails an assertion. -/
theorem Demo.ex_none (l : List Op) (op : Op) (h : (run plat boot l).any (fun s => (step plat s op).isNone) = true) :
    ∃ s, Reach plat s ∧ step plat s op = none := by
  obtain ⟨s, hr, h⟩ := Demo.ex l _ h
  exact ⟨s, hr, Option.isNone_iff_eq_none.mp h⟩

/-- C07 fails: REC_CREATE with a second auxiliary granule that is not DELEGATED unlocks the first one
twice, and `granule_unlock` asserts that the granule is locked (rec.c:284-298). -/
theorem C07_rec_create_asserts : ∃ s rd rec_ params q, Reach plat s ∧
    step plat s (.recCreate rd rec_ params q) = none := by
  obtain ⟨s, hr, e⟩ := Demo.ex_none (mkRealm ++ delegates 32 2)
    (.recCreate (G 16) (G 32) (G 1) (recparams 0 (G 33))) (by decide +kernel)
  exact ⟨s, _, _, _, _, hr, e⟩

/-- C07 fails: a REC issues CPU_ON with function identifier 0x1_C4000003.  RMM looks at the low 32 bits when it
forwards the request, and at all 64 bits when the host completes it (psci.c:283, 383, 413). -/
theorem C07_psci_complete_asserts : ∃ s c t st, Reach plat s ∧ step plat s (.psciComplete c t st) = none := by
  obtain ⟨s, hr, e⟩ := Demo.ex_none (all ++ enterRun (regs4 0x1C4000003 1 0x2000 7) ++ [.psciRequest (G 32)])
    (.psciComplete (G 32) (G 64) 0) (by decide +kernel)
  exact ⟨s, _, _, _, hr, e⟩

/-- Parameters of a realm with a 33 bit IPA space that starts at level 2 with 8 concatenated tables. -/
def Demo.rparams2 (root vmid : Nat) : RealmParams :=
  { rparams root vmid with p := { (rparams root vmid).p with rttLevelStart := 2, rttNumStart := 8 } }

/-- C07 fails: the level of RTT_MAP_UNPROTECTED is compared with 1 and not with the starting level of the
realm; the walk asserts that it is not above it (rtt.c:633-690, s2tt.c:308-380). -/
theorem C07_map_unprotected_asserts : ∃ s rd a lvl desc, Reach plat s ∧
    step plat s (.rttMapUnprotected rd a lvl desc) = none := by
  obtain ⟨s, hr, e⟩ := Demo.ex_none (delegates 15 9 ++ [.realmCreate (G 15) (G 1) (rparams2 (G 16) 7)])
    (.rttMapUnprotected (G 15) (2 ^ 32) 1 0x40000000) (by decide +kernel)
  exact ⟨s, _, _, _, _, hr, e⟩

/-- C07 fails: the same for RTT_UNMAP_UNPROTECTED. -/
theorem C07_unmap_unprotected_asserts : ∃ s rd a lvl, Reach plat s ∧
    step plat s (.rttUnmapUnprotected rd a lvl) = none := by
  obtain ⟨s, hr, e⟩ := Demo.ex_none (delegates 15 9 ++ [.realmCreate (G 15) (G 1) (rparams2 (G 16) 7)])
    (.rttUnmapUnprotected (G 15) (2 ^ 32) 1) (by decide +kernel)
  exact ⟨s, _, _, _, hr, e⟩

/-- The hypothesis of the partial theorem is met by commands that do a lot of work. -/
example : ¬ (Op.recCreate (G 16) (G 32) (G 1) { recparams 0 (G 33) with numAux64 := 0 }).asserts plat boot := by
  rintro ⟨_, tk, a, rest, h, _⟩
  simp [RecParams.auxList, RecParams.numAux] at h

example (rd a : Nat) (lvl : Int) : ¬ (Op.rttDestroy rd a lvl).asserts P s := fun h => h

end
end Verif.Rmm
