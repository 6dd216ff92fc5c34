import Verif.Switch.Host

/-!
# C62: a world switch gives each side its own registers back
-/

namespace Verif.Switch

variable {e : Env} {apia : Nat → W}

/-! ## The host -/

theorem run_facts {s s' : St} {n n' : Ns} (hp : PmuOk e s.hw.pmu) (hr : Run e apia s n s' n') :
    ∃ s1 cptr, Kept e { hw := restoreRealm e s.rc s.hw, rc := s.rc } s1 ∧
      s'.rc = (saveRealm e s1.hw { s1.rc with sys := upd s1.rc.sys .cptr2 cptr }).2.1 ∧
      s'.rc.pmuEn = s.rc.pmuEn ∧ s'.rc.num = s.rc.num ∧
      s'.hw = restoreNs e s'.rc (saveNs e s.rc s.hw n)
        { s1.hw with gic := (gicSave e s1.hw.gic s1.rc.gic).2 } := by
  obtain ⟨hn, s1, cptr, hl, h⟩ := hr
  simp only at h
  have k := loop_kept (restoreRealm_ok hp s.rc) hl
  have e1 := saveRealm_eq e s1.hw { s1.rc with sys := upd s1.rc.sys .cptr2 cptr }
  refine ⟨s1, cptr, k, by rw [h], ?_, ?_, ?_⟩
  · rw [h]; simp only; rw [e1.2]; exact k.en
  · rw [h]; simp only; rw [e1.2]; exact k.num
  · rw [h, hn, e1.1]

/-- After any run of a realm, of any number of rounds, whatever the realm did, the host finds every system register the
switch is in charge of as it left it. -/
theorem C62_host {s s' : St} {n n' : Ns} (hp : PmuOk e s.hw.pmu) (hr : Run e apia s n s' n') (r : Sys)
    (hr1 : r ∉ el3Restores) (hr2 : r ≠ .pmcr) (hr3 : present e r) : s'.hw.sys r = s.hw.sys r := by
  obtain ⟨s1, cptr, k, _, _, _, hs⟩ := run_facts hp hr
  rw [hs, restoreNs_eq]
  simp only
  split
  · rename_i h
    rw [saveNs_eq]
    simp only [upd]
    split
    · rename_i hx; rw [hx]
    · rename_i hx
      split
      · rename_i hy; rw [hy]
      · rename_i hy
        have hm : r ∈ restoreList := by
          rcases h with h | h | h
          · exact absurd h hy
          · exact absurd h hx
          · exact h.1
        have hs : r ∈ saveList := by
          revert hm hr1 hr2
          cases r <;> decide
        rw [saveSys_apply, if_pos hs, if_pos hr3, read_plain _ hr2]
  · rename_i h
    have : r = .cptr2 := by
      simp only [hr3, and_true] at h
      revert h hr1 hr2
      cases r <;> simp [el3Restores, restoreList]
    rw [this, k.cptr]
    simp only [restoreRealm_eq]
    rw [if_neg (by simp [restoreList])]

theorem ns_pmcr (c : Rec) (h : Hw) (n : Ns) : (saveNs e c h n).sys .pmcr = h.pmu.pmcr := by
  rw [saveNs_eq]
  simp only [upd, reduceCtorEq, if_false, saveSys_apply]
  rw [if_pos (by decide)]
  rfl

theorem restored_ro (c : Rec) (h : Hw) : (restoreRealm e c h).pmu.pmcr &&& PMCR_RO = h.pmu.pmcr &&& PMCR_RO := by
  rw [restoreRealm_eq]
  simp only
  split
  · rw [pmuRestore_eq]; exact ro_of_write _ _
  · exact ro_of_write _ _

/-- Writing the host's PMCR_EL0 back gives it all of PMCR_EL0 back, and clears no counter. -/
theorem write_back {p q : Pmu} (hp : PmuOk e p) (ho : q.pmcr &&& PMCR_RO = p.pmcr &&& PMCR_RO) :
    writePmcr q p.pmcr = { q with pmcr := p.pmcr } := by
  obtain ⟨h1, h2⟩ := no_reset hp.pmcr
  simp only [writePmcr, h1, h2, ho, pmcr_bits _ hp.pmcr]
  simp

/-- The host finds its PMU as it left it, as far as the realm's counters go. -/
theorem C62_host_pmu {s s' : St} {n n' : Ns} (he : Fine e) (hp : PmuOk e s.hw.pmu) (hc : RecOk e s.rc)
    (hr : Run e apia s n s' n') : SamePmu s.rc.num s.hw.pmu s'.hw.pmu := by
  obtain ⟨s1, cptr, k, _, h2, h3, hs⟩ := run_facts hp hr
  have ho : s1.hw.pmu.pmcr &&& PMCR_RO = s.hw.pmu.pmcr &&& PMCR_RO := k.ro.trans (restored_ro _ _)
  rw [hs, restoreNs_eq]
  simp only [ns_pmcr, h2, h3]
  cases hen : s.rc.pmuEn
  · simp only [Bool.false_eq_true, if_false]
    have k1 := k.off hen
    simp only [restoreRealm_eq, hen, Bool.false_eq_true, if_false] at k1
    rw [write_back hp ho, k1]
    obtain ⟨q1, q2⟩ := hc.quiet
    simp only [writePmcr, q1, q2]
    exact ⟨rfl, by simp, rfl, rfl, rfl, rfl, rfl, rfl, fun i _ => by simp⟩
  · simp only [if_true]
    have e1 : (saveNs e s.rc s.hw n).pmu = pmuSave e s.hw.pmu n.pmu s.rc.num := by
      rw [saveNs_eq]; simp [hen]
    rw [e1]
    refine pmu_back he hp (write_ok k.pmuOk _) _ hc.num ?_
    rw [write_back hp ho]

/-- If the realm has no PMU, the host finds all of its PMU as it left it. -/
theorem C62_host_pmu_off {s s' : St} {n n' : Ns} (hp : PmuOk e s.hw.pmu) (hc : RecOk e s.rc)
    (hen : s.rc.pmuEn = false) (hr : Run e apia s n s' n') : s'.hw.pmu = s.hw.pmu := by
  obtain ⟨s1, cptr, k, _, h2, h3, hs⟩ := run_facts hp hr
  have ho : s1.hw.pmu.pmcr &&& PMCR_RO = s.hw.pmu.pmcr &&& PMCR_RO := k.ro.trans (restored_ro _ _)
  rw [hs, restoreNs_eq]
  simp only [ns_pmcr, h2, hen, Bool.false_eq_true, if_false]
  have k1 := k.off hen
  simp only [restoreRealm_eq, hen, Bool.false_eq_true, if_false] at k1
  rw [write_back hp ho, k1]
  obtain ⟨q1, q2⟩ := hc.quiet
  simp only [writePmcr, q1, q2]
  simp

/-- What becomes of the host's counters from `num` on. -/
theorem host_high {s s' : St} {n n' : Ns} (he : Fine e) (hp : PmuOk e s.hw.pmu) (hc : RecOk e s.rc)
    (hen : s.rc.pmuEn = true) (hr : Run e apia s n s' n') {i : Nat} (h1 : s.rc.num ≤ i) (h2 : i < e.nctr) :
    s'.hw.pmu.cntr i = (if i = sel s.hw.pmu then s.hw.pmu.cntr i else if i = selS s.rc.pmu then s.rc.pmu.xevcntr
      else if s.rc.sys .pmcr &&& PMCR_P ≠ 0 then 0 else s.hw.pmu.cntr i) ∧
    s'.hw.pmu.typer i = (if i = sel s.hw.pmu then s.hw.pmu.typer i else if i = selS s.rc.pmu then s.rc.pmu.xevtyper
      else s.hw.pmu.typer i) := by
  obtain ⟨s1, cptr, k, _, h2', h3, hs⟩ := run_facts hp hr
  have ho : s1.hw.pmu.pmcr &&& PMCR_RO = s.hw.pmu.pmcr &&& PMCR_RO := k.ro.trans (restored_ro _ _)
  have hf := he.nctr
  have hni : i ∉ ctrs s.rc.num := fun hx => by
    have := (mem_ctrs (by have := hc.num; omega)).1 hx
    omega
  obtain ⟨k1, k2⟩ := k.high i h1
  simp only [restoreRealm_eq, hen, if_true, pmuRestore_eq, hni, if_false, h2, and_true] at k1 k2
  have e1 : (saveNs e s.rc s.hw n).pmu = pmuSave e s.hw.pmu n.pmu s.rc.num := by
    rw [saveNs_eq]; simp [hen]
  have e2 : selS (pmuSave e s.hw.pmu n.pmu s.rc.num) = sel s.hw.pmu := by rw [pmuSave_eq]; rfl
  have e3 : (pmuSave e s.hw.pmu n.pmu s.rc.num).xevcntr = readXcntr e s.hw.pmu := by rw [pmuSave_eq]
  have e4 : (pmuSave e s.hw.pmu n.pmu s.rc.num).xevtyper = readXtyper e s.hw.pmu := by rw [pmuSave_eq]
  rw [hs, restoreNs_eq]
  simp only [ns_pmcr, h2', h3, hen, if_true, e1, pmuRestore_eq, hni, if_false, h2, and_true, write_back hp ho, e2, e3, e4,
    k1, k2]
  constructor
  · split
    · rename_i hx; simp [readXcntr, ← hx, h2]
    · simp only [writePmcr]
      split
      · rfl
      · split <;> rfl
  · split
    · rename_i hx; simp [readXtyper, ← hx, h2]
    · rfl

/-- Full statement: the host finds all of its event counters as it left them. Missing, because the code does not do it: a
REC that left PMSELR_EL0 selecting a counter beyond the realm's (`C62_counter_taken`). -/
theorem C62_counters_partial {s s' : St} {n n' : Ns} (he : Fine e) (hp : PmuOk e s.hw.pmu) (hc : RecOk e s.rc)
    (hr : Run e apia s n s' n')
    (h2 : selS s.rc.pmu < s.rc.num ∨ e.nctr ≤ selS s.rc.pmu) {i : Nat} (hi : i < e.nctr) :
    s'.hw.pmu.cntr i = s.hw.pmu.cntr i ∧ s'.hw.pmu.typer i = s.hw.pmu.typer i := by
  by_cases hl : i < s.rc.num
  · exact (C62_host_pmu he hp hc hr).ctr i hl
  · cases hen : s.rc.pmuEn
    · rw [C62_host_pmu_off hp hc hen hr]; exact ⟨rfl, rfl⟩
    · obtain ⟨a, b⟩ := host_high he hp hc hen hr (by omega) hi
      have hx : i ≠ selS s.rc.pmu := by omega
      simp only [hx, if_false, hc.quiet.1, ne_eq, not_true, ite_self] at a b
      exact ⟨a, b⟩

/-- Finding: if a realm leaves PMSELR_EL0 selecting a counter that is not its own, every later run of that REC writes the
host's counter, and its event type, with what they were when the REC was last saved. -/
theorem C62_counter_taken {s s' : St} {n n' : Ns} (he : Fine e) (hp : PmuOk e s.hw.pmu) (hc : RecOk e s.rc)
    (hen : s.rc.pmuEn = true) (hr : Run e apia s n s' n') (h1 : s.rc.num ≤ selS s.rc.pmu)
    (h2 : selS s.rc.pmu < e.nctr) (h3 : selS s.rc.pmu ≠ sel s.hw.pmu) :
    s'.hw.pmu.cntr (selS s.rc.pmu) = s.rc.pmu.xevcntr ∧ s'.hw.pmu.typer (selS s.rc.pmu) = s.rc.pmu.xevtyper := by
  have := host_high he hp hc hen hr h1 h2
  rw [if_neg h3, if_pos rfl, if_neg h3, if_pos rfl] at this
  exact this

/-! ## The REC -/

theorem saved_pmcr (h : Hw) (c : Rec) : (saveRealm e h c).2.1.sys .pmcr = h.pmu.pmcr := by
  rw [(saveRealm_eq e h c).2]
  simp only [upd, reduceCtorEq, if_false, saveSys_apply]
  rw [if_pos (by decide)]
  rfl

/-- A run leaves the REC fit for the next. -/
theorem C62_recOk {s s' : St} {n n' : Ns} (hp : PmuOk e s.hw.pmu) (hc : RecOk e s.rc)
    (hr : Run e apia s n s' n') : RecOk e s'.rc := by
  obtain ⟨s1, cptr, k, h1, h2, h3, _⟩ := run_facts hp hr
  have hpm : s'.rc.sys .pmcr = s1.hw.pmu.pmcr := by rw [h1, saved_pmcr]
  have hpmu : s'.rc.pmu = if s.rc.pmuEn then pmuSave e s1.hw.pmu s.rc.pmu s.rc.num else s.rc.pmu := by
    rw [h1, (saveRealm_eq _ _ _).2]
    simp only [k.en, k.num, k.rpmu]
  have hk := k.pmuOk
  refine ⟨by rw [h3]; exact hc.num, by rw [hpm]; exact no_reset hk.pmcr, ?_, ?_, ?_⟩ <;> rw [hpmu] <;>
    cases s.rc.pmuEn <;> simp only [Bool.false_eq_true, if_false, if_true, pmuSave_eq]
  · exact hc.cnten
  · exact ⟨trivial, hk.cnten⟩
  · exact hc.inten
  · exact ⟨trivial, hk.inten⟩
  · exact hc.ovs
  · exact ⟨trivial, hk.ovs⟩

/-! ## The realm -/

/-- At the first instruction of a run the realm has the REC's registers, under the REC's controls, with the REC's keys,
interrupts and translation tables. The timer interrupt masks of CNTHCTL_EL2 are `Timers`' business. -/
theorem C62_loaded (he : Fine e) (c : Rec) (k : Hw) {s : St} (ht : Timers { hw := restoreRealm e c k, rc := c } s) :
    (∀ r ∈ realmRegs, present e r → (toRealm s).hw.sys r = c.sys r) ∧
    (∀ r ∈ [Sys.vmpidr2, .mdcr2, .vtcr2, .vttbr2, .cptr2], (toRealm s).hw.sys r = c.sys r) ∧
    (toRealm s).hw.sys .hcr2 = (if c.inject then c.sys .hcr2 ||| HCR_VSE else c.sys .hcr2) ∧
    (c.inject = true → (toRealm s).hw.sys .vsesr2 = c.vsesr) ∧
    (∀ i, i < 10 → (toRealm s).hw.key i = c.key i) ∧
    (∀ i, i ≤ 30 → (toRealm s).hw.x i = c.regs i) ∧ (toRealm s).hw.sys .spEl0 = c.regs 31 ∧
    SameGic e c.gic (toRealm s).hw.gic := by
  obtain ⟨t1, t2, t3⟩ := toRealm_hw s
  obtain ⟨r1, r2, r3, r4, r5, r6, r7, r8⟩ := ht.rest
  obtain ⟨x1, x2⟩ := toRealm_x s
  have hl : ∀ r, r ≠ .cnthctl2 → r ≠ .pmcr → (r = .elr2 ∨ r = .spsr2 ∨ r = .hcr2 ∨ r = .mdcr2 ∨ r = .vtcr2 ∨ r = .vttbr2 ∨
      (r ∈ restoreList ∧ present e r)) → s.hw.sys r = c.sys r := by
    intro r h1 h2 h3
    rw [ht.hwSys r h1]
    simp only [restoreRealm_eq]
    rw [if_pos]
    rcases h3 with h | h | h | h | h | h | h <;> simp [h, h2]
  have hcp : s.rc.sys .cptr2 = c.sys .cptr2 := ht.rcSys _ (by decide)
  have hhc : s.rc.sys .hcr2 = c.sys .hcr2 := ht.rcSys _ (by decide)
  refine ⟨fun r hr hpr => ?_, fun r hr => ?_, ?_, fun hin => ?_, fun i hi => ?_, fun i hi => ?_, ?_, ?_⟩
  · have h3 : r ≠ .hcr2 ∧ r ≠ .vsesr2 ∧ r ≠ .cptr2 ∧ r ≠ .spEl0 ∧ r ≠ .cnthctl2 ∧ r ≠ .pmcr ∧
        (r = .elr2 ∨ r = .spsr2 ∨ r ∈ restoreList) := by
      revert hr; cases r <;> decide
    obtain ⟨a1, a2, a3, a4, a5, a6, a7⟩ := h3
    rw [t3 r a1 a2 a3 a4]
    exact hl r a5 a6 (by rcases a7 with h | h | h <;> simp [h, hpr])
  · by_cases hcr : r = .cptr2
    · rw [hcr, toRealm_cptr, hcp]
    · have h3 : r ≠ .hcr2 ∧ r ≠ .vsesr2 ∧ r ≠ .spEl0 ∧ r ≠ .cnthctl2 ∧ r ≠ .pmcr ∧ present e r = true ∧
          (r = .mdcr2 ∨ r = .vtcr2 ∨ r = .vttbr2 ∨ r ∈ restoreList) := by
        revert hr hcr; cases r <;> simp [present, restoreList]
      obtain ⟨a1, a2, a4, a5, a6, a7, a8⟩ := h3
      rw [t3 r a1 a2 hcr a4]
      exact hl r a5 a6 (by rcases a8 with h | h | h | h <;> simp [h, a7])
  · have a := hl .hcr2 (by decide) (by decide) (by simp)
    have r5' : s.rc.inject = c.inject := r5
    unfold toRealm
    simp only [keysIn, write, upd, reduceCtorEq, if_false]
    have key : (activate s).hw.sys .hcr2 = if c.inject then c.sys .hcr2 ||| HCR_VSE else c.sys .hcr2 := by
      unfold activate
      rw [r5']
      cases c.inject
      · simp [a]
      · simp [write, upd, hhc]
    split <;> simp [key, upd]
  · have r5' : s.rc.inject = c.inject := r5
    have r6' : s.rc.vsesr = c.vsesr := r6
    unfold toRealm
    simp only [keysIn, write, upd, reduceCtorEq, if_false]
    have key : (activate s).hw.sys .vsesr2 = c.vsesr := by
      unfold activate
      rw [r5', hin, if_pos rfl]
      simp [write, upd, r6']
    split <;> simp [key, upd]
  · rw [toRealm_key s hi, r3]
  · rw [x1 i hi, r4]
  · rw [x2, r4]
  · rw [t2, ht.gic]
    simp only [restoreRealm_eq, gicRestore_eq]
    refine ⟨fun i hi => ?_, fun i hi => ?_, rfl, rfl⟩
    · simp only [mem_falls he.lrs, hi, if_true]
    · simp only [mem_falls he.aprs, hi, if_true, and_self]

/-- The PMU that `restore_realm_state` gives a realm with a PMU. -/
theorem restored_pmu (he : Fine e) {c : Rec} {k : Hw} (hk : PmuOk e k.pmu) (hc : RecOk e c) (hen : c.pmuEn = true) :
    let p := (restoreRealm e c k).pmu
    p.pmcr &&& PMCR_CTL = c.sys .pmcr &&& PMCR_CTL ∧ p.ccntr = c.pmu.ccntr ∧
    p.ccfiltr = (if selS c.pmu < e.nctr then c.pmu.ccfiltr else if selS c.pmu = 31 then c.pmu.xevtyper
      else c.pmu.ccfiltr) ∧
    p.cnten = c.pmu.cntenset ∧ p.inten = c.pmu.intenset ∧ p.ovs = c.pmu.ovsset ∧ p.selr = c.pmu.selr ∧
    p.userenr = c.pmu.userenr ∧ ∀ i, i < c.num → p.cntr i = c.pmu.evcntr i ∧ p.typer i = c.pmu.evtyper i := by
  have hf := he.nctr
  have hw := write_ok hk (c.sys .pmcr)
  simp only [restoreRealm_eq, hen, if_true, pmuRestore_eq, ctl_of_write, true_and]
  rw [hc.cnten.1, hc.inten.1, hc.ovs.1]
  refine ⟨set_clr he.imp hw.cnten hc.cnten.2, set_clr he.imp hw.inten hc.inten.2, set_clr he.imp hw.ovs hc.ovs.2,
    fun i hi => ?_⟩
  have : i ∈ ctrs c.num := (mem_ctrs (by have := hc.num; omega)).2 hi
  simp [this]

/-- Nothing of what was in the CPU before shows: two CPUs give the realm the same PMU. Everything else it has at entry is
the REC's by `C62_loaded`. -/
theorem C62_fresh (he : Fine e) {c : Rec} {k k' : Hw} (hk : PmuOk e k.pmu) (hk' : PmuOk e k'.pmu) (hc : RecOk e c)
    (hen : c.pmuEn = true) {s s' : St} (ht : Timers { hw := restoreRealm e c k, rc := c } s)
    (ht' : Timers { hw := restoreRealm e c k', rc := c } s') :
    SameRealmPmu c.num (toRealm s).hw.pmu (toRealm s').hw.pmu := by
  rw [(toRealm_hw s).1, (toRealm_hw s').1, ht.pmu, ht'.pmu]
  obtain ⟨a1, a2, a3, a4, a5, a6, a7, a8, a9⟩ := restored_pmu he hk hc hen
  obtain ⟨b1, b2, b3, b4, b5, b6, b7, b8, b9⟩ := restored_pmu he hk' hc hen
  refine ⟨b1.trans a1.symm, b2.trans a2.symm, b3.trans a3.symm, b4.trans a4.symm, b5.trans a5.symm, b6.trans a6.symm,
    b7.trans a7.symm, b8.trans a8.symm, fun i hi => ?_⟩
  exact ⟨(b9 i hi).1.trans (a9 i hi).1.symm, (b9 i hi).2.trans (a9 i hi).2.symm⟩

/-- An event counter has overflowed, is counting and may interrupt, and the counters are on. -/
def Overflow (p : Pmu) : Prop :=
  p.pmcr.getLsbD 0 = true ∧ ∃ i, p.ovs.getLsbD i = true ∧ p.inten.getLsbD i = true ∧ p.cnten.getLsbD i = true

/-- On the way out everything the realm has in the CPU is in the REC, the virtual interrupt interface is off so that the
host gets no interrupt of the realm's, and the host is told about a PMU interrupt exactly if there is one. -/
theorem C62_saved (he : Fine e) (h : Hw) (c : Rec) :
    (∀ r ∈ realmRegs, present e r → (saveRealm e h c).2.1.sys r = h.sys r) ∧
    SameGic e h.gic (saveRealm e h c).2.1.gic ∧ (saveRealm e h c).2.1.gic.misr = h.gic.misr ∧
    (saveRealm e h c).1.gic.hcr &&& ICH_EN = 0 ∧
    (∃ b, (saveRealm e h c).2.2 = (if c.pmuEn then some b else none) ∧ (b = true ↔ Overflow h.pmu)) := by
  have hv := saveRealm_eq e h c
  refine ⟨fun r hr hp => ?_, ?_, ?_, ?_, ⟨pmuOverflow h.pmu, ?_, ?_⟩⟩
  · rw [hv.2]
    by_cases h1 : r = .elr2
    · simp [upd, h1]
    · by_cases h2 : r = .spsr2
      · simp [upd, h2]
      · have a : r ∈ saveList ∧ r ≠ .pmcr := by
          revert hr h1 h2; cases r <;> decide
        simp only [upd, h1, h2, if_false, saveSys_apply, a.1, hp, if_true, read_plain _ a.2]
  · rw [hv.2]
    simp only [gicSave_eq]
    refine ⟨fun i hi => ?_, fun i hi => ?_, rfl, rfl⟩
    · simp only [mem_falls he.lrs, hi, if_true]
    · simp only [mem_falls he.aprs, hi, if_true, and_self]
  · rw [hv.2]; simp only [gicSave_eq]
  · rw [hv.1]
    simp only [gicSave_eq]
    apply BitVec.eq_of_getLsbD_eq
    intro i hi
    have z : (0 : W).getLsbD i = false := by simp
    simp only [BitVec.getLsbD_and, BitVec.getLsbD_not, z, hi, decide_true, Bool.true_and]
    cases ICH_EN.getLsbD i <;> simp
  · unfold saveRealm
    cases hc : c.pmuEn <;> simp
  · have ne : ∀ w : W, w ≠ 0 ↔ ∃ i, w.getLsbD i = true := by
      intro w
      constructor
      · intro hw
        apply Classical.byContradiction
        intro hn
        apply hw
        apply BitVec.eq_of_getLsbD_eq
        intro i _
        have z : (0 : W).getLsbD i = false := by simp
        rw [z]
        cases hb : w.getLsbD i
        · rfl
        · exact absurd ⟨i, hb⟩ hn
      · rintro ⟨i, hi⟩ rfl
        simp at hi
    unfold pmuOverflow Overflow
    rw [Bool.and_eq_true, decide_eq_true_eq, decide_eq_true_eq, ne, ne, and_comm]
    have one : ∀ i, (1 : W).getLsbD i = decide (i = 0) := by
      intro i; simp [BitVec.getLsbD_one]
    simp only [BitVec.getLsbD_and, one, Bool.and_eq_true, decide_eq_true_eq, and_assoc]
    constructor
    · rintro ⟨⟨i, h1, h2⟩, h3⟩
      subst h2
      exact ⟨h1, h3⟩
    · rintro ⟨h1, h3⟩
      exact ⟨⟨0, h1, rfl⟩, h3⟩

/-- Full circle: the realm runs and stops with `h` in the CPU; RMM handles the exit and returns to the host; later, on any
CPU, the same REC is entered. The realm finds the registers it left, but for those that RMM changed on purpose. -/
theorem C62_resume (he : Fine e) {h k : Hw} {c c' : Rec} {cptr cptr' : W} {s s' : St} (hh : PmuOk e h.pmu)
    (hk : PmuOk e k.pmu) (hn : c.num ≤ e.nctr) (hx : Handles (fromRealm e apia cptr { hw := h, rc := c }) s)
    (hb : Between (saveRealm e s.hw { s.rc with sys := upd s.rc.sys .cptr2 cptr' }).2.1 c')
    (ht : Timers { hw := restoreRealm e c' k, rc := c' } s') :
    (∀ r ∈ realmRegs, present e r → (r ∉ injected ∨ (s.hw.sys r = h.sys r ∧
      c'.sys r = (saveRealm e s.hw { s.rc with sys := upd s.rc.sys .cptr2 cptr' }).2.1.sys r)) →
      (toRealm s').hw.sys r = h.sys r) ∧
    (∀ i, i < 10 → (toRealm s').hw.key i = h.key i) ∧
    (∀ i, i ≤ 30 → c'.regs i = (fromRealm e apia cptr { hw := h, rc := c }).rc.regs i →
      (toRealm s').hw.x i = h.x i) ∧
    (c'.regs 31 = (fromRealm e apia cptr { hw := h, rc := c }).rc.regs 31 →
      (toRealm s').hw.sys .spEl0 = h.sys .spEl0) ∧
    (c.pmuEn = true → SameRealmPmu c.num h.pmu (toRealm s').hw.pmu) ∧
    (∀ i, i ≤ e.nrAprs → (toRealm s').hw.gic.ap0r i = h.gic.ap0r i ∧ (toRealm s').hw.gic.ap1r i = h.gic.ap1r i) ∧
    (toRealm s').hw.gic.vmcr = h.gic.vmcr := by
  obtain ⟨f1, f2, f3, f4, _⟩ := fromRealm_hw e apia cptr { hw := h, rc := c }
  obtain ⟨c1, c2, c3, c4, c5, c6, c7, c8, c9, c10⟩ := fromRealm_rc e apia cptr { hw := h, rc := c }
  obtain ⟨d1, d2, d3, d4, d5⟩ := hx.rest
  obtain ⟨l1, _, _, _, l5, l6, l7, l8⟩ := C62_loaded he c' k ht
  have hv := (saveRealm_eq e s.hw { s.rc with sys := upd s.rc.sys .cptr2 cptr' }).2
  rw [hv] at hb
  obtain ⟨g1, g2, g3⟩ := hb.gic
  simp only [gicSave_eq] at g1 g2 g3
  have hg : s.hw.gic = h.gic := hx.gic.trans f2
  have hpm : s.hw.pmu = h.pmu := hx.pmu.trans f1
  have hen : s.rc.pmuEn = c.pmuEn := d4.trans c4
  have hnum : s.rc.num = c.num := d5.trans c5
  refine ⟨fun r hr hp hi => ?_, fun i hi => ?_, fun i hi hq => ?_, fun hq => ?_, fun hq => ?_, fun i hi => ?_, ?_⟩
  · have a : r ≠ .cptr2 ∧ r ≠ .hcr2 ∧ r ≠ .cnthctl2 ∧ r ≠ .spEl0 := by
      revert hr; cases r <;> decide
    obtain ⟨a1, a2, a3, a4⟩ := a
    have b : s.hw.sys r = h.sys r := by
      rcases hi with hi | hi
      · rw [hx.hwSys r hi, f3 r a1 a4]
      · exact hi.1
    have b' : c'.sys r = (saveRealm e s.hw { s.rc with sys := upd s.rc.sys .cptr2 cptr' }).2.1.sys r := by
      rcases hi with hi | hi
      · rw [hv]; exact hb.sys r hi a1 a2 a3
      · exact hi.2
    rw [l1 r hr hp, b', ← b]
    exact (C62_saved he s.hw _).1 r hr hp
  · rw [l5 i hi, hb.key]
    simp only [d3]
    exact c8 i hi
  · rw [l6 i hi, hq]; exact c9 i hi
  · rw [l7, hq]; exact c10
  · have hcen : c'.pmuEn = true := by rw [hb.en.1]; simp only [hen]; exact hq
    have hcnum : c'.num = c.num := by rw [hb.en.2]; simp only [hnum]
    have hcpmu : c'.pmu = pmuSave e h.pmu c.pmu c.num := by
      rw [hb.pmu]
      simp only [hen, hq, if_true, hpm, hnum, d2, c3]
    have hcpm : c'.sys .pmcr = h.pmu.pmcr := by
      rw [hb.sys _ (by decide) (by decide) (by decide) (by decide)]
      simp only [upd, reduceCtorEq, if_false, saveSys_apply]
      rw [if_pos (by decide)]
      exact congrArg Pmu.pmcr hpm
    have hrec : RecOk e c' := by
      refine ⟨by rw [hcnum]; exact hn, by rw [hcpm]; exact no_reset hh.pmcr, ?_, ?_, ?_⟩ <;>
        rw [hcpmu, pmuSave_eq]
      · exact ⟨rfl, hh.cnten⟩
      · exact ⟨rfl, hh.inten⟩
      · exact ⟨rfl, hh.ovs⟩
    obtain ⟨b1, b2, b3, b4, b5, b6, b7, b8, b9⟩ := restored_pmu he hk hrec hcen
    rw [(toRealm_hw s').1, ht.pmu]
    rw [hcpm] at b1
    rw [hcnum] at b9
    rw [hcpmu, pmuSave_eq] at b2 b3 b4 b5 b6 b7 b8 b9
    refine ⟨b1, b2, ?_, b4, b5, b6, b7, b8, fun i hi => ?_⟩
    · rw [b3]
      change (if sel h.pmu < e.nctr then h.pmu.ccfiltr else if sel h.pmu = 31 then readXtyper e h.pmu
        else h.pmu.ccfiltr) = h.pmu.ccfiltr
      unfold readXtyper
      by_cases a : sel h.pmu < e.nctr
      · rw [if_pos a]
      · rw [if_neg a, if_neg a]
        by_cases b : sel h.pmu = 31
        · rw [if_pos b, if_pos b]
        · rw [if_neg b]
    · have hf := he.nctr
      have hm : i ∈ ctrs c.num := (mem_ctrs (by omega)).2 hi
      have := b9 i hi
      simp only [hm, if_true] at this
      exact this
  · obtain ⟨q1, q2⟩ := l8.apr i hi
    rw [q1, q2, g1, g2]
    simp only [mem_falls he.aprs, hi, if_true, hg, and_self]
  · rw [l8.vmcr, g3, hg]

/-- Within one run, from one exit to the next entry, the realm keeps its registers, PMU, interrupts and keys, but for what
RMM changed on purpose. A pending virtual SError stays pending. -/
theorem C62_stay {h : Hw} {c : Rec} {cptr : W} {s s' : St} (hx : Handles (fromRealm e apia cptr { hw := h, rc := c }) s)
    (ht : Timers s s') :
    (∀ r, (r ∉ injected ∨ s.hw.sys r = h.sys r) → r ∉ [Sys.spEl0, .cptr2, .cnthctl2, .hcr2, .vsesr2] →
      (toRealm s').hw.sys r = h.sys r) ∧
    (∀ i, i < 10 → (toRealm s').hw.key i = h.key i) ∧
    (∀ i, i ≤ 30 → s.rc.regs i = (fromRealm e apia cptr { hw := h, rc := c }).rc.regs i →
      (toRealm s').hw.x i = h.x i) ∧
    (s.rc.regs 31 = (fromRealm e apia cptr { hw := h, rc := c }).rc.regs 31 →
      (toRealm s').hw.sys .spEl0 = h.sys .spEl0) ∧
    (toRealm s').hw.pmu = h.pmu ∧ (toRealm s').hw.gic = h.gic ∧
    (s.rc.inject = false → (toRealm s').hw.sys .hcr2 = h.sys .hcr2 ∧ (toRealm s').hw.sys .vsesr2 = h.sys .vsesr2) := by
  obtain ⟨f1, f2, f3, f4, _⟩ := fromRealm_hw e apia cptr { hw := h, rc := c }
  obtain ⟨c1, c2, c3, c4, c5, c6, c7, c8, c9, c10⟩ := fromRealm_rc e apia cptr { hw := h, rc := c }
  obtain ⟨d1, d2, d3, d4, d5⟩ := hx.rest
  obtain ⟨r1, r2, r3, r4, r5, r6, r7, r8⟩ := ht.rest
  obtain ⟨t1, t2, t3⟩ := toRealm_hw s'
  obtain ⟨x1, x2⟩ := toRealm_x s'
  refine ⟨fun r h1 h2 => ?_, fun i hi => ?_, fun i hi hq => ?_, fun hq => ?_, ?_, ?_, fun hq => ?_⟩
  · simp only [List.mem_cons, List.not_mem_nil, or_false, not_or] at h2
    obtain ⟨a1, a2, a3, a4, a5⟩ := h2
    rw [t3 r a4 a5 a2 a1, ht.hwSys r a3]
    rcases h1 with h1 | h1
    · rw [hx.hwSys r h1, f3 r a2 a1]
    · exact h1
  · rw [toRealm_key s' hi, r3, d3]; exact c8 i hi
  · rw [x1 i hi, r4, hq]; exact c9 i hi
  · rw [x2, r4, hq]; exact c10
  · rw [t1, ht.pmu, hx.pmu, f1]
  · rw [t2, ht.gic, hx.gic, f2]
  · have hin : s'.rc.inject = false := r5.trans hq
    have ha : activate s' = s' := by unfold activate; rw [hin]; rfl
    have q1 : s'.hw.sys .hcr2 = h.sys .hcr2 := by
      rw [ht.hwSys _ (by decide), hx.hwSys _ (by decide), f3 _ (by decide) (by decide)]
    have q2 : s'.hw.sys .vsesr2 = h.sys .vsesr2 := by
      rw [ht.hwSys _ (by decide), hx.hwSys _ (by decide), f3 _ (by decide) (by decide)]
    unfold toRealm
    rw [ha]
    simp only [keysIn, write, upd, reduceCtorEq, if_false]
    split <;> simp [q1, q2, upd]

/-- While RMM handles an exit it signs with its own key, has its own exception stack and its own CPTR_EL2. -/
theorem C62_rmm {s s' : St} (hr : ∃ s1 h, Timers s s1 ∧ RealmRuns e s1.rc (toRealm s1).hw h ∧
      s' = fromRealm e apia (s.hw.sys .cptr2) { hw := h, rc := (toRealm s1).rc }) :
    s'.hw.key 0 = apia 0 ∧ s'.hw.key 1 = apia 1 ∧ s'.hw.sys .spEl0 = e.ehEnd ∧
      s'.hw.sys .cptr2 = s.hw.sys .cptr2 := by
  obtain ⟨s1, h, ht, hrr, rfl⟩ := hr
  obtain ⟨_, _, _, f4, f5, f6⟩ := fromRealm_hw e apia (s.hw.sys .cptr2) { hw := h, rc := (toRealm s1).rc }
  refine ⟨f5, f6, f4, fromRealm_cptr _ _ _ _ ?_⟩
  simp only [toRealm_rc]
  rw [hrr.el2 .cptr2 (by decide), toRealm_cptr]

/-- Finding: a virtual SError that the realm has not taken by the time the REC is left for the host is lost. HCR_EL2.VSE is
not saved and the request is already withdrawn, so the next run starts without it. -/
theorem C62_serror_lost (he : Fine e) {k h k' : Hw} {c c' : Rec} {cptr cptr' : W} {s s2 s' : St}
    (hc : c.sys .hcr2 &&& HCR_VSE = 0) (hj : c.inject = true) (ht : Timers { hw := restoreRealm e c k, rc := c } s)
    (hx : Handles (fromRealm e apia cptr { hw := h, rc := (toRealm s).rc }) s2) (hi : s2.rc.inject = (toRealm s).rc.inject)
    (hb : c' = (saveRealm e s2.hw { s2.rc with sys := upd s2.rc.sys .cptr2 cptr' }).2.1)
    (ht' : Timers { hw := restoreRealm e c' k', rc := c' } s') :
    (toRealm s).hw.sys .hcr2 &&& HCR_VSE = HCR_VSE ∧ (toRealm s').hw.sys .hcr2 &&& HCR_VSE = 0 := by
  obtain ⟨_, _, l3, _⟩ := C62_loaded he c' k' ht'
  obtain ⟨_, _, m3, _⟩ := C62_loaded he c k ht
  have hv := (saveRealm_eq e s2.hw { s2.rc with sys := upd s2.rc.sys .cptr2 cptr' }).2
  have hin : c'.inject = false := by
    rw [hb, hv]; simp only; rw [hi, toRealm_rc]
  have hh : c'.sys .hcr2 = c.sys .hcr2 := by
    rw [hb, hv]
    simp only [upd, reduceCtorEq, if_false, saveSys_apply]
    rw [if_neg (by decide)]
    rw [hx.rcSys _ (by decide), (fromRealm_rc _ _ _ _).1, toRealm_rc]
    exact ht.rcSys _ (by decide)
  rw [l3, hin, hh, m3, hj]
  refine ⟨?_, hc⟩
  rw [if_pos rfl]
  apply BitVec.eq_of_getLsbD_eq
  intro i hi
  simp only [BitVec.getLsbD_and, BitVec.getLsbD_or]
  cases HCR_VSE.getLsbD i <;> simp

namespace Demo

/-- Six event counters, a realm with two of them, a new REC. -/
def env : Env := { nctr := 6, imp := 0x8000003F, sctlr2 := true, mpam := false, nrLrs := 3, nrAprs := 0, ehEnd := 0xF000 }
def hostPmu : Pmu :=
  { pmcr := 0x3001, ccntr := 9, ccfiltr := 0, cnten := 0x3F, inten := 0, ovs := 4, selr := 1, userenr := 0,
    cntr := fun i => 100 + BitVec.ofNat 64 i, typer := fun _ => 8 }
def noGic : Gic := { lr := fun _ => 0, ap0r := fun _ => 0, ap1r := fun _ => 0, vmcr := 0, hcr := 0, misr := 0 }
def host : Hw := { sys := fun r => if r = .ttbr0_1 then 0x4000 else 7, pmu := hostPmu, gic := noGic, key := fun _ => 1, x := fun _ => 0 }
def noPmu : PmuS :=
  { ccfiltr := 0, ccntr := 0, cntenset := 0, cntenclr := 0, intenset := 0, intenclr := 0, ovsset := 0, ovsclr := 0,
    selr := 0, userenr := 0, xevcntr := 0, xevtyper := 0, evcntr := fun _ => 0, evtyper := fun _ => 0 }
def newRec : Rec :=
  { sys := fun r => if r = .pmcr then 0x60 else if r = .hcr2 then 0x1 else 0, gic := noGic, pmu := noPmu, key := fun _ => 0,
    regs := fun _ => 0, inject := true, vsesr := 3, pmuEn := true, num := 2 }

theorem fine : Fine env := ⟨by decide, by decide, by decide, by decide⟩
theorem hostOk : PmuOk env hostPmu := ⟨by decide, by decide, by decide, by decide⟩
theorem recOk : RecOk env newRec :=
  ⟨by decide, by decide, ⟨rfl, by decide⟩, ⟨rfl, by decide⟩, ⟨rfl, by decide⟩⟩

theorem timers_refl (s : St) : Timers s s :=
  ⟨fun _ _ => rfl, fun _ _ => rfl, rfl, rfl, rfl, rfl, rfl, rfl, rfl, rfl, rfl, rfl, rfl⟩
theorem handles_refl (s : St) : Handles s s :=
  ⟨fun _ _ => rfl, fun _ _ => rfl, rfl, rfl, rfl, rfl, rfl, rfl, rfl, rfl⟩

/-- The realm writes TTBR0_EL1, X3 and a key, counts on counter 0 and leaves PMSELR_EL0 selecting counter 5. -/
def realm (h : Hw) : Hw :=
  { sys := upd h.sys .ttbr0_1 0xBAD000, pmu := { h.pmu with selr := 5, cntr := upd h.pmu.cntr 0 77 }, gic := h.gic
    key := upd h.key 4 99, x := upd h.x 3 33 }

theorem realm_runs {e : Env} {c : Rec} {h : Hw} (hp : PmuOk e h.pmu) (hen : c.pmuEn = true) (hn : 0 < c.num) :
    RealmRuns e c h (realm h) := by
  refine ⟨fun r hr => ?_, Or.inl rfl, ⟨hp.pmcr, hp.cnten, hp.inten, hp.ovs⟩, rfl, fun x => ?_, fun i hi => ?_⟩
  · simp only [realm, upd]
    rw [if_neg]
    revert hr; cases r <;> decide
  · rw [hen] at x; cases x
  · have : i ≠ 0 := by omega
    simp [realm, upd, this]

def st : St := { hw := host, rc := newRec }
def ns : Ns := { sys := fun _ => 0, pmu := noPmu }

/-- There is a run in which the realm runs, and all theorems about runs apply to it: the host's TTBR0_EL1 survives the
realm's write of it, and so does counter 4. -/
theorem run : ∃ s' n', Run env (fun _ => 5) st ns s' n' := by
  refine ⟨_, _, rfl, _, 0, Loop.last ⟨_, realm _, timers_refl _, realm_runs ?_ rfl (by decide), handles_refl _⟩, rfl⟩
  rw [(toRealm_hw _).1]
  exact restoreRealm_ok hostOk _

example : ∃ s' n', Run env (fun _ => 5) st ns s' n' ∧ s'.hw.sys .ttbr0_1 = 0x4000 ∧
    SamePmu 2 hostPmu s'.hw.pmu ∧ s'.hw.pmu.cntr 4 = 104 ∧ RecOk env s'.rc := by
  obtain ⟨s', n', h⟩ := run
  exact ⟨s', n', h, C62_host hostOk h .ttbr0_1 (by decide) (by decide) rfl, C62_host_pmu fine hostOk recOk h,
    (C62_counters_partial fine hostOk recOk h (by decide) (by decide)).1,
    C62_recOk hostOk recOk h⟩

/-- The realm left PMSELR_EL0 selecting counter 5 when the host's counter 5 was 50: from then on each entry writes it. -/
def badRec : Rec := { newRec with sys := fun _ => 0, pmu := { noPmu with selr := 5, xevcntr := 50, xevtyper := 0x11 } }

example : ∃ s' n', Run env (fun _ => 5) { hw := host, rc := badRec } ns s' n' ∧ s'.hw.pmu.cntr 5 = 50 ∧
    s'.hw.pmu.typer 5 = 0x11 := by
  refine ⟨_, _, ⟨rfl, _, 0, Loop.timer (timers_refl _), rfl⟩, ?_⟩
  have := C62_counter_taken (e := env) (apia := fun _ => 5) (s := { hw := host, rc := badRec }) (n := ns) fine hostOk
    ⟨by decide, by decide, ⟨rfl, by decide⟩, ⟨rfl, by decide⟩, ⟨rfl, by decide⟩⟩ rfl
    ⟨rfl, _, 0, Loop.timer (timers_refl _), rfl⟩ (by decide) (by decide) (by decide)
  exact this

/-- A REC with a quiet PMCR_EL0 and its own counter selected loses the host nothing. -/
example : ∃ s' n', Run env (fun _ => 5) { hw := host, rc := { newRec with sys := fun _ => 0 } } ns s' n' ∧
    s'.hw.pmu.cntr 5 = hostPmu.cntr 5 := by
  refine ⟨_, _, ⟨rfl, _, 0, Loop.timer (timers_refl _), rfl⟩, ?_⟩
  exact (C62_counters_partial (e := env) (apia := fun _ => 5) (n := ns) (s := { hw := host, rc := { newRec with sys := fun _ => 0 } }) fine hostOk
    ⟨by decide, by decide, ⟨rfl, by decide⟩, ⟨rfl, by decide⟩, ⟨rfl, by decide⟩⟩
    ⟨rfl, _, 0, Loop.timer (timers_refl _), rfl⟩ (by decide) (i := 5) (by decide)).1

/-- The realm finds TTBR0_EL1, X3, the key, its counter and PMSELR_EL0 again. -/
example : ∃ s', (toRealm s').hw.sys .ttbr0_1 = 0xBAD000 ∧ (toRealm s').hw.key 4 = 99 ∧ (toRealm s').hw.x 3 = 33 ∧
    (toRealm s').hw.pmu.cntr 0 = 77 ∧ (toRealm s').hw.pmu.selr = 5 := by
  have h := C62_resume (e := env) (apia := fun _ => 5) (h := realm host) (k := host) (c := newRec) (cptr := 0) (cptr' := 0)
    fine ⟨by decide, by decide, by decide, by decide⟩ hostOk (by decide) (handles_refl _)
    (c' := (saveRealm env (fromRealm env (fun _ => 5) 0 { hw := realm host, rc := newRec }).hw
      { (fromRealm env (fun _ => 5) 0 { hw := realm host, rc := newRec }).rc with
        sys := upd (fromRealm env (fun _ => 5) 0 { hw := realm host, rc := newRec }).rc.sys .cptr2 0 }).2.1)
    ⟨fun _ _ _ _ _ => rfl, ⟨rfl, rfl, rfl⟩, rfl, rfl, rfl, rfl⟩ (timers_refl _)
  obtain ⟨h1, h2, h3, _, h5, _⟩ := h
  have h5 := h5 rfl
  exact ⟨_, h1 .ttbr0_1 (by decide) rfl (Or.inl (by decide)), h2 4 (by decide), h3 3 (by decide) rfl, (h5.ctr 0 (by decide)).1, h5.selr⟩

/-- Counter 2 has overflowed but may not interrupt; with its interrupt enabled the host is told. -/
example : ¬Overflow hostPmu ∧ Overflow { hostPmu with inten := 4 } :=
  ⟨fun h => by
    obtain ⟨_, i, _, h, _⟩ := h
    simp [hostPmu] at h, by decide, 2, by decide, by decide, by decide⟩
example := C62_saved fine (realm host) newRec
example := C62_loaded fine newRec host (timers_refl _)
example := C62_fresh (k := host) fine hostOk (k' := realm host) ⟨by decide, by decide, by decide, by decide⟩ recOk rfl (timers_refl _) (timers_refl _)
example := C62_stay (e := env) (apia := fun _ => 5) (h := realm host) (c := newRec) (cptr := 0) (handles_refl _) (timers_refl _)
example : RealmRuns env newRec host (realm host) := realm_runs hostOk rfl (by decide)
example := C62_serror_lost (e := env) (apia := fun _ => 5) (k := host) (h := realm host) (k' := host) (c := newRec) (cptr := 0) (cptr' := 0)
  fine (by decide) rfl (timers_refl _) (handles_refl _) (by rfl) rfl (timers_refl _)
example : ∃ s' n', Run env (fun _ => 5) { hw := host, rc := { newRec with sys := fun _ => 0, pmuEn := false } } ns s' n' ∧
    s'.hw.pmu = hostPmu := by
  refine ⟨_, _, ⟨rfl, _, 0, Loop.timer (timers_refl _), rfl⟩, ?_⟩
  exact C62_host_pmu_off (e := env) (apia := fun _ => 5) (n := ns)
    (s := { hw := host, rc := { newRec with sys := fun _ => 0, pmuEn := false } }) hostOk
    ⟨by decide, by decide, ⟨rfl, by decide⟩, ⟨rfl, by decide⟩, ⟨rfl, by decide⟩⟩ rfl
    ⟨rfl, _, 0, Loop.timer (timers_refl _), rfl⟩

end Demo

end Verif.Switch
