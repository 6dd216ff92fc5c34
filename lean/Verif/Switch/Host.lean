import Verif.Switch.Lemmas
import Verif.Switch.Spec

namespace Verif.Switch

/-! ## The steps of a round -/

theorem activate_hw (s : St) : (activate s).hw.pmu = s.hw.pmu ∧ (activate s).hw.gic = s.hw.gic ∧
    (activate s).hw.key = s.hw.key ∧
    ∀ r, r ≠ .hcr2 → r ≠ .vsesr2 → (activate s).hw.sys r = s.hw.sys r := by
  unfold activate
  split
  · refine ⟨rfl, rfl, rfl, fun r h1 h2 => ?_⟩
    simp [write, upd, h1, h2]
  · exact ⟨rfl, rfl, rfl, fun _ _ _ => rfl⟩

theorem activate_rc (s : St) : (activate s).rc = { s.rc with inject := false } := by
  unfold activate
  split
  · rfl
  · rename_i h
    have : s.rc.inject = false := by simpa using h
    rw [← this]

theorem toRealm_rc (s : St) : (toRealm s).rc = { s.rc with inject := false } := by
  unfold toRealm
  simp only [activate_rc]

theorem toRealm_hw (s : St) : (toRealm s).hw.pmu = s.hw.pmu ∧ (toRealm s).hw.gic = s.hw.gic ∧
    (∀ r, r ≠ .hcr2 → r ≠ .vsesr2 → r ≠ .cptr2 → r ≠ .spEl0 → (toRealm s).hw.sys r = s.hw.sys r) := by
  obtain ⟨a1, a2, _, a3⟩ := activate_hw s
  unfold toRealm
  simp only [keysIn, write]
  split
  · refine ⟨a1, a2, fun r h1 h2 h3 h4 => ?_⟩
    simp only [upd, h3, h4, if_false]
    exact a3 r h1 h2
  · refine ⟨a1, a2, fun r h1 h2 h3 h4 => ?_⟩
    simp only [upd, h4, if_false]
    exact a3 r h1 h2

theorem toRealm_cptr (s : St) : (toRealm s).hw.sys .cptr2 = s.rc.sys .cptr2 := by
  obtain ⟨_, _, _, a3⟩ := activate_hw s
  have := a3 .cptr2 (by decide) (by decide)
  unfold toRealm
  simp only [keysIn, write, activate_rc]
  split
  · simp [upd]
  · rename_i h
    simp only [upd, reduceCtorEq, if_false, this]
    simpa using h

theorem toRealm_key (s : St) {i : Nat} (hi : i < 10) : (toRealm s).hw.key i = s.rc.key i := by
  unfold toRealm
  simp only [keysIn, write, activate_rc, foldl_upd]
  simp [hi]

theorem toRealm_x (s : St) : (∀ i, i ≤ 30 → (toRealm s).hw.x i = s.rc.regs i) ∧
    (toRealm s).hw.sys .spEl0 = s.rc.regs 31 := by
  unfold toRealm
  simp only [write, activate_rc, upd, if_true, and_true]
  intro i hi
  simp [hi]

theorem fromRealm_hw (e : Env) (apia : Nat → W) (cptr : W) (s : St) :
    (fromRealm e apia cptr s).hw.pmu = s.hw.pmu ∧ (fromRealm e apia cptr s).hw.gic = s.hw.gic ∧
    (∀ r, r ≠ .cptr2 → r ≠ .spEl0 → (fromRealm e apia cptr s).hw.sys r = s.hw.sys r) ∧
    (fromRealm e apia cptr s).hw.sys .spEl0 = e.ehEnd ∧
    (fromRealm e apia cptr s).hw.key 0 = apia 0 ∧ (fromRealm e apia cptr s).hw.key 1 = apia 1 := by
  unfold fromRealm
  simp only [keysRmm, keysOut, write]
  by_cases hc : cptr = s.rc.sys .cptr2
  · simp only [hc, ne_eq, not_true, if_false]
    refine ⟨trivial, trivial, fun r h1 h2 => ?_, ?_, ?_, ?_⟩ <;> simp [upd, *]
  · simp only [hc, ne_eq, not_false_iff, if_true]
    refine ⟨trivial, trivial, fun r h1 h2 => ?_, ?_, ?_, ?_⟩ <;> simp [upd, *]

theorem fromRealm_cptr (e : Env) (apia : Nat → W) (cptr : W) (s : St) (h : s.hw.sys .cptr2 = s.rc.sys .cptr2) :
    (fromRealm e apia cptr s).hw.sys .cptr2 = cptr := by
  unfold fromRealm
  simp only [keysRmm, keysOut, write]
  by_cases hc : cptr = s.rc.sys .cptr2
  · simp only [hc, ne_eq, not_true, if_false, upd, reduceCtorEq, h]
  · simp [hc, upd]

theorem fromRealm_rc (e : Env) (apia : Nat → W) (cptr : W) (s : St) :
    (fromRealm e apia cptr s).rc.sys = s.rc.sys ∧ (fromRealm e apia cptr s).rc.gic = s.rc.gic ∧
    (fromRealm e apia cptr s).rc.pmu = s.rc.pmu ∧ (fromRealm e apia cptr s).rc.pmuEn = s.rc.pmuEn ∧
    (fromRealm e apia cptr s).rc.num = s.rc.num ∧ (fromRealm e apia cptr s).rc.inject = s.rc.inject ∧
    (fromRealm e apia cptr s).rc.vsesr = s.rc.vsesr ∧
    (∀ i, i < 10 → (fromRealm e apia cptr s).rc.key i = s.hw.key i) ∧
    (∀ i, i ≤ 30 → (fromRealm e apia cptr s).rc.regs i = s.hw.x i) ∧
    (fromRealm e apia cptr s).rc.regs 31 = s.hw.sys .spEl0 := by
  unfold fromRealm
  simp only [keysOut, write, foldl_upd]
  refine ⟨trivial, trivial, trivial, trivial, trivial, trivial, trivial, fun i hi => ?_, fun i hi => ?_, ?_⟩
  · simp [hi]
  · simp [hi]
  · simp

/-! ## What a round, and so the loop, keeps -/

/-- What stays through the loop. -/
structure Kept (e : Env) (s0 s : St) : Prop where
  en : s.rc.pmuEn = s0.rc.pmuEn
  num : s.rc.num = s0.rc.num
  rpmu : s.rc.pmu = s0.rc.pmu
  rgic : s.rc.gic = s0.rc.gic
  rsys : ∀ r, r ≠ .cptr2 → r ≠ .cnthctl2 → s.rc.sys r = s0.rc.sys r
  pmuOk : PmuOk e s.hw.pmu
  ro : s.hw.pmu.pmcr &&& PMCR_RO = s0.hw.pmu.pmcr &&& PMCR_RO
  off : s0.rc.pmuEn = false → s.hw.pmu = s0.hw.pmu
  high : ∀ i, s0.rc.num ≤ i → s.hw.pmu.cntr i = s0.hw.pmu.cntr i ∧ s.hw.pmu.typer i = s0.hw.pmu.typer i
  cptr : s.hw.sys .cptr2 = s0.hw.sys .cptr2

theorem Kept.refl {e : Env} {s : St} (h : PmuOk e s.hw.pmu) : Kept e s s :=
  ⟨rfl, rfl, rfl, rfl, fun _ _ _ => rfl, h, rfl, fun _ => rfl, fun _ _ => ⟨rfl, rfl⟩, rfl⟩

theorem Kept.trans {e : Env} {a b c : St} (h : Kept e a b) (k : Kept e b c) : Kept e a c := by
  refine ⟨k.en.trans h.en, k.num.trans h.num, k.rpmu.trans h.rpmu, k.rgic.trans h.rgic,
    fun r h1 h2 => (k.rsys r h1 h2).trans (h.rsys r h1 h2), k.pmuOk, k.ro.trans h.ro, fun x => ?_, fun i hi => ?_,
    k.cptr.trans h.cptr⟩
  · exact (k.off (by rw [h.en]; exact x)).trans (h.off x)
  · have a1 := h.high i hi
    have a2 := k.high i (by rw [h.num]; exact hi)
    exact ⟨a2.1.trans a1.1, a2.2.trans a1.2⟩

theorem timers_kept {e : Env} {s s' : St} (hp : PmuOk e s.hw.pmu) (h : Timers s s') : Kept e s s' := by
  obtain ⟨r1, r2, r3, r4, r5, r6, r7, r8⟩ := h.rest
  refine ⟨r7, r8, r2, r1, fun r _ h2 => h.rcSys r h2, by rw [h.pmu]; exact hp, by rw [h.pmu], fun _ => h.pmu,
    fun i _ => by rw [h.pmu]; exact ⟨rfl, rfl⟩, h.hwSys _ (by decide)⟩

theorem round_kept {e : Env} {apia : Nat → W} {s s' : St} (hp : PmuOk e s.hw.pmu) (h : Round e apia s s') :
    Kept e s s' := by
  obtain ⟨s1, h1, ht, hr, hh⟩ := h
  have k1 := timers_kept hp ht
  obtain ⟨t1, t2, t3⟩ := toRealm_hw s1
  obtain ⟨f1, f2, f3, f4, _⟩ := fromRealm_hw e apia (s.hw.sys .cptr2) { hw := h1, rc := (toRealm s1).rc }
  obtain ⟨c1, c2, c3, c4, c5, _⟩ := fromRealm_rc e apia (s.hw.sys .cptr2) { hw := h1, rc := (toRealm s1).rc }
  obtain ⟨d1, d2, d3, d4, d5⟩ := hh.rest
  have hrc := toRealm_rc s1
  have c1 := c1.trans (congrArg Rec.sys hrc)
  have c2 := c2.trans (congrArg Rec.gic hrc)
  have c3 := c3.trans (congrArg Rec.pmu hrc)
  have c4 := c4.trans (congrArg Rec.pmuEn hrc)
  have c5 := c5.trans (congrArg Rec.num hrc)
  have hpmu : s'.hw.pmu = h1.pmu := hh.pmu.trans f1
  have hc : h1.sys .cptr2 = s1.rc.sys .cptr2 := by
    rw [hr.el2 .cptr2 (by decide), toRealm_cptr]
  have hk : Kept e s1 s' := by
    refine ⟨d4.trans c4, d5.trans c5, d2.trans c3, d1.trans c2, fun r q1 _ => by rw [hh.rcSys r q1, c1],
      by rw [hpmu]; exact hr.pmuOk, by rw [hpmu, hr.ro, t1], fun x => by rw [hpmu, hr.off x, t1],
      fun i hi => by rw [hpmu]; have := hr.high i hi; rw [t1] at this; exact this, ?_⟩
    rw [hh.hwSys _ (by decide), fromRealm_cptr _ _ _ _ (by simp only [hrc]; exact hc), ht.hwSys _ (by decide)]
  exact k1.trans hk

theorem loop_kept {e : Env} {apia : Nat → W} {s s' : St} (hp : PmuOk e s.hw.pmu) (h : Loop e apia s s') :
    Kept e s s' := by
  induction h with
  | timer h => exact timers_kept hp h
  | last h => exact round_kept hp h
  | more h _ ih =>
    have k := round_kept hp h
    exact k.trans (ih k.pmuOk)

/-! ## The PMU through the switch -/

theorem pmcr_bits (p : W) (h : p &&& ~~~(PMCR_RO ||| PMCR_CTL) = 0) : (p &&& PMCR_RO) ||| (p &&& PMCR_CTL) = p := by
  apply BitVec.eq_of_getLsbD_eq
  intro i hi
  have z : (0 : W).getLsbD i = false := by simp
  have a := congrArg (fun w : W => w.getLsbD i) h
  simp only [BitVec.getLsbD_and, BitVec.getLsbD_not, BitVec.getLsbD_or, z, hi, decide_true, Bool.true_and] at a
  simp only [BitVec.getLsbD_and, BitVec.getLsbD_or]
  revert a
  generalize PMCR_RO.getLsbD i = x
  generalize PMCR_CTL.getLsbD i = y
  generalize p.getLsbD i = z
  cases x <;> cases y <;> cases z <;> decide

theorem ro_of_write (p : Pmu) (v : W) : (writePmcr p v).pmcr &&& PMCR_RO = p.pmcr &&& PMCR_RO := by
  simp only [writePmcr]
  apply BitVec.eq_of_getLsbD_eq
  intro i hi
  have a : ∀ k : Fin 64, (PMCR_RO.getLsbD k && PMCR_CTL.getLsbD k) = false := by decide
  have b := a ⟨i, hi⟩
  simp only [BitVec.getLsbD_and, BitVec.getLsbD_or]
  revert b
  simp only
  generalize PMCR_RO.getLsbD i = x
  generalize PMCR_CTL.getLsbD i = y
  generalize p.pmcr.getLsbD i = z
  generalize v.getLsbD i = w
  cases x <;> cases y <;> cases z <;> cases w <;> decide

theorem ctl_of_write (p : Pmu) (v : W) : (writePmcr p v).pmcr &&& PMCR_CTL = v &&& PMCR_CTL := by
  simp only [writePmcr]
  apply BitVec.eq_of_getLsbD_eq
  intro i hi
  have a : ∀ k : Fin 64, (PMCR_RO.getLsbD k && PMCR_CTL.getLsbD k) = false := by decide
  have b := a ⟨i, hi⟩
  simp only [BitVec.getLsbD_and, BitVec.getLsbD_or]
  revert b
  simp only
  generalize PMCR_RO.getLsbD i = x
  generalize PMCR_CTL.getLsbD i = y
  generalize p.pmcr.getLsbD i = z
  generalize v.getLsbD i = w
  cases x <;> cases y <;> cases z <;> cases w <;> decide

theorem write_ok {e : Env} {p : Pmu} (h : PmuOk e p) (v : W) : PmuOk e (writePmcr p v) := by
  refine ⟨?_, h.cnten, h.inten, h.ovs⟩
  simp only [writePmcr]
  apply BitVec.eq_of_getLsbD_eq
  intro i hi
  simp only [BitVec.getLsbD_and, BitVec.getLsbD_or, BitVec.getLsbD_not, hi, decide_true, Bool.true_and]
  have z : (0 : W).getLsbD i = false := by simp
  rw [z]
  generalize PMCR_RO.getLsbD i = x
  generalize PMCR_CTL.getLsbD i = y
  generalize p.pmcr.getLsbD i = z
  generalize v.getLsbD i = w
  cases x <;> cases y <;> cases z <;> cases w <;> decide

/-- A value that `PmuOk` allows sets neither P nor C. -/
theorem no_reset {p : W} (h : p &&& ~~~(PMCR_RO ||| PMCR_CTL) = 0) : p &&& PMCR_P = 0 ∧ p &&& PMCR_C = 0 := by
  have key : ∀ m : W, (∀ k : Fin 64, m.getLsbD k = true → (PMCR_RO ||| PMCR_CTL).getLsbD k = false) → p &&& m = 0 := by
    intro m hm
    apply BitVec.eq_of_getLsbD_eq
    intro i hi
    have z : (0 : W).getLsbD i = false := by simp
    have a := congrArg (fun w : W => w.getLsbD i) h
    have b := hm ⟨i, hi⟩
    simp only [BitVec.getLsbD_and, BitVec.getLsbD_not, z, hi, decide_true, Bool.true_and] at a
    rw [BitVec.getLsbD_and, z]
    revert a b
    simp only
    generalize (PMCR_RO ||| PMCR_CTL).getLsbD i = x
    generalize m.getLsbD i = y
    generalize p.getLsbD i = z
    cases x <;> cases y <;> cases z <;> decide
  exact ⟨key _ (by decide), key _ (by decide)⟩

theorem setclr_ok (e : Env) (r v w : W) (h : r &&& ~~~e.imp = 0) : clrBits (setBits e r v) w &&& ~~~e.imp = 0 := by
  apply BitVec.eq_of_getLsbD_eq
  intro i hi
  have z : (0 : W).getLsbD i = false := by simp
  have a := congrArg (fun w : W => w.getLsbD i) h
  simp only [BitVec.getLsbD_and, BitVec.getLsbD_not, z, hi, decide_true, Bool.true_and] at a
  simp only [clrBits, setBits, BitVec.getLsbD_and, BitVec.getLsbD_or, BitVec.getLsbD_not, z, hi, decide_true,
    Bool.true_and]
  revert a
  generalize e.imp.getLsbD i = x
  generalize r.getLsbD i = y
  generalize v.getLsbD i = z
  generalize w.getLsbD i = u
  cases x <;> cases y <;> cases z <;> cases u <;> decide

theorem restore_ok {e : Env} {p : Pmu} (h : PmuOk e p) (s : PmuS) (num : Nat) : PmuOk e (pmuRestore e s p num) := by
  rw [pmuRestore_eq]
  exact ⟨h.pmcr, setclr_ok _ _ _ _ h.cnten, setclr_ok _ _ _ _ h.inten, setclr_ok _ _ _ _ h.ovs⟩

/-- Restoring what `pmu_save_state` saved gives the PMU back, whatever happened to it: all but the counters from `num` on. -/
theorem pmu_back {e : Env} (he : Fine e) {p q : Pmu} (hp : PmuOk e p) (hq : PmuOk e q) (s : PmuS) {num : Nat}
    (hn : num ≤ e.nctr) (hc : q.pmcr = p.pmcr) : SamePmu num p (pmuRestore e (pmuSave e p s num) q num) := by
  rw [pmuRestore_eq]
  have hf := he.nctr
  simp only [pmuSave_eq]
  refine ⟨hc, rfl, ?_, set_clr he.imp hq.cnten hp.cnten, set_clr he.imp hq.inten hp.inten,
    set_clr he.imp hq.ovs hp.ovs, rfl, rfl, fun i hi => ?_⟩
  · change (if sel p < e.nctr then p.ccfiltr else if sel p = 31 then readXtyper e p else p.ccfiltr) = p.ccfiltr
    unfold readXtyper
    by_cases a : sel p < e.nctr
    · rw [if_pos a]
    · rw [if_neg a, if_neg a]
      by_cases b : sel p = 31
      · rw [if_pos b, if_pos b]
      · rw [if_neg b]
  · have : i ∈ ctrs num := (mem_ctrs (by omega)).2 hi
    simp [this]

/-! ## The four context moves in closed form -/

theorem saveRealm_eq (e : Env) (h : Hw) (c : Rec) : (saveRealm e h c).1 = { h with gic := (gicSave e h.gic c.gic).2 } ∧
    (saveRealm e h c).2.1 = { c with
      sys := upd (upd (saveSys e h c.sys) .elr2 (h.sys .elr2)) .spsr2 (h.sys .spsr2)
      gic := (gicSave e h.gic c.gic).1
      pmu := if c.pmuEn then pmuSave e h.pmu c.pmu c.num else c.pmu } := by
  unfold saveRealm
  by_cases hp : c.pmuEn <;> simp [hp]

theorem restoreRealm_eq (e : Env) (c : Rec) (h : Hw) : restoreRealm e c h = { h with
    sys := fun r =>
      if r = .cnthctl2 ∨ r = .elr2 ∨ r = .spsr2 ∨ r = .hcr2 ∨ r = .mdcr2 ∨ r = .vtcr2 ∨ r = .vttbr2 ∨
        (r ∈ restoreList ∧ r ≠ .pmcr ∧ present e r) then c.sys r else h.sys r
    gic := gicRestore e c.gic h.gic
    pmu := if c.pmuEn then pmuRestore e c.pmu (writePmcr h.pmu (c.sys .pmcr)) c.num
      else writePmcr h.pmu (c.sys .pmcr) } := by
  unfold restoreRealm
  simp only [write, restoreSys_eq]
  have key : upd (upd (upd (upd (upd (upd (fun r => if r ∈ restoreList ∧ r ≠ .pmcr ∧ present e r then c.sys r
      else upd h.sys .cnthctl2 (c.sys .cnthctl2) r) .elr2 (c.sys .elr2)) .spsr2 (c.sys .spsr2)) .hcr2 (c.sys .hcr2))
      .mdcr2 (c.sys .mdcr2)) .vtcr2 (c.sys .vtcr2)) .vttbr2 (c.sys .vttbr2) = fun r =>
      if r = .cnthctl2 ∨ r = .elr2 ∨ r = .spsr2 ∨ r = .hcr2 ∨ r = .mdcr2 ∨ r = .vtcr2 ∨ r = .vttbr2 ∨
        (r ∈ restoreList ∧ r ≠ .pmcr ∧ present e r) then c.sys r else h.sys r := by
    funext r
    cases r <;> simp [upd, restoreList]
  by_cases hp : c.pmuEn
  · simp only [hp, if_true, key]
  · simp only [hp, Bool.false_eq_true, if_false, key]

theorem saveNs_eq (e : Env) (c : Rec) (h : Hw) (n : Ns) : saveNs e c h n =
    { sys := upd (upd (saveSys e h n.sys) .cnthctl2 (h.sys .cnthctl2)) .iccSre2 (h.sys .iccSre2)
      pmu := if c.pmuEn then pmuSave e h.pmu n.pmu c.num else n.pmu } := by
  unfold saveNs
  by_cases hp : c.pmuEn <;> simp [hp]

theorem restoreNs_eq (e : Env) (c : Rec) (n : Ns) (h : Hw) : restoreNs e c n h = { h with
    sys := fun r => if r = .cnthctl2 ∨ r = .iccSre2 ∨ (r ∈ restoreList ∧ r ≠ .pmcr ∧ present e r) then n.sys r
      else h.sys r
    pmu := if c.pmuEn then pmuRestore e n.pmu (writePmcr h.pmu (n.sys .pmcr)) c.num
      else writePmcr h.pmu (n.sys .pmcr) } := by
  unfold restoreNs
  simp only [write, restoreSys_eq]
  have key : upd (upd (fun r => if r ∈ restoreList ∧ r ≠ .pmcr ∧ present e r then n.sys r else h.sys r)
      .cnthctl2 (n.sys .cnthctl2)) .iccSre2 (n.sys .iccSre2) = fun r =>
      if r = .cnthctl2 ∨ r = .iccSre2 ∨ (r ∈ restoreList ∧ r ≠ .pmcr ∧ present e r) then n.sys r else h.sys r := by
    funext r
    cases r <;> simp [upd, restoreList]
  by_cases hp : c.pmuEn
  · simp only [hp, if_true, key]
  · simp only [hp, Bool.false_eq_true, if_false, key]

/-- The loop starts from hardware whose PMU bits make sense. -/
theorem restoreRealm_ok {e : Env} {h : Hw} (hp : PmuOk e h.pmu) (c : Rec) : PmuOk e (restoreRealm e c h).pmu := by
  rw [restoreRealm_eq]
  simp only
  split
  · exact restore_ok (write_ok hp _) _ _
  · exact write_ok hp _

end Verif.Switch
