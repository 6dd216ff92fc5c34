import Verif.Switch.First

/-!
# DISR_EL1 as the realm sees it (C62, C83)

The switch saves and restores DISR_EL1 (run.c:59 and 121), but it does so at EL2, where the name means the physical
register. HCR_EL2.AMO is set for every realm (`HCR_REALM_FLAGS`, /repo/lib/arch/include/arch.h:184-187), and with it a
realm's DISR_EL1 is VDISR_EL2 (Arm ARM, FEAT_RAS). Nothing in /repo names VDISR_EL2.
-/

namespace Verif.Switch

/-- What a realm reads when it reads DISR_EL1, by the Arm ARM: VDISR_EL2 if HCR_EL2.AMO (bit 5) is set, else DISR_EL1. A
write goes to the same register. -/
def disrSeen (h : Hw) : W := if (h.sys .hcr2).getLsbD 5 then h.sys .vdisr2 else h.sys .disr1

variable {e : Env} {apia : Nat → W}

theorem vdisr_in (c : Rec) (k : Hw) {s : St} (ht : Timers { hw := restoreRealm e c k, rc := c } s) :
    (toRealm s).hw.sys .vdisr2 = k.sys .vdisr2 := by
  rw [(toRealm_hw s).2.2 _ (by decide) (by decide) (by decide) (by decide), ht.hwSys _ (by decide)]
  simp only [restoreRealm_eq]
  rw [if_neg (by simp [restoreList])]

theorem amo_in (he : Fine e) (c : Rec) (k : Hw) {s : St} (ht : Timers { hw := restoreRealm e c k, rc := c } s)
    (amo : (c.sys .hcr2).getLsbD 5 = true) : ((toRealm s).hw.sys .hcr2).getLsbD 5 = true := by
  rw [(C62_loaded he c k ht).2.2.1]
  cases c.inject
  · simpa using amo
  · simp [amo]

/-- What a realm leaves in VDISR_EL2 is there when RMM returns to the host. -/
theorem vdisr_out {h : Hw} {c : Rec} {cptr cptr' : W} {s : St} (n : Ns)
    (hx : Handles (fromRealm e apia cptr { hw := h, rc := c }) s) :
    let v := saveRealm e s.hw { s.rc with sys := upd s.rc.sys .cptr2 cptr' }
    (restoreNs e v.2.1 n v.1).sys .vdisr2 = h.sys .vdisr2 := by
  simp only [restoreNs_eq]
  rw [if_neg (by simp [restoreList]), (saveRealm_eq _ _ _).1]
  show s.hw.sys .vdisr2 = _
  rw [hx.hwSys _ (by decide), (fromRealm_hw _ _ _ _).2.2.1 _ (by decide) (by decide)]

/-- C62, a case where it fails: DISR_EL1 is the next REC's, whosever that is. A realm leaves the CPU as `h`, RMM saves its
REC `c` and returns to the host; later, with VDISR_EL2 as RMM left it, RMM enters any REC `c'`, of the same realm or of
another. That REC reads from DISR_EL1 what the first had there. -/
theorem C62_disr_shared (he : Fine e) {h k : Hw} {c c' : Rec} {cptr cptr' : W} {s s' : St} (n : Ns)
    (amo : (h.sys .hcr2).getLsbD 5 = true) (amo' : (c'.sys .hcr2).getLsbD 5 = true)
    (hx : Handles (fromRealm e apia cptr { hw := h, rc := c }) s)
    (hk : let v := saveRealm e s.hw { s.rc with sys := upd s.rc.sys .cptr2 cptr' }
          k.sys .vdisr2 = (restoreNs e v.2.1 n v.1).sys .vdisr2)
    (ht : Timers { hw := restoreRealm e c' k, rc := c' } s') :
    disrSeen (toRealm s').hw = disrSeen h := by
  simp only [disrSeen, amo, amo_in he c' k ht amo', if_true]
  rw [vdisr_in c' k ht]
  exact hk.trans (vdisr_out n hx)

/-- C83, the register it misses: at its first instruction a new REC reads from DISR_EL1 what was in VDISR_EL2 of the CPU,
be it anything. -/
theorem C83_disr {e : Env} (he : Fine e) (a : Params) (d : Rd) (m : W) (host : Enter) (hn : d.ctrs ≤ e.nctr) {k : Hw}
    (hk : PmuOk e k.pmu) {s : St}
    (ht : Timers { hw := restoreRealm e (firstEnter e (create zeroPage a d m) host) k
                   rc := firstEnter e (create zeroPage a d m) host } s) :
    disrSeen (toRealm s).hw = k.sys .vdisr2 := by
  have amo := (C83_start_partial he a d m host hn hk ht).hcr2 5
  simp only [disrSeen]
  rw [amo]
  simpa using vdisr_in _ k ht

namespace Demo

/-- A realm has put 0x5EC into its DISR_EL1; the physical one is 7. -/
def teller : Hw := { realm host with sys := upd (upd (realm host).sys .vdisr2 0x5EC) .hcr2 0x20 }
example : disrSeen teller = 0x5EC ∧ teller.sys .disr1 = 7 := by decide
/-- The realm may do that. -/
example : RealmRuns env newRec { host with sys := upd host.sys .hcr2 0x20 } teller := by
  refine ⟨fun r hr => ?_, Or.inl rfl, ⟨by decide, by decide, by decide, by decide⟩, rfl, fun x => (by cases x),
    fun i hi => ?_⟩
  · revert hr; cases r <;> decide
  · have h : 2 ≤ i := hi
    have : i ≠ 0 := by omega
    simp [teller, realm, upd, this]

/-- A REC of another realm, entered for the first time, reads it, though its saved DISR_EL1 is zero. -/
example : ∃ s' : St, disrSeen (toRealm s').hw = 0x5EC ∧ s'.rc.sys .disr1 = 0 := by
  let c' : Rec := { newRec with sys := upd (fun _ => 0) .hcr2 0x20 }
  let s := fromRealm env (fun _ => 5) 0 { hw := teller, rc := newRec }
  let v := saveRealm env s.hw { s.rc with sys := upd s.rc.sys .cptr2 0 }
  refine ⟨{ hw := restoreRealm env c' (restoreNs env v.2.1 ns v.1), rc := c' }, ?_, rfl⟩
  exact (C62_disr_shared (apia := fun _ => 5) (h := teller) (c := newRec) (cptr := 0) (cptr' := 0) fine ns (by decide)
    (by decide) (handles_refl _) rfl (timers_refl _)).trans (by decide)

example : ∃ h : Hw, disrSeen h = 7 ∧ h.sys .disr1 = 0 := by
  have h := C83_disr fine params rd 7 enter (by decide) (k := host) hostOk (timers_refl _)
  exact ⟨_, h.trans rfl, (C83_start_partial fine params rd 7 enter (by decide) (k := host) hostOk (timers_refl _)).other _
    (by decide) (by decide) rfl⟩

end Demo

end Verif.Switch
