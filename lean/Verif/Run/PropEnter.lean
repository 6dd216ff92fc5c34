import Verif.Run.PropExit

/-!
# C26 and C27: when a REC runs, and what an emulated access gives it
-/

namespace Verif.Run

/-! ## Specification -/

namespace Spec

/-- The last exit was a data abort that the host can emulate. -/
def LastEmulatable (r : Rec) : Prop := ec r.lastEsr = EC_DABT ∧ isv r.lastEsr = true

/-- The last exit was a data abort at an address outside the protected half. -/
def LastShared (r : Rec) : Prop := ec r.lastEsr = EC_DABT ∧ parSize r ≤ fipaOf r.lastHpfar

/-- The reasons to refuse REC_ENTER, in order of priority, with the return code. -/
def checks (c : Call) (w : World) : List (Prop × W) :=
  [ (¬ c.runOk = true, RMI_ERROR_INPUT),
    (c.find = .inval, RMI_ERROR_INPUT),
    (c.find = .busy, RMI_ERROR_REC),
    (¬ c.readOk = true, RMI_ERROR_INPUT),
    (w.state = .new, RMI_ERROR_REALM),
    (w.state = .systemOff, RMI_ERROR_REALM_OFF),
    (w.rc.runnable = false, RMI_ERROR_REC),
    (w.rc.pending = true, RMI_ERROR_REC),
    (¬ Gic.Spec.Ok c.feat c.enter.gic, RMI_ERROR_REC),
    (c.enter.flags.getLsbD 1 = true ∧ ¬ LastShared w.rc, RMI_ERROR_REC),
    (c.enter.flags.getLsbD 0 = true ∧ c.enter.flags.getLsbD 1 = false ∧ ¬ LastEmulatable w.rc, RMI_ERROR_REC) ]

/-- The code of the first condition of a list that holds. -/
inductive First : List (Prop × W) → Option W → Prop
  | nil : First [] none
  | hit {p : Prop} {v : W} {l : List (Prop × W)} : p → First ((p, v) :: l) (some v)
  | skip {p : Prop} {v : W} {l : List (Prop × W)} {r : Option W} : ¬ p → First l r → First ((p, v) :: l) r

/-- The value a load of `bits` bits gives for the data `v`: sign or zero extended, to 64 or 32 bits. -/
def loaded (bits : Nat) (sign x64 : Bool) (v : W) : W :=
  let t : BitVec bits := v.setWidth bits
  if sign then (if x64 then t.signExtend 64 else (t.signExtend 32).setWidth 64) else t.setWidth 64

/-- Size of the access in a syndrome: bits 23:22 are its logarithm in bytes. -/
def accessBits (e : W) : Nat := 8 * 2 ^ (e.toNat / 2 ^ 22 % 4)

end Spec

open Spec

/-! ## C26 -/

/-- The REC is unchanged except for the virtual interrupt state and nothing was reported. -/
structure Refused (w : World) (o : Out) : Prop where
  ran : o.ran = false
  host : o.host = none
  rc : o.w.rc = { w.rc with gic := o.w.rc.gic }
  mem : o.w.mem = w.mem
  state : o.w.state = w.state
  slots : o.w.slots = w.slots
  att : o.w.att = w.att

theorem completeSea_none {r : Rec} {e : Enter} (h : completeSea r e = some none) :
    e.flags.getLsbD 1 = true ∧ ¬ LastShared r := by
  unfold completeSea at h
  rcases ite_or h with ⟨h1, h⟩ | ⟨h1, h⟩
  · simp at h
  have hs : e.flags.getLsbD 1 = true := by simpa [Enter.injectSea] using h1
  refine ⟨hs, ?_⟩
  rintro ⟨ha, hb⟩
  rcases ite_or h with ⟨h2, h⟩ | ⟨h2, h⟩
  · exact h2 ha
  rcases ite_or h with ⟨h3, h⟩ | ⟨h3, h⟩
  · unfold inPar at h3
    exact absurd (by simpa using h3) (BitVec.not_lt.mpr hb)
  · obtain ⟨_, _, h⟩ := map_some h
    simp at h

theorem completeSea_ok {r r' : Rec} {e : Enter} (h : completeSea r e = some (some r')) :
    ¬ (e.flags.getLsbD 1 = true ∧ ¬ LastShared r) := by
  rintro ⟨h1, h2⟩
  rcases (completeSea_some h).2.2 with ⟨h3, _⟩ | ⟨_, h3, h4, _⟩
  · unfold Enter.injectSea at h3; exact absurd (h1.symm.trans h3) (by decide)
  · refine h2 ⟨h3, ?_⟩
    unfold inPar at h4
    exact BitVec.not_lt.mp (by simpa using h4)

theorem completeMmio_none {r : Rec} {e : Enter} (h : completeMmio r e = some none) :
    e.flags.getLsbD 0 = true ∧ e.flags.getLsbD 1 = false ∧ ¬ LastEmulatable r := by
  unfold completeMmio at h
  rcases ite_or h with ⟨h1, h⟩ | ⟨h1, h⟩
  · simp at h
  rcases ite_or h with ⟨h2, h⟩ | ⟨h2, h⟩
  · simp at h
  have hs : e.flags.getLsbD 0 = true := by simpa [Enter.emulMmio] using h1
  have hs2 : e.flags.getLsbD 1 = false := by simpa [Enter.injectSea] using h2
  refine ⟨hs, hs2, ?_⟩
  rintro ⟨ha, hb⟩
  rcases ite_or h with ⟨h2, h⟩ | ⟨h2, h⟩
  · rcases h2 with h2 | h2
    · exact h2 ha
    · simp [h2] at hb
  rcases ite_or h with ⟨h3, h⟩ | ⟨h3, h⟩
  · obtain ⟨_, _, h⟩ := map_some h
    simp at h
  · simp at h

theorem completeMmio_ok {r r' : Rec} {e : Enter} (h : completeMmio r e = some (some r')) :
    ¬ (e.flags.getLsbD 0 = true ∧ e.flags.getLsbD 1 = false ∧ ¬ LastEmulatable r) := by
  rintro ⟨h1, h2, h3⟩
  rcases (completeMmio_some h).2 with ⟨h4 | h4, _⟩ | ⟨_, _, h4, h5, _⟩
  · unfold Enter.emulMmio at h4; exact absurd (h1.symm.trans h4) (by decide)
  · unfold Enter.injectSea at h4; exact absurd (h4.symm.trans h2) (by decide)
  · exact h3 ⟨h4, h5⟩

/-- Whether the host has to make the page of a host call structure accessible first. -/
def Blocked (c : Call) (w : World) : Prop :=
  w.rc.hostCall = true ∧ ∃ a r l, c.env.walk a = .miss r l ∧ r ≠ .empty

theorem first_of_checks {c : Call} {w : World} (hadm : Admitted c w)
    (h10 : ¬ (c.enter.flags.getLsbD 1 = true ∧ ¬ LastShared w.rc)) {r : Option W}
    (h : First [(c.enter.flags.getLsbD 0 = true ∧ c.enter.flags.getLsbD 1 = false ∧ ¬ LastEmulatable w.rc, RMI_ERROR_REC)] r) :
    First (checks c w) r := by
  refine .skip (by simp [hadm.runOk]) (.skip (by simp [hadm.find]) (.skip (by simp [hadm.find])
    (.skip (by simp [hadm.readOk]) (.skip (by simp [hadm.state]) (.skip (by simp [hadm.state])
    (.skip (by simp [hadm.runnable]) (.skip (by simp [hadm.pending]) (.skip ?_ (.skip h10 h)))))))))
  simpa using (Gic.C37_validate_iff _ _).mp hadm.gic

/-- **C26.**  REC_ENTER returns the code of the first of the conditions that holds, and then the REC does not
run and does not change (but see `C26_gic_written_on_error`).  If none holds the REC runs, unless the
page of a pending host call is not accessible; the code is success, or an input error if the exit cannot be
written to the host. -/
theorem C26_admission {c : Call} {w : World} {o : Out} (h : recEnter c w = some o) :
    ∃ r, First (checks c w) r ∧
      (∀ code, r = some code → o.code = code ∧ Refused w o) ∧
      (r = none → (o.ran = true ∨ Blocked c w) ∧ o.code = if c.writeOk then RMI_SUCCESS else RMI_ERROR_INPUT) := by
  unfold recEnter at h
  dsimp only at h
  rcases ite_or h with ⟨h1, h⟩ | ⟨h1, h⟩
  · obtain rfl := Option.some.inj h
    exact ⟨some _, .hit (by simpa using h1), by rintro _ ⟨⟩; exact ⟨rfl, ⟨rfl, rfl, rfl, rfl, rfl, rfl, rfl⟩⟩, by simp⟩
  rcases ite_or h with ⟨h2, h⟩ | ⟨h2, h⟩
  · obtain rfl := Option.some.inj h
    exact ⟨some _, .skip (by simpa using h1) (.hit h2), by rintro _ ⟨⟩; exact ⟨rfl, ⟨rfl, rfl, rfl, rfl, rfl, rfl, rfl⟩⟩, by simp⟩
  rcases ite_or h with ⟨h3, h⟩ | ⟨h3, h⟩
  · obtain rfl := Option.some.inj h
    exact ⟨some _, .skip (by simpa using h1) (.skip h2 (.hit h3)), by rintro _ ⟨⟩; exact ⟨rfl, ⟨rfl, rfl, rfl, rfl, rfl, rfl, rfl⟩⟩, by simp⟩
  rcases ite_or h with ⟨h4, h⟩ | ⟨h4, h⟩
  · obtain rfl := Option.some.inj h
    exact ⟨some _, .skip (by simpa using h1) (.skip h2 (.skip h3 (.hit (by simpa using h4)))),
      by rintro _ ⟨⟩; exact ⟨rfl, ⟨rfl, rfl, rfl, rfl, rfl, rfl, rfl⟩⟩, by simp⟩
  rcases ite_or h with ⟨h5, h⟩ | ⟨h5, h⟩
  · obtain rfl := Option.some.inj h
    exact ⟨some _, .skip (by simpa using h1) (.skip h2 (.skip h3 (.skip (by simpa using h4) (.hit h5)))),
      by rintro _ ⟨⟩; exact ⟨rfl, ⟨rfl, rfl, rfl, rfl, rfl, rfl, rfl⟩⟩, by simp⟩
  rcases ite_or h with ⟨h6, h⟩ | ⟨h6, h⟩
  · obtain rfl := Option.some.inj h
    exact ⟨some _, .skip (by simpa using h1) (.skip h2 (.skip h3 (.skip (by simpa using h4) (.skip h5 (.hit h6))))),
      by rintro _ ⟨⟩; exact ⟨rfl, ⟨rfl, rfl, rfl, rfl, rfl, rfl, rfl⟩⟩, by simp⟩
  rcases ite_or h with ⟨h7, h⟩ | ⟨h7, h⟩
  · obtain rfl := Option.some.inj h
    exact ⟨some _, .skip (by simpa using h1) (.skip h2 (.skip h3 (.skip (by simpa using h4) (.skip h5 (.skip h6 (.hit h7)))))),
      by rintro _ ⟨⟩; exact ⟨rfl, ⟨rfl, rfl, rfl, rfl, rfl, rfl, rfl⟩⟩, by simp⟩
  rcases ite_or h with ⟨h8, h⟩ | ⟨h8, h⟩
  · obtain rfl := Option.some.inj h
    exact ⟨some _, .skip (by simpa using h1) (.skip h2 (.skip h3 (.skip (by simpa using h4) (.skip h5 (.skip h6
      (.skip h7 (.hit h8))))))), by rintro _ ⟨⟩; exact ⟨rfl, ⟨rfl, rfl, rfl, rfl, rfl, rfl, rfl⟩⟩, by simp⟩
  rcases ite_or h with ⟨h9, h⟩ | ⟨h9, h⟩
  · obtain rfl := Option.some.inj h
    refine ⟨some _, .skip (by simpa using h1) (.skip h2 (.skip h3 (.skip (by simpa using h4) (.skip h5 (.skip h6
      (.skip h7 (.skip h8 (.hit ?_)))))))), by rintro _ ⟨⟩; exact ⟨rfl, ⟨rfl, rfl, rfl, rfl, rfl, rfl, rfl⟩⟩, by simp⟩
    intro hok
    rw [(Gic.C37_validate_iff _ _).mpr hok] at h9
    simp at h9
  have hadm : Admitted c w := by
    refine ⟨by simpa using h1, ?_, by simpa using h4, ?_, by simpa using h7, by simpa using h8, by simpa using h9⟩
    · cases hf : c.find <;> simp_all
    · cases hf : w.state <;> simp_all
  unfold enterChecked at h
  dsimp only at h
  obtain ⟨sr, hsea, h⟩ := bind_some h
  cases sr with
  | none =>
    obtain rfl := Option.some.inj h
    refine ⟨some RMI_ERROR_REC, ?_, by rintro _ ⟨⟩; exact ⟨rfl, ⟨rfl, rfl, rfl, rfl, rfl, rfl, rfl⟩⟩, by simp⟩
    refine .skip (by simp [hadm.runOk]) (.skip (by simp [hadm.find]) (.skip (by simp [hadm.find])
      (.skip (by simp [hadm.readOk]) (.skip (by simp [hadm.state]) (.skip (by simp [hadm.state])
      (.skip (by simp [hadm.runnable]) (.skip (by simp [hadm.pending]) (.skip ?_ (.hit ?_)))))))))
    · simpa using (Gic.C37_validate_iff _ _).mp hadm.gic
    · have := completeSea_none hsea
      exact this
  | some r1 =>
    have h10 : ¬ (c.enter.flags.getLsbD 1 = true ∧ ¬ LastShared w.rc) := by
      have := completeSea_ok hsea
      exact this
    obtain ⟨hadmin, _, hsc⟩ := completeSea_some hsea
    have hl : r1.lastEsr = w.rc.lastEsr := hadmin.lastEsr
    obtain ⟨mr, hmmio, h⟩ := bind_some h
    cases mr with
    | none =>
      obtain rfl := Option.some.inj h
      have h11 := completeMmio_none hmmio
      refine ⟨some RMI_ERROR_REC, first_of_checks hadm h10 (.hit ?_), ?_, by simp⟩
      · refine ⟨h11.1, h11.2.1, ?_⟩
        have := h11.2.2
        unfold LastEmulatable at this ⊢
        rwa [hl] at this
      · rintro _ ⟨⟩
        refine ⟨rfl, ⟨rfl, rfl, ?_, rfl, rfl, rfl, rfl⟩⟩
        rcases hsc with ⟨_, rfl⟩ | ⟨hs, _⟩
        · rfl
        · unfold Enter.injectSea at hs
          exact absurd (hs.symm.trans h11.2.1) (by decide)
    | some r2 =>
      have h11 := completeMmio_ok hmmio
      unfold enterComplete at h
      obtain ⟨r3, hsys, h⟩ := bind_some h
      obtain ⟨⟨w2, b⟩, hcall, h⟩ := bind_some h
      refine ⟨none, first_of_checks hadm h10 (.skip ?_ .nil), by simp, fun _ => ?_⟩
      · unfold LastEmulatable at h11 ⊢
        rwa [hl] at h11
      cases b with
      | true =>
        obtain ⟨w3, _, rfl⟩ := runRec_some (by simpa using h)
        refine ⟨.inl (leave_ran _ _ _), ?_⟩
        unfold leave
        split <;> rfl
      | false =>
        obtain rfl : leave c w2 false = o := by simpa using h
        refine ⟨.inr ?_, by unfold leave; split <;> rfl⟩
        obtain ⟨hhc, _, r, l, hw, hne, _⟩ := completeHostCall_false hcall
        refine ⟨?_, _, r, l, hw, hne⟩
        have e1 := (completeSysreg_some hsys).1.hostCall
        have e2 := (completeRipas_fields r2 c.enter).2.2.2.2.2.1
        have e3 := (completeMmio_some hmmio).1.hostCall
        have e4 := hadmin.hostCall
        rw [← e4, ← e3, ← e2, ← e1]
        exact hhc

/-- **C26.**  A REC runs only if it is runnable, idle, waits for no PSCI completion, its realm is active, and the
interrupt state the host asks for is valid. -/
theorem C26_runs_only_if {c : Call} {w : World} {o : Out} (h : recEnter c w = some o) (hran : o.ran = true) :
    c.find = .ok ∧ w.state = .active ∧ w.rc.runnable = true ∧ w.rc.pending = false ∧ Gic.Spec.Ok c.feat c.enter.gic ∧
    (c.enter.flags.getLsbD 1 = true → LastShared w.rc) ∧
    (c.enter.flags.getLsbD 0 = true → c.enter.flags.getLsbD 1 = false → LastEmulatable w.rc) := by
  obtain ⟨r1, r2, r3, p, hp, _, _⟩ := recEnter_ran h hran
  refine ⟨hp.adm.find, hp.adm.state, hp.adm.runnable, hp.adm.pending, (Gic.C37_validate_iff _ _).mp hp.adm.gic, ?_, ?_⟩
  · intro h1
    have := completeSea_ok hp.sea
    by_contra h2
    exact this ⟨h1, h2⟩
  · intro h1 h2
    have := completeMmio_ok hp.mmio
    by_contra h3
    refine this ⟨h1, h2, ?_⟩
    unfold LastEmulatable at h3 ⊢
    rwa [(completeSea_some hp.sea).1.lastEsr]

end Verif.Run
