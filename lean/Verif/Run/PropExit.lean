import Verif.Run.Lemmas
import Verif.Run.Demo

/-!
# C28: what the host is told about an exit

The specification `Filtered` lists, field by field, what may appear in the exit structure and where it
comes from.  It is proved for every exit that ends a run (`C28_filtered_partial`), for all register
files, memories, syndromes and any number of exits handled before.

The code deviates from it in two ways, which are the two hypotheses of the theorem, and for each of them a
concrete exit that discloses more is given (`C28_write_without_syndrome`, `C28_host_call_page_offset`).
-/

namespace Verif.Run

/-! ## Specification -/

namespace Spec

/-- `y` consists of the bits `p` of `v`. -/
def Keeps (p : Nat → Prop) (v y : W) : Prop := ∀ k < 64, y.getLsbD k = true ↔ v.getLsbD k = true ∧ p k

/-- Bits of the syndrome of an abort that is not emulated: EC 31:26, SET 12:11, FnV 10, EA 9, FSC 5:0. -/
def nonEmul (k : Nat) : Prop := (26 ≤ k ∧ k ≤ 31) ∨ (9 ≤ k ∧ k ≤ 12) ∨ k ≤ 5
/-- Bits for an emulatable access: also ISV 24, SAS 23:22, SF 15, WnR 6. -/
def emul (k : Nat) : Prop := nonEmul k ∨ k = 24 ∨ k = 23 ∨ k = 22 ∨ k = 15 ∨ k = 6
/-- Bits for WFx: EC and TI. -/
def wfx (k : Nat) : Prop := (26 ≤ k ∧ k ≤ 31) ∨ k = 0
/-- Bits for SError: IDS 24, AET 12:10, EA 9, DFSC 5:0. -/
def serr (k : Nat) : Prop := k = 24 ∨ (9 ≤ k ∧ k ≤ 12) ∨ k ≤ 5

/-- A synchronous exception of class `c`. -/
def Sync (c : BitVec 6) (e : Exc) (hw : Hw) : Prop := e = .sync ∧ ec hw.esr = c

/-- A data abort of 64-bit code at an address in the half of the address space shared with the host. -/
def Shared (w : World) (e : Exc) (hw : Hw) : Prop :=
  Sync EC_DABT e hw ∧ w.rc.pstate.getLsbD 4 = false ∧ parSize w.rc ≤ fipaOf hw.hpfar ∧ fipaOf hw.hpfar < ipaSize w.rc

/-- A write to one of ICC_SGI1R_EL1, ICC_ASGI1R_EL1 and ICC_SGI0R_EL1: op0 3, op1 0, CRn 12, CRm 11 and
op2 5, 6 or 7; the code has no op2 6 but 1 (ICC_DIR_EL1). -/
def Sgi (e : Exc) (hw : Hw) : Prop :=
  Sync EC_SYSREG e hw ∧ hw.esr.getLsbD 0 = false ∧ hw.esr.extractLsb' 20 2 = (3 : BitVec 2) ∧
  hw.esr.extractLsb' 14 3 = (0 : BitVec 3) ∧ hw.esr.extractLsb' 10 4 = (12 : BitVec 4) ∧
  hw.esr.extractLsb' 1 4 = (11 : BitVec 4) ∧
  (hw.esr.extractLsb' 17 3 = (1 : BitVec 3) ∨ hw.esr.extractLsb' 17 3 = (5 : BitVec 3) ∨
   hw.esr.extractLsb' 17 3 = (7 : BitVec 3))

/-- The realm called the function `f`. -/
def Calls (w : World) (e : Exc) (hw : Hw) (f : BitVec 32) : Prop := Sync EC_SMC e hw ∧ fid w.rc = f

/-- The identifiers of the PSCI calls that name a target: CPU_ON and AFFINITY_INFO, 32- and 64-bit. -/
def Targets (x0 : W) : Prop :=
  x0.toNat % 2 ^ 32 = 0x84000003 ∨ x0.toNat % 2 ^ 32 = 0xC4000003 ∨
  x0.toNat % 2 ^ 32 = 0x84000004 ∨ x0.toNat % 2 ^ 32 = 0xC4000004

/-- What the exit structure `x` may contain when the realm, in the state `w`, took the exception `e`. -/
structure Filtered (env : Env) (w : World) (e : Exc) (hw : Hw) (x : Exit) : Prop where
  /-- offset in the page, for shared addresses only -/
  far : x.far ≠ 0 → Shared w e hw ∧ x.far.toNat = hw.far.toNat % 4096
  /-- number of the page that could not be accessed -/
  hpfar : x.hpfar ≠ 0 →
    ((Sync EC_DABT e hw ∨ Sync EC_IABT e hw) ∧ x.hpfar = hw.hpfar) ∨
    (Sync EC_SMC e hw ∧ x.hpfar.toNat = (w.rc.regs 1).toNat / 4096 * 16)
  esr : x.esr ≠ 0 →
    ((Sync EC_DABT e hw ∨ Sync EC_IABT e hw) ∧ Keeps nonEmul hw.esr x.esr) ∨
    (Shared w e hw ∧ Keeps emul hw.esr x.esr) ∨
    (Sync EC_WFX e hw ∧ Keeps wfx hw.esr x.esr) ∨
    (e = .serror ∧ Keeps serr hw.esr x.esr) ∨
    (Sgi e hw ∧ x.esr = hw.esr) ∨
    (Sync EC_SMC e hw ∧ ∃ level ≤ 3, x.esr.toNat = 0x90000004 + level)
  /-- register contents: the data of a write the host has to emulate, truncated to its size; the
  value of a write that generates an interrupt; the identifier and the target of a PSCI call; the
  contents of a host call structure -/
  gprs : ∀ i, x.gprs i ≠ 0 →
    (i = 0 ∧ Shared w e hw ∧ wnr hw.esr = true ∧ isv hw.esr = true ∧
      (x.gprs 0).toNat = (w.rc.regs (srt hw.esr)).toNat % 2 ^ (8 * accessLen hw.esr)) ∨
    (i = 0 ∧ Sgi e hw ∧ x.gprs 0 = w.rc.regs (srRt hw.esr)) ∨
    (Sync EC_SMC e hw ∧ x.reason = EXIT_PSCI ∧ x.gprs i = w.rc.regs i ∧ (i = 0 ∨ (i = 1 ∧ Targets (w.rc.regs 0)))) ∨
    (i < 31 ∧ Calls w e hw 0xC4000199 ∧ x.reason = EXIT_HOST_CALL ∧
      ∃ pa, env.walk (w.rc.regs 1 &&& ~~~0xfff) = .ram pa ∧
        x.gprs i = load64 w.mem (pa + (w.rc.regs 1).toNat % 4096 + 8 + 8 * i))
  ripas : x.ripasBase ≠ 0 ∨ x.ripasTop ≠ 0 ∨ x.ripasVal ≠ 0 →
    Calls w e hw 0xC4000197 ∧ x.reason = EXIT_RIPAS ∧ x.ripasBase = w.rc.regs 1 ∧ x.ripasTop = w.rc.regs 2 ∧
    x.ripasVal = (w.rc.regs 3).setWidth 8
  imm : x.imm ≠ 0 →
    Calls w e hw 0xC4000199 ∧ x.reason = EXIT_HOST_CALL ∧
    ∃ pa, env.walk (w.rc.regs 1 &&& ~~~0xfff) = .ram pa ∧
      x.imm = BitVec.ofNat 32 (Meas.leNat (load w.mem (pa + (w.rc.regs 1).toNat % 4096) 4))
  flags : x.flags = 0
  /-- the rest is filled in after the loop -/
  rest : x.gic = Exit.zero.gic ∧ x.cntpCtl = 0 ∧ x.cntpCval = 0 ∧ x.cntvCtl = 0 ∧ x.cntvCval = 0 ∧ x.pmuOvf = 0

end Spec

open Spec

/-! ## Masks -/

theorem keeps_nonEmul (v : W) : Keeps nonEmul v (v &&& M_NONEMUL) := by
  intro k hk
  have : ∀ k : Fin 64, M_NONEMUL.getLsbD k = true ↔ nonEmul k := by unfold nonEmul; decide +kernel
  have := this ⟨k, hk⟩
  simp only [BitVec.getLsbD_and, Bool.and_eq_true, this]

theorem keeps_emul (v : W) : Keeps emul v (v &&& M_EMUL) := by
  intro k hk
  have : ∀ k : Fin 64, M_EMUL.getLsbD k = true ↔ emul k := by unfold emul nonEmul; decide +kernel
  have := this ⟨k, hk⟩
  simp only [BitVec.getLsbD_and, Bool.and_eq_true, this]

theorem keeps_wfx (v : W) : Keeps wfx v (v &&& (M_EC ||| B_TI)) := by
  intro k hk
  have : ∀ k : Fin 64, (M_EC ||| B_TI).getLsbD k = true ↔ wfx k := by unfold wfx; decide +kernel
  have := this ⟨k, hk⟩
  rw [BitVec.getLsbD_and, Bool.and_eq_true, this]

theorem keeps_serr (v : W) : Keeps serr v (v &&& M_SERROR) := by
  intro k hk
  have : ∀ k : Fin 64, M_SERROR.getLsbD k = true ↔ serr k := by unfold serr; decide +kernel
  have := this ⟨k, hk⟩
  simp only [BitVec.getLsbD_and, Bool.and_eq_true, this]

theorem and_low_toNat (v m : W) (n : Nat) (hm : m.toNat = 2 ^ n - 1) : (v &&& m).toNat = v.toNat % 2 ^ n := by
  rw [BitVec.toNat_and, hm, Nat.and_two_pow_sub_one_eq_mod]

theorem accessMask_toNat (e : W) : (accessMask e).toNat = 2 ^ (8 * accessLen e) - 1 := by
  unfold accessMask accessLen
  repeat' split
  all_goals rfl

theorem and_accessMask (v e : W) : (v &&& accessMask e).toNat = v.toNat % 2 ^ (8 * accessLen e) :=
  and_low_toNat v _ _ (accessMask_toNat e)

theorem extract_mask (v m : W) (s n : Nat) (hm : m.extractLsb' s n = BitVec.allOnes n) :
    (v &&& m).extractLsb' s n = v.extractLsb' s n := by
  rw [BitVec.extractLsb'_and, hm, BitVec.and_allOnes]

theorem fields_of_sysreg {esr c : W} (h : esr &&& SYSREG_MASK = c) :
    esr.extractLsb' 20 2 = c.extractLsb' 20 2 ∧ esr.extractLsb' 14 3 = c.extractLsb' 14 3 ∧
    esr.extractLsb' 10 4 = c.extractLsb' 10 4 ∧ esr.extractLsb' 1 4 = c.extractLsb' 1 4 ∧
    esr.extractLsb' 17 3 = c.extractLsb' 17 3 := by
  subst h
  refine ⟨?_, ?_, ?_, ?_, ?_⟩ <;> exact (extract_mask _ _ _ _ (by decide)).symm

/-! ## The handlers -/

theorem filtered_zero (env : Env) (w : World) (e : Exc) (hw : Hw) (r : W) :
    Filtered env w e hw { Exit.zero with reason := r } := by
  constructor <;> simp [Exit.zero]

/-- The exit structure of a loop is zero, except for the reason, until the last exit. -/
def Fresh (x : Exit) : Prop := ∃ r, x = { Exit.zero with reason := r }

theorem externalAbort_filtered {env : Env} {w w' : World} {hw : Hw} (hx : Fresh w.ex)
    (hc : ec hw.esr = EC_DABT ∨ ec hw.esr = EC_IABT) (h : externalAbort w hw = some w') :
    Filtered env w .sync hw w'.ex := by
  obtain ⟨r, hr⟩ := hx
  obtain ⟨_, _, _, he, _⟩ := externalAbort_some h
  rw [he, hr]
  have hs : Sync EC_DABT .sync hw ∨ Sync EC_IABT .sync hw := hc.imp (⟨rfl, ·⟩) (⟨rfl, ·⟩)
  constructor
  case esr => exact fun _ => .inl ⟨hs, keeps_nonEmul _⟩
  all_goals simp [Exit.zero]

theorem dabtWrite_some {r : Rec} {esr v : W} (h : dabtWriteValue r esr = some v) (hv : v ≠ 0) :
    v.toNat = (r.regs (srt esr)).toNat % 2 ^ (8 * accessLen esr) := by
  unfold dabtWriteValue at h
  rcases ite_or h with ⟨_, h⟩ | ⟨_, h⟩
  · exact absurd (Option.some.inj h).symm hv
  · obtain ⟨a, ha, rfl⟩ := map_some h
    unfold Rec.reg at ha
    rcases ite_or ha with ⟨_, ha⟩ | ⟨_, ha⟩
    · obtain rfl := Option.some.inj ha
      exact and_accessMask _ _
    · simp at ha

theorem dataAbort_filtered {env : Env} {w w' : World} {hw : Hw} (hx : Fresh w.ex) (hc : ec hw.esr = EC_DABT)
    (hisv : Shared w .sync hw → wnr hw.esr = true → isv hw.esr = true)
    (h : dataAbort env w hw = some (w', false)) : Filtered env w .sync hw w'.ex := by
  obtain ⟨r, hr⟩ := hx
  unfold dataAbort at h
  dsimp only at h
  rcases ite_or h with ⟨_, h⟩ | ⟨_, h⟩
  · obtain ⟨w1, h1, h2⟩ := map_some h
    obtain rfl := (Prod.mk.inj h2).1
    exact externalAbort_filtered ⟨r, hr⟩ (.inl hc) h1
  obtain ⟨bad, hbad, h⟩ := bind_some h
  rcases ite_or h with ⟨_, h⟩ | ⟨hb, h⟩
  · obtain ⟨_, _, h2⟩ := map_some h; simp at h2
  rcases ite_or h with ⟨hp, h⟩ | ⟨hp, h⟩
  · obtain rfl := (Prod.mk.inj (Option.some.inj h)).1
    rw [hr]
    constructor
    case esr => exact fun _ => .inl ⟨.inl ⟨rfl, hc⟩, keeps_nonEmul _⟩
    case hpfar => exact fun _ => .inl ⟨.inl ⟨rfl, hc⟩, rfl⟩
    all_goals simp [Exit.zero, upd]
  · obtain ⟨v, hv, h2⟩ := map_some h
    obtain rfl := (Prod.mk.inj h2).1
    have hps : w.rc.pstate.getLsbD 4 = false ∧ inPar w.rc (fipaOf hw.hpfar) = false := by simpa using hp
    have hsz : fipaOf hw.hpfar < ipaSize w.rc := by
      rcases ite_or hbad with ⟨_, h3⟩ | ⟨h3, _⟩
      · simp at h3; simp [← h3] at hb
      · exact BitVec.not_le.mp h3
    have hsh : Shared w .sync hw := by
      refine ⟨⟨rfl, hc⟩, hps.1, ?_, hsz⟩
      have := hps.2
      unfold inPar at this
      exact BitVec.not_lt.mp (by simpa using this)
    rw [hr]
    constructor
    case esr => exact fun _ => .inr (.inl ⟨hsh, keeps_emul _⟩)
    case hpfar => exact fun _ => .inl ⟨.inl ⟨rfl, hc⟩, rfl⟩
    case far => exact fun _ => ⟨hsh, and_low_toNat _ _ 12 rfl⟩
    case gprs =>
      intro i hi
      by_cases h0 : i = 0
      · subst h0
        have hv0 : v ≠ 0 := by simpa [upd] using hi
        rcases ite_or hv with ⟨hwr, h3⟩ | ⟨_, h3⟩
        · refine .inl ⟨rfl, hsh, hwr, hisv hsh hwr, ?_⟩
          simpa [upd] using dabtWrite_some h3 hv0
        · exact absurd (Option.some.inj h3).symm hv0
      · simp [upd, h0, Exit.zero] at hi
    all_goals simp [Exit.zero]

theorem instrAbort_filtered {env : Env} {w w' : World} {hw : Hw} (hx : Fresh w.ex) (hc : ec hw.esr = EC_IABT)
    (h : instrAbort env w hw = some (w', false)) : Filtered env w .sync hw w'.ex := by
  obtain ⟨r, hr⟩ := hx
  unfold instrAbort at h
  dsimp only at h
  rcases ite_or h with ⟨_, h⟩ | ⟨_, h⟩
  · obtain ⟨w1, h1, h2⟩ := map_some h
    obtain rfl := (Prod.mk.inj h2).1
    exact externalAbort_filtered ⟨r, hr⟩ (.inr hc) h1
  obtain ⟨bad, hbad, h⟩ := bind_some h
  rcases ite_or h with ⟨_, h⟩ | ⟨hb, h⟩
  · obtain ⟨_, _, h2⟩ := map_some h; simp at h2
  rcases ite_or h with ⟨hp, h⟩ | ⟨hp, h⟩
  · obtain rfl := (Prod.mk.inj (Option.some.inj h)).1
    rw [hr]
    exact filtered_zero _ _ _ _ _
  · obtain rfl := (Prod.mk.inj (Option.some.inj h)).1
    rw [hr]
    constructor
    case esr => exact fun _ => .inl ⟨.inr ⟨rfl, hc⟩, keeps_nonEmul _⟩
    case hpfar => exact fun _ => .inl ⟨.inr ⟨rfl, hc⟩, rfl⟩
    all_goals simp [Exit.zero]

theorem sysregTrap_filtered {env : Env} {w w' : World} {hw : Hw} (hx : Fresh w.ex) (hc : ec hw.esr = EC_SYSREG)
    (h : sysregTrap env w hw.esr = some (w', false)) : Filtered env w .sync hw w'.ex := by
  obtain ⟨r, hr⟩ := hx
  have key : ∀ w1, iccTrap w hw.esr = some w1 → Filtered env w .sync hw w1.ex := by
    intro w1 h1
    unfold iccTrap at h1
    dsimp only at h1
    rcases ite_or h1 with ⟨⟨hs, hwr⟩, h1⟩ | ⟨_, h1⟩
    · obtain ⟨v, hv, rfl⟩ := map_some h1
      have hsgi : Sgi .sync hw := by
        refine ⟨⟨rfl, hc⟩, by simpa [srWrite] using hwr, ?_⟩
        rcases hs with hs | hs | hs
        · obtain ⟨a, b, c, d, e⟩ := fields_of_sysreg hs
          rw [a, b, c, d, e]; decide
        · obtain ⟨a, b, c, d, e⟩ := fields_of_sysreg hs
          rw [a, b, c, d, e]; decide
        · obtain ⟨a, b, c, d, e⟩ := fields_of_sysreg hs
          rw [a, b, c, d, e]; decide
      rw [hr]
      constructor
      case esr => exact fun _ => .inr (.inr (.inr (.inr (.inl ⟨hsgi, rfl⟩))))
      case gprs =>
        intro i hi
        by_cases h0 : i = 0
        · subst h0
          have hv0 : v ≠ 0 := by simpa [upd] using hi
          refine .inr (.inl ⟨rfl, hsgi, ?_⟩)
          rcases ite_or hv with ⟨_, h3⟩ | ⟨_, h3⟩
          · exact absurd (Option.some.inj h3).symm hv0
          · unfold Rec.reg at h3
            rcases ite_or h3 with ⟨_, h3⟩ | ⟨_, h3⟩
            · simpa [upd] using (Option.some.inj h3).symm
            · simp at h3
        · simp [upd, h0, Exit.zero] at hi
      all_goals simp [Exit.zero]
    · simp at h1
  unfold sysregTrap at h
  rcases ite_or h with ⟨_, h⟩ | ⟨_, h⟩
  · simp at h
  rcases ite_or h with ⟨_, h⟩ | ⟨_, h⟩
  · obtain ⟨_, _, h2⟩ := map_some h; simp at h2
  rcases ite_or h with ⟨_, h⟩ | ⟨_, h⟩
  · obtain ⟨w1, h1, h2⟩ := map_some h
    obtain rfl := (Prod.mk.inj h2).1
    exact key _ h1
  rcases ite_or h with ⟨_, h⟩ | ⟨_, h⟩
  · obtain ⟨w1, h1, h2⟩ := map_some h
    obtain rfl := (Prod.mk.inj h2).1
    exact key _ h1
  rcases ite_or h with ⟨_, h⟩ | ⟨_, h⟩
  · obtain ⟨_, _, h2⟩ := map_some h; simp at h2
  · simp at h

theorem serrorExit_filtered {env : Env} {w w' : World} {hw : Hw} (hx : Fresh w.ex)
    (h : serrorExit w hw = some w') : Filtered env w .serror hw w'.ex := by
  obtain ⟨r, hr⟩ := hx
  have he : w'.ex = { w.ex with esr := hw.esr &&& M_SERROR } := by
    unfold serrorExit at h
    dsimp only at h
    rcases ite_or h with ⟨_, h⟩ | ⟨_, h⟩
    · simp at h
    rcases ite_or h with ⟨_, h⟩ | ⟨_, h⟩
    · simp at h
    rcases ite_or h with ⟨_, h⟩ | ⟨_, h⟩
    · obtain rfl := Option.some.inj h; rfl
    rcases ite_or h with ⟨_, h⟩ | ⟨_, h⟩
    · obtain rfl := Option.some.inj h; rfl
    · simp at h
  rw [he, hr]
  constructor
  case esr => exact fun _ => .inr (.inr (.inr (.inl ⟨rfl, keeps_serr _⟩)))
  all_goals simp [Exit.zero]

/-! ## SMC calls -/

/-- The part of `Filtered` for calls, before the result is acted on. -/
def RsiTold (env : Env) (w : World) (hw : Hw) (p : World × Res) : Prop :=
  p.2.act.exit = true →
    (p.2.act.abort = false ∧ Filtered env w .sync hw p.1.ex) ∨
    (p.2.act.abort = true ∧ p.2.act.upd = false ∧ p.1.rc = w.rc ∧ p.1.ex = w.ex ∧ (w.rc.regs 1).toNat % 4096 = 0)

theorem told_return {env : Env} {w : World} {hw : Hw} {w' : World} (v : W) : RsiTold env w hw (w', ret w.rc v) := by
  intro h
  simp [ret, RETURN_TO_REALM] at h

theorem aligned_toNat {a : W} (h : aligned a = true) : a.toNat % 4096 = 0 := by
  unfold aligned at h
  have := congrArg BitVec.toNat (by simpa using h)
  rwa [and_low_toNat _ _ 12 rfl] at this

theorem told_fault {env : Env} {w : World} {hw : Hw} {l : Int} (h : (w.rc.regs 1).toNat % 4096 = 0) :
    RsiTold env w hw (w, s2fault w.rc l) := fun _ => .inr ⟨rfl, rfl, rfl, rfl, h⟩

theorem setWidth32_eq {x : W} {n : Nat} {c : BitVec 32} (hc : c.toNat = n) (h : x.setWidth 32 = c) :
    x.toNat % 2 ^ 32 = n := by
  rw [← hc, ← h, BitVec.toNat_setWidth]

theorem psci_told {env : Env} {w : World} {hw : Hw} (hx : Fresh w.ex) (hs : ec hw.esr = EC_SMC) :
    RsiTold env w hw (psci env w) := by
  obtain ⟨r, hr⟩ := hx
  have fwd : ∀ (n : Nat) (w' : World), w'.ex = w.ex → w'.rc.regs = w.rc.regs →
      (n = 1 ∨ (n = 2 ∧ Targets (w.rc.regs 0))) → Filtered env w .sync hw (psciReason (forwardArgs n w')).ex := by
    intro n w' h1 h2 hn
    unfold psciReason forwardArgs
    dsimp only
    rw [h1, hr, h2]
    constructor
    case gprs =>
      intro i hi
      refine .inr (.inr (.inl ⟨⟨rfl, hs⟩, rfl, ?_⟩))
      dsimp only at hi ⊢
      by_cases hin : i < n
      · rw [if_pos hin]
        refine ⟨rfl, ?_⟩
        rcases hn with hn | ⟨hn, ht⟩
        · exact .inl (by omega)
        · rcases (by omega : i = 0 ∨ i = 1) with h | h
          · exact .inl h
          · exact .inr ⟨h, ht⟩
      · rw [if_neg hin] at hi
        split at hi <;> simp [Exit.zero] at hi
    all_goals simp [Exit.zero]
  unfold psci
  dsimp only
  split
  · exact told_return _
  split
  · exact fun _ => .inl ⟨rfl, fwd 1 w rfl rfl (.inl rfl)⟩
  split
  · exact fun _ => .inl ⟨rfl, fwd 1 _ rfl rfl (.inl rfl)⟩
  split
  · rename_i hf
    have ht : Targets (w.rc.regs 0) := by
      rcases hf with hf | hf
      · exact .inl (setWidth32_eq (c := 0x84000003) rfl hf)
      · exact .inr (.inl (setWidth32_eq (c := 0xC4000003) rfl hf))
    unfold psciOn
    repeat' split
    all_goals first | exact told_return _ | exact fun _ => .inl ⟨rfl, fwd 2 _ rfl rfl (.inr ⟨rfl, ht⟩)⟩
  split
  · rename_i hf
    have ht : Targets (w.rc.regs 0) := by
      rcases hf with hf | hf
      · exact .inr (.inr (.inl (setWidth32_eq (c := 0x84000004) rfl hf)))
      · exact .inr (.inr (.inr (setWidth32_eq (c := 0xC4000004) rfl hf)))
    unfold psciAffinity
    repeat' split
    all_goals first | exact told_return _ | exact fun _ => .inl ⟨rfl, fwd 2 _ rfl rfl (.inr ⟨rfl, ht⟩)⟩
  split
  · exact fun _ => .inl ⟨rfl, fwd 1 _ rfl rfl (.inl rfl)⟩
  split
  · exact told_return _
  · exact told_return _

theorem rsiSwitch_told {env : Env} {w : World} {hw : Hw} {p : World × Res} (hx : Fresh w.ex)
    (hs : ec hw.esr = EC_SMC) (hal : fid w.rc = 0xC4000199 → (w.rc.regs 1).toNat % 4096 < 256)
    (h : rsiSwitch env w (fid w.rc) = some p) : RsiTold env w hw p := by
  obtain ⟨r, hr⟩ := id hx
  have hsync : Sync EC_SMC .sync hw := ⟨rfl, hs⟩
  unfold rsiSwitch at h
  rcases ite_or h with ⟨_, h⟩ | ⟨_, h⟩
  · obtain rfl := Option.some.inj h
    exact told_return _
  rcases ite_or h with ⟨_, h⟩ | ⟨_, h⟩
  · obtain rfl := Option.some.inj h
    exact psci_told hx hs
  rcases ite_or h with ⟨_, h⟩ | ⟨_, h⟩
  · obtain rfl := Option.some.inj h
    exact fun hh => by simp [rsiVersion, RETURN_TO_REALM] at hh
  rcases ite_or h with ⟨_, h⟩ | ⟨_, h⟩
  · obtain rfl := Option.some.inj h
    exact fun hh => by simp [rsiFeatures, RETURN_TO_REALM] at hh
  rcases ite_or h with ⟨_, h⟩ | ⟨_, h⟩
  · obtain rfl := Option.some.inj h
    unfold rsiTokenInit
    dsimp only
    repeat' split
    all_goals exact fun hh => by simp [ret, RETURN_TO_REALM] at hh
  rcases ite_or h with ⟨_, h⟩ | ⟨_, h⟩
  · unfold rsiTokenContinue at h
    dsimp only at h
    rcases ite_or h with ⟨_, h⟩ | ⟨hargs, h⟩
    · obtain rfl := Option.some.inj h
      exact told_return _
    have ha : aligned (w.rc.regs 1) = true := by
      by_contra hcon
      exact hargs (.inl (by simpa using hcon))
    rcases ite_or h with ⟨_, h⟩ | ⟨_, h⟩
    · obtain rfl := Option.some.inj h
      exact told_return _
    obtain ⟨q, _, rfl⟩ := map_some h
    split
    · exact told_return _
    · exact told_return _
    · intro _
      refine .inl ⟨rfl, ?_⟩
      dsimp only
      rw [hr]
      exact filtered_zero _ _ _ _ _
    · unfold tokenWrite
      dsimp only
      repeat' split
      all_goals first
        | exact told_return _
        | exact fun _ => .inr ⟨rfl, rfl, rfl, rfl, aligned_toNat ha⟩
        | exact fun hh => by simp [RETURN_TO_REALM] at hh
  rcases ite_or h with ⟨_, h⟩ | ⟨_, h⟩
  · obtain rfl := Option.some.inj h
    exact fun hh => by simp [rsiRead, RETURN_TO_REALM] at hh
  rcases ite_or h with ⟨_, h⟩ | ⟨_, h⟩
  · obtain rfl := Option.some.inj h
    exact told_return _
  rcases ite_or h with ⟨_, h⟩ | ⟨_, h⟩
  · obtain rfl := Option.some.inj h
    unfold rsiConfig
    dsimp only
    split
    · exact told_return _
    · rename_i hargs
      have ha : aligned (w.rc.regs 1) = true := by
        by_contra hcon
        exact hargs (.inl (by simpa using hcon))
      split
      · exact told_return _
      · exact told_fault (aligned_toNat ha)
      · exact told_return _
  rcases ite_or h with ⟨hf, h⟩ | ⟨_, h⟩
  · obtain rfl := Option.some.inj h
    unfold rsiIpaStateSet
    dsimp only
    split
    · exact told_return _
    · intro _
      refine .inl ⟨rfl, ?_⟩
      dsimp only
      rw [hr]
      constructor
      case ripas =>
        refine fun _ => ⟨⟨hsync, hf⟩, rfl, rfl, rfl, ?_⟩
        dsimp only
        rw [BitVec.setWidth_setWidth_of_le _ (by omega)]
      all_goals simp [Exit.zero]
  rcases ite_or h with ⟨_, h⟩ | ⟨_, h⟩
  · obtain rfl := Option.some.inj h
    unfold rsiIpaStateGet
    dsimp only
    repeat' split
    all_goals exact fun hh => by simp [ret, RETURN_TO_REALM] at hh
  rcases ite_or h with ⟨hf, h⟩ | ⟨_, h⟩
  · unfold rsiHostCall at h
    dsimp only at h
    rcases ite_or h with ⟨_, h⟩ | ⟨ha, h⟩
    · obtain rfl := Option.some.inj h
      exact told_return _
    rcases ite_or h with ⟨_, h⟩ | ⟨_, h⟩
    · obtain rfl := Option.some.inj h
      exact told_return _
    rcases ite_or h with ⟨_, h⟩ | ⟨hpar, h⟩
    · obtain rfl := Option.some.inj h
      exact told_return _
    obtain ⟨k, hk, h⟩ := map_some h
    unfold hostCallWalk at hk
    rcases ite_or hk with ⟨_, hk⟩ | ⟨_, hk⟩
    · obtain rfl := Option.some.inj hk
      split at h
      · subst h
        exact told_return _
      · subst h
        refine told_fault ?_
        have h1 : (w.rc.regs 1 &&& 0xff).toNat = 0 := by
          have : aligned256 (w.rc.regs 1) = true := by simpa using ha
          unfold aligned256 at this
          exact congrArg BitVec.toNat (by simpa using this : w.rc.regs 1 &&& 0xff = 0)
        rw [and_low_toNat _ _ 8 rfl] at h1
        have := hal hf
        omega
      · rename_i pa hw1
        subst h
        intro _
        refine .inl ⟨rfl, ?_⟩
        have hpa : hostCallPa w.rc pa = pa + (w.rc.regs 1).toNat % 4096 := by
          unfold hostCallPa
          rw [and_low_toNat _ _ 12 rfl]
          rfl
        unfold hostCallOut
        dsimp only
        rw [hr, hpa]
        constructor
        case imm => exact fun _ => ⟨⟨hsync, hf⟩, rfl, pa, hw1, rfl⟩
        case gprs =>
          intro i hi
          refine .inr (.inr (.inr ?_))
          by_cases hlt : i < 31
          · refine ⟨hlt, ⟨hsync, hf⟩, rfl, pa, hw1, ?_⟩
            dsimp only
            rw [if_pos hlt]
          · simp [hlt, Exit.zero] at hi
        all_goals simp [Exit.zero]
    · simp at hk
  · obtain rfl := Option.some.inj h
    exact told_return _

theorem realmRsi_filtered {env : Env} {w w' : World} {hw : Hw} (hx : Fresh w.ex)
    (hs : ec hw.esr = EC_SMC) (hal : fid w.rc = 0xC4000199 → (w.rc.regs 1).toNat % 4096 < 256)
    (h : realmRsi env w = some (w', false)) : Filtered env w .sync hw w'.ex := by
  obtain ⟨p, hp, h⟩ := bind_some h
  have ht := rsiSwitch_told hx hs hal hp
  obtain ⟨r, hr⟩ := hx
  unfold rsiFinish at h
  dsimp only at h
  obtain ⟨w1, h1, h2⟩ := map_some h
  obtain ⟨rfl, hexit⟩ : w1 = w' ∧ p.2.act.exit = true := by simpa using h2
  rcases ht hexit with ⟨hab, hfil⟩ | ⟨hab, hupd, hrc, hex, halign⟩
  · rw [hab] at h1
    rcases ite_or h1 with ⟨h0, _⟩ | ⟨_, h1⟩
    · simp at h0
    · obtain rfl := Option.some.inj h1
      exact hfil
  · rw [hab] at h1
    rcases ite_or h1 with ⟨_, h1⟩ | ⟨h0, _⟩
    · unfold emulateS2Abort at h1
      rcases ite_or h1 with ⟨hl, h1⟩ | ⟨_, h1⟩
      · obtain rfl := Option.some.inj h1
        dsimp only
        rw [hupd, hex, hrc, hr]
        constructor
        case esr =>
          refine fun _ => .inr (.inr (.inr (.inr (.inr ⟨⟨rfl, hs⟩, p.2.level.toNat, ?_, ?_⟩))))
          · exact hl
          · dsimp only
            have h3 : p.2.level.toNat ≤ 3 := hl
            have h4 : p.2.level = BitVec.ofNat 64 p.2.level.toNat := by simp
            generalize p.2.level.toNat = n at h3 h4
            rw [h4]
            rcases (by omega : n = 0 ∨ n = 1 ∨ n = 2 ∨ n = 3) with rfl | rfl | rfl | rfl <;> rfl
        case hpfar =>
          refine fun _ => .inr ⟨⟨rfl, hs⟩, ?_⟩
          have : (w.rc.regs 1 >>> 8).toNat = (w.rc.regs 1).toNat / 4096 * 16 := by
            rw [BitVec.toNat_ushiftRight, Nat.shiftRight_eq_div_pow]
            omega
          simpa using this
        all_goals simp [Exit.zero]
      · simp at h1
    · simp at h0

/-! ## Every exit -/

/-- The two cases where more is disclosed: a write without a valid syndrome, and a host call whose
structure is not at the start of its page. -/
structure Regular (w : World) (e : Exc) (hw : Hw) : Prop where
  write : Shared w e hw → wnr hw.esr = true → isv hw.esr = true
  call : Calls w e hw 0xC4000199 → (w.rc.regs 1).toNat % 4096 < 256

theorem handleExit_filtered {env : Env} {w w' : World} {e : Exc} {hw : Hw} (hx : Fresh w.ex) (hreg : Regular w e hw)
    (h : handleExit env w e hw = some (w', false)) : Filtered env w e hw w'.ex := by
  obtain ⟨r, hr⟩ := hx
  cases e with
  | irq =>
    obtain rfl := (Prod.mk.inj (Option.some.inj h)).1
    simp only [hr]; exact filtered_zero _ _ _ _ _
  | fiq =>
    obtain rfl := (Prod.mk.inj (Option.some.inj h)).1
    simp only [hr]; exact filtered_zero _ _ _ _ _
  | other =>
    obtain rfl := (Prod.mk.inj (Option.some.inj h)).1
    simp only [hr]; exact filtered_zero _ _ _ _ _
  | serror =>
    obtain ⟨w1, h1, h2⟩ := map_some h
    obtain rfl := (Prod.mk.inj h2).1
    have := serrorExit_filtered (env := env) ⟨EXIT_SERROR, by simp only [hr]⟩ h1
    exact ⟨this.far, this.hpfar, this.esr, this.gprs, this.ripas, this.imm, this.flags, this.rest⟩
  | sync =>
    obtain ⟨⟨w1, b⟩, h1, h2⟩ := map_some h
    cases b
    case true => simp at h2
    obtain rfl := (Prod.mk.inj h2).1
    have hx1 : Fresh ({ w with ex := { w.ex with reason := EXIT_SYNC } } : World).ex := ⟨EXIT_SYNC, by simp only [hr]⟩
    suffices hs : Filtered env { w with ex := { w.ex with reason := EXIT_SYNC } } .sync hw w1.ex by
      exact ⟨hs.far, hs.hpfar, hs.esr, hs.gprs, hs.ripas, hs.imm, hs.flags, hs.rest⟩
    unfold syncExit at h1
    rcases ite_or h1 with ⟨hc, h1⟩ | ⟨_, h1⟩
    · obtain rfl := (Prod.mk.inj (Option.some.inj h1)).1
      dsimp only
      rw [hr]
      constructor
      case esr => exact fun _ => .inr (.inr (.inl ⟨⟨rfl, hc⟩, keeps_wfx _⟩))
      all_goals simp [Exit.zero]
    rcases ite_or h1 with ⟨hc, h1⟩ | ⟨_, h1⟩
    · obtain ⟨_, _, h3⟩ := map_some h1; simp at h3
    rcases ite_or h1 with ⟨hc, h1⟩ | ⟨_, h1⟩
    · exact realmRsi_filtered hx1 hc (fun hf => hreg.call ⟨⟨rfl, hc⟩, hf⟩) h1
    rcases ite_or h1 with ⟨hc, h1⟩ | ⟨_, h1⟩
    · obtain ⟨⟨w2, b⟩, h3, h4⟩ := map_some h1
      obtain ⟨rfl, rfl⟩ := Prod.mk.inj h4
      have := sysregTrap_filtered hx1 hc h3
      exact this
    rcases ite_or h1 with ⟨hc, h1⟩ | ⟨_, h1⟩
    · exact instrAbort_filtered hx1 hc h1
    rcases ite_or h1 with ⟨hc, h1⟩ | ⟨_, h1⟩
    · exact dataAbort_filtered hx1 hc hreg.write h1
    rcases ite_or h1 with ⟨hc, h1⟩ | ⟨_, h1⟩
    · obtain ⟨_, _, h3⟩ := map_some h1; simp at h3
    · obtain rfl := (Prod.mk.inj (Option.some.inj h1)).1
      dsimp only
      rw [hr]
      exact filtered_zero _ _ _ _ _

theorem iter_filtered {w w' : World} {e : Ev} (hx : Fresh w.ex)
    (hreg : ∀ w : World, w.rc.regs = e.regs → w.rc.pstate = e.pstate → Regular w e.exc e.hw)
    (h : iter w e = some (w', false)) :
    (∃ r, w'.ex = { Exit.zero with reason := r }) ∨
    ∃ w1 : World, w1.rc.regs = e.regs ∧ w1.rc.pstate = e.pstate ∧ w1.mem = e.mem ∧ w1.rc.ipaBits = w.rc.ipaBits ∧
      Filtered e.env w1 e.exc e.hw w'.ex := by
  unfold iter at h
  dsimp only at h
  rcases ite_or h with ⟨_, h⟩ | ⟨_, h⟩
  · obtain rfl := (Prod.mk.inj (Option.some.inj h)).1
    obtain ⟨r, hr⟩ := hx
    exact .inl ⟨EXIT_IRQ, by simp only [hr]⟩
  · right
    generalize hw1 : afterRun _ e = w1 at h
    have h1 : w1.rc.regs = e.regs ∧ w1.rc.pstate = e.pstate ∧ w1.mem = e.mem ∧ w1.rc.ipaBits = w.rc.ipaBits ∧
        w1.ex = w.ex := by
      subst hw1
      exact ⟨rfl, rfl, rfl, rfl, rfl⟩
    exact ⟨w1, h1.1, h1.2.1, h1.2.2.1, h1.2.2.2.1,
      handleExit_filtered (by rw [h1.2.2.2.2]; exact hx) (hreg w1 h1.1 h1.2.1) h⟩

/-- **C28.**  For every call of REC_ENTER that runs the REC and writes an exit structure to the host, for
every sequence of exits: either a change of a timer ended the run and nothing but the reason is
reported, or the exit reported is the last exception `e.exc`, taken in a state `w` whose registers,
program state and memory are those the realm left, and the structure contains no more than `Filtered`
allows.  Timer, PMU and interrupt controller fields are those of the hardware. -/
theorem C28_filtered_partial {c : Call} {w0 : World} {o : Out} {x : Exit} (h : recEnter c w0 = some o)
    (hran : o.ran = true) (hhost : o.host = some x)
    (hreg : ∀ e ∈ c.evs, ∀ w : World, w.rc.regs = e.regs → w.rc.pstate = e.pstate → Regular w e.exc e.hw) :
    ∃ x0 : Exit,
      ((∃ r, x0 = { Exit.zero with reason := r }) ∨
       ∃ e ∈ c.evs, ∃ w : World, w.rc.regs = e.regs ∧ w.rc.pstate = e.pstate ∧ w.mem = e.mem ∧
         w.rc.ipaBits = w0.rc.ipaBits ∧ Filtered e.env w e.exc e.hw x0) ∧
      x = { x0 with
        cntvCtl := c.fin.ctlV, cntvCval := c.fin.cvalV - c.fin.offV
        cntpCtl := c.fin.ctlP, cntpCval := c.fin.cvalP - c.fin.offP
        pmuOvf := c.fin.pmu.getD 0, gic := x.gic } := by
  obtain ⟨r1, r2, r3, ⟨w1, b⟩, hp, hb, hrun⟩ := recEnter_ran h hran
  simp only at hb
  subst hb
  obtain ⟨hex, _, _, _, _, hcase⟩ := completeHostCall_true hp.call
  have hbits : w1.rc.ipaBits = w0.rc.ipaBits := by
    have h1 : w1.rc.ipaBits = r3.ipaBits := by
      rcases hcase with ⟨_, rfl⟩ | ⟨_, _, ⟨_, _, rfl⟩ | ⟨_, _, rfl⟩⟩ <;> rfl
    have h2 := (completeSysreg_some hp.sysreg).1.ipaBits
    have h3 := (completeRipas_fields r2 c.enter).2.2.2.2.2.2.2.1
    have h4 := (completeMmio_some hp.mmio).1.ipaBits
    have h5 := (completeSea_some hp.sea).1.ipaBits
    rw [h1, h2, h3, h4, h5]
    rfl
  obtain ⟨w2, hloop, rfl⟩ := runRec_some hrun
  have hx := leave_host hhost
  obtain ⟨pre, e, post, w3, hes, hcont, hiter⟩ := loop_ended hloop
  have he : e ∈ c.evs := by rw [hes]; simp
  have hfresh : Fresh w3.ex := by
    obtain ⟨r, hr⟩ := hcont.ex
    refine ⟨r, ?_⟩
    rw [hr]
    show ({ w1.ex with reason := r } : Exit) = _
    rw [hex]
    rfl
  have hbits3 : w3.rc.ipaBits = w0.rc.ipaBits := hcont.ipaBits.trans hbits
  have hfil := iter_filtered hfresh (hreg e he) hiter
  have hp0 : w2.ex.pmuOvf = 0 := by
    rcases hfil with ⟨r, hr⟩ | ⟨_, _, _, _, _, hf⟩
    · rw [hr]; rfl
    · exact hf.rest.2.2.2.2.2
  refine ⟨w2.ex, ?_, ?_⟩
  · rcases hfil with hr | ⟨w4, h1, h2, h3, h4, hf⟩
    · exact .inl hr
    · exact .inr ⟨e, he, w4, h1, h2, h3, h4.trans hbits3, hf⟩
  · rw [hx]
    unfold finish
    dsimp only
    rw [hp0]

/-! ## Concrete exits -/

/-- What the host sees after one exit. -/
def seen {α : Type} (f : Exit → α) (e : Ev) : Option α :=
  ((recEnter (Demo.call 0 0 [e]) Demo.world).bind (·.host)).map f

/-- A 32-bit write of X3 to the shared address 0x1_0000_0234: the host sees the data, the offset and the page. -/
example :
    let e := Demo.ev .sync ⟨Demo.dabt true 2 3 true, 0xFFFF000000000234, Demo.hpfar 0x100000000⟩
      (fun i => if i = 3 then 0x1122334455667788 else 0)
    seen (·.gprs 0) e = some 0x55667788 ∧ seen (·.far) e = some 0x234 ∧ seen (·.hpfar) e = some 0x1000000 ∧
    seen (·.esr) e = some 0x91800047 := by
  decide +kernel

/-- The same access to the protected page 0x2000: page number and fault status only. -/
example :
    let e := Demo.ev .sync ⟨Demo.dabt true 2 3 true, 0xFFFF000000000234, Demo.hpfar 0x2000⟩
      (fun i => if i = 3 then 0x1122334455667788 else 0)
    seen (·.gprs 0) e = some 0 ∧ seen (·.far) e = some 0 ∧ seen (·.hpfar) e = some 0x20 ∧
    seen (·.esr) e = some 0x90000007 := by
  decide +kernel

/-- The hypothesis of `C28_filtered_partial` holds for these exits. -/
example (e : Ev) (h : isv e.hw.esr = true) (hc : ec e.hw.esr = EC_DABT) :
    ∀ w : World, w.rc.regs = e.regs → w.rc.pstate = e.pstate → Regular w e.exc e.hw := by
  intro w _ _
  exact ⟨fun _ _ => h, fun hcall => by rw [hcall.1.2] at hc; exact absurd hc (by decide)⟩

/-- **Deviation.**  A write to a shared address whose syndrome is not valid, so that it cannot be emulated and
the register number field means nothing, discloses the low byte of X0. -/
theorem C28_write_without_syndrome :
    let e := Demo.ev .sync ⟨Demo.dabt false 0 0 true, 0xFFFF000000000234, Demo.hpfar 0x100000000⟩
      (fun i => if i = 0 then 0x1122334455667788 else 0)
    isv e.hw.esr = false ∧ seen (fun x => isv x.esr) e = some false ∧ seen (·.gprs 0) e = some 0x88 := by
  decide +kernel

/-- **Deviation.**  The page number reported for a host call structure that cannot be accessed also has
bits 11:8 of its address: HPFAR is 0x2F for the address 0x2F00, where the page number alone is 0x20. -/
theorem C28_host_call_page_offset :
    let e := Demo.ev .sync ⟨0x5E000000, 0, 0⟩ (fun i => if i = 0 then 0xC4000199 else if i = 1 then 0x2F00 else 0)
    seen (·.hpfar) e = some 0x2F ∧ seen (·.esr) e = some 0x90000007 := by
  decide +kernel

end Verif.Run
