import Verif.Run.Inv
import Verif.Run.PropExit

/-!
# C29: a realm asks for a change of RIPAS

`RSI_IPA_STATE_SET` from the call to the moment the realm gets the answer.  What the host may do in
between is C14.

The code looks at the low 32 bits of the state argument only, so the statement about which
arguments are accepted is about these bits (`C29_request_partial`); `C29_state_truncated` shows a value that is no
RIPAS and is accepted.
-/

namespace Verif.Run

namespace Spec

/-- Legal arguments: a non-empty range of whole pages, in the protected half of the address space, and a state that is
EMPTY (0) or RAM (1). -/
structure RangeArgs (bits b t v : Nat) : Prop where
  base : b % 4096 = 0
  top : t % 4096 = 0
  lt : b < t
  par : t ≤ 2 ^ (bits - 1)
  val : v ≤ 1

end Spec

open Spec

theorem aligned_iff (a : W) : aligned a = true ↔ a.toNat % 4096 = 0 := by
  constructor
  · exact aligned_toNat
  · intro h
    unfold aligned
    rw [beq_iff_eq]
    apply BitVec.eq_of_toNat_eq
    rw [and_low_toNat a 0xfff 12 (by decide)]
    exact h

/-- The check of `handle_rsi_ipa_state_set` in arithmetic terms. -/
theorem stateSet_check {r : Rec} (hb : 32 ≤ r.ipaBits ∧ r.ipaBits ≤ 52) :
    ((r.regs 3).setWidth 32 > (1 : BitVec 32) ∨ aligned (r.regs 1) = false ∨ aligned (r.regs 2) = false ∨
      r.regs 2 ≤ r.regs 1 ∨ regionInPar r (r.regs 1) (r.regs 2) = false) ↔
    ¬ RangeArgs r.ipaBits (r.regs 1).toNat (r.regs 2).toNat ((r.regs 3).toNat % 2 ^ 32) := by
  have h1 := aligned_iff (r.regs 1)
  have h2 := aligned_iff (r.regs 2)
  have h3 : (r.regs 3).setWidth 32 > (1 : BitVec 32) ↔ ¬ (r.regs 3).toNat % 2 ^ 32 ≤ 1 := by
    show (1 : BitVec 32) < _ ↔ _
    rw [BitVec.lt_def, BitVec.toNat_setWidth, Nat.not_le]
    rfl
  have h4 : r.regs 2 ≤ r.regs 1 ↔ ¬ (r.regs 1).toNat < (r.regs 2).toNat := by
    rw [BitVec.le_def, Nat.not_lt]
  constructor
  · rintro h ⟨a1, a2, a3, a4, a5⟩
    rcases h with h | h | h | h | h
    · exact h3.mp h a5
    · rw [h1.mpr a1] at h; simp at h
    · rw [h2.mpr a2] at h; simp at h
    · exact h4.mp h a3
    · rw [(regionInPar_iff hb _ _ a3).mpr a4] at h; simp at h
  · intro h
    by_contra hc
    rw [not_or, not_or, not_or, not_or] at hc
    obtain ⟨c1, c2, c3, c4, c5⟩ := hc
    have a3 : (r.regs 1).toNat < (r.regs 2).toNat := by
      by_contra hh; exact c4 (h4.mpr hh)
    refine h ⟨h1.mp (by simpa using c2), h2.mp (by simpa using c3), a3,
      (regionInPar_iff hb _ _ a3).mp (by simpa using c5), ?_⟩
    by_contra hh
    exact c1 (h3.mpr hh)

/-- **C29, the request.**  The call always has an outcome.  With legal arguments the host is told exactly the
range and the state, and they are recorded in the REC with no progress made; otherwise the realm gets
ERROR_INPUT and nothing else changes.  The PC advances in both cases.
(Partial: `val` is the state argument truncated to 32 bits.) -/
theorem C29_request_partial (env : Env) {w : World} (hb : 32 ≤ w.rc.ipaBits ∧ w.rc.ipaBits ≤ 52)
    (hf : fid w.rc = 0xC4000197) :
    ∃ w' b, realmRsi env w = some (w', b) ∧ w'.rc.pc = w.rc.pc + 4 ∧ w'.mem = w.mem ∧
      (∀ j, 4 ≤ j → w'.rc.regs j = w.rc.regs j) ∧
      (RangeArgs w.rc.ipaBits (w.rc.regs 1).toNat (w.rc.regs 2).toNat ((w.rc.regs 3).toNat % 2 ^ 32) →
        b = false ∧ w'.ex = { w.ex with reason := EXIT_RIPAS, ripasBase := w.rc.regs 1, ripasTop := w.rc.regs 2
                                        ripasVal := w'.ex.ripasVal } ∧
        w'.ex.ripasVal.toNat = (w.rc.regs 3).toNat % 2 ^ 32 ∧
        w'.rc.ripas.base = w.rc.regs 1 ∧ w'.rc.ripas.top = w.rc.regs 2 ∧ w'.rc.ripas.addr = w.rc.regs 1 ∧
        w'.rc.ripas.val.toNat = (w.rc.regs 3).toNat % 2 ^ 32 ∧
        w'.rc.ripas.destroyed.toNat = (w.rc.regs 4).toNat % 2 ^ 32 ∧ RangeOk w'.rc) ∧
      (¬ RangeArgs w.rc.ipaBits (w.rc.regs 1).toNat (w.rc.regs 2).toNat ((w.rc.regs 3).toNat % 2 ^ 32) →
        b = true ∧ w'.ex = w.ex ∧ w'.rc.ripas = w.rc.ripas ∧ w'.rc.regs 0 = RSI_ERROR_INPUT) := by
  have hsw : rsiSwitch env w (fid w.rc) = some (rsiIpaStateSet w) := by
    rw [hf]; rfl
  unfold realmRsi
  rw [hsw]
  have hck := stateSet_check hb
  by_cases ha : RangeArgs w.rc.ipaBits (w.rc.regs 1).toNat (w.rc.regs 2).toNat ((w.rc.regs 3).toNat % 2 ^ 32)
  · have e : rsiIpaStateSet w =
        ({ w with
            rc := { w.rc with ripas := { w.rc.ripas with
              base := w.rc.regs 1, top := w.rc.regs 2, addr := w.rc.regs 1, val := (w.rc.regs 3).setWidth 32
              destroyed := (w.rc.regs 4).setWidth 32 } }
            ex := { w.ex with reason := EXIT_RIPAS, ripasBase := w.rc.regs 1, ripasTop := w.rc.regs 2
                              ripasVal := ((w.rc.regs 3).setWidth 32 : BitVec 32).setWidth 8 } },
         ⟨UPDATE_EXIT, 0, upd (upd (res0 w.rc) 0 RSI_SUCCESS) 1 (w.rc.regs 2)⟩) := by
      unfold rsiIpaStateSet
      dsimp only
      rw [if_neg (fun h => hck.mp h ha)]
    rw [e]
    refine ⟨_, _, rfl, rfl, rfl, ?_, fun _ => ⟨rfl, rfl, ?_, rfl, rfl, rfl, ?_, ?_, ?_⟩, fun h => absurd ha h⟩
    · intro j hj
      show (if j < 5 then _ else _) = _
      by_cases h5 : j < 5
      · have : j = 4 := by omega
        subst this
        rfl
      · rw [if_neg h5]
    · show (((w.rc.regs 3).setWidth 32).setWidth 8).toNat = _
      rw [BitVec.toNat_setWidth, BitVec.toNat_setWidth]
      have := ha.val
      omega
    · exact BitVec.toNat_setWidth ..
    · exact BitVec.toNat_setWidth ..
    · refine ⟨ha.base, ha.top, ha.lt, ha.par, ?_, ?_⟩
      · show ((w.rc.regs 3).setWidth 32).toNat ≤ 1
        rw [BitVec.toNat_setWidth]
        exact ha.val
      · exact ⟨Nat.le_refl _, Nat.le_of_lt ha.lt⟩
  · have e : rsiIpaStateSet w = (w, ret w.rc RSI_ERROR_INPUT) := by
      unfold rsiIpaStateSet
      dsimp only
      rw [if_pos (hck.mpr ha)]
    rw [e]
    refine ⟨_, _, rfl, rfl, rfl, ?_, fun h => absurd h ha, fun _ => ⟨rfl, rfl, rfl, rfl⟩⟩
    intro j hj
    show (if j < 5 then _ else _) = _
    by_cases h5 : j < 5
    · have : j = 4 := by omega
      subst this
      rfl
    · rw [if_neg h5]

/-- With a pending change of RIPAS no other request is completed. -/
theorem path_ripas {c : Call} {w : World} {r1 r2 r3 : Rec} {p : World × Bool} (hi : Inv w.rc)
    (hp : Path c w r1 r2 r3 p) (hr : w.rc.ripas.base ≠ w.rc.ripas.top) :
    p = ({ withGic c w with rc := completeRipas (withGic c w).rc c.enter }, true) := by
  obtain ⟨hsmc, _, _, hcall, _⟩ := hi.ripas hr
  have e1 : r1 = (withGic c w).rc := by
    rcases (completeSea_some hp.sea).2.2 with ⟨_, h⟩ | ⟨_, h, _⟩
    · exact h
    · have : ec w.rc.lastEsr = EC_DABT := h
      rw [hsmc] at this; exact absurd this (by decide)
  subst e1
  have e2 : r2 = (withGic c w).rc := by
    rcases (completeMmio_some hp.mmio).2 with ⟨_, h⟩ | ⟨_, _, h, _⟩
    · exact h
    · have : ec w.rc.lastEsr = EC_DABT := h
      rw [hsmc] at this; exact absurd this (by decide)
  subst e2
  have e3 : r3 = completeRipas (withGic c w).rc c.enter := by
    rcases (completeSysreg_some hp.sysreg).2.2 with h | ⟨h, _⟩
    · exact h
    · rw [(completeRipas_fields _ _).1] at h
      have : ec w.rc.lastEsr = EC_SYSREG := h
      rw [hsmc] at this; exact absurd this (by decide)
  subst e3
  have hc := hp.call
  unfold completeHostCall at hc
  have h3 : (completeRipas (withGic c w).rc c.enter).hostCall = false := by
    rw [(completeRipas_fields _ _).2.2.2.2.2.1]
    exact hcall
  rw [if_pos (show ({ withGic c w with rc := completeRipas (withGic c w).rc c.enter } : World).rc.hostCall = false
    from h3)] at hc
  exact (Option.some.inj hc).symm

/-- **C29, the answer.**  When a REC with a pending change is run again, the realm gets SUCCESS, the address up to
which the change was made, and REJECT exactly if it asked for RAM, the change was not completed and the host refused;
no other register, no memory and not the PC change, and the request is no longer pending. -/
theorem C29_answer {c : Call} {w : World} {o : Out} (hi : Inv w.rc) (h : recEnter c w = some o) (hran : o.ran = true)
    (hr : w.rc.ripas.base ≠ w.rc.ripas.top) :
    (w.rc.ripas.base.toNat ≤ w.rc.ripas.addr.toNat ∧ w.rc.ripas.addr.toNat ≤ w.rc.ripas.top.toNat) ∧
    ∃ w1, runRec c w1 = some o ∧ w1.mem = w.mem ∧ w1.rc.pc = w.rc.pc ∧ w1.rc.pstate = w.rc.pstate ∧
      w1.rc.ripas.base = w1.rc.ripas.top ∧
      w1.rc.regs 0 = RSI_SUCCESS ∧ w1.rc.regs 1 = w.rc.ripas.addr ∧
      (w1.rc.regs 2 = 1 ∨ w1.rc.regs 2 = 0) ∧
      (w1.rc.regs 2 = 1 ↔
        w.rc.ripas.val = 1 ∧ w.rc.ripas.addr ≠ w.rc.ripas.top ∧ c.enter.flags.getLsbD 4 = true) ∧
      ∀ j, 3 ≤ j → w1.rc.regs j = w.rc.regs j := by
  refine ⟨(hi.ripas hr).2.2.2.2.addr, ?_⟩
  obtain ⟨r1, r2, r3, p, hp, _, hrun⟩ := recEnter_ran h hran
  have hpe := path_ripas hi hp hr
  subst hpe
  have e : completeRipas (withGic c w).rc c.enter =
      { (withGic c w).rc with
        regs := upd (upd (upd w.rc.regs 0 RSI_SUCCESS) 1 w.rc.ripas.addr) 2
          (if w.rc.ripas.val = 1 ∧ w.rc.ripas.addr ≠ w.rc.ripas.top ∧ c.enter.ripasReject then 1 else 0)
        ripas := { w.rc.ripas with base := 0, top := 0, reject := c.enter.ripasReject } } := by
    unfold completeRipas
    dsimp only
    rw [if_neg (show ¬ (withGic c w).rc.ripas.base = (withGic c w).rc.ripas.top from hr)]
    rfl
  refine ⟨_, hrun, rfl, ?_, ?_, ?_, ?_, ?_, ?_, ?_, ?_⟩
  all_goals dsimp only
  all_goals rw [e]
  all_goals try rfl
  · show (if w.rc.ripas.val = 1 ∧ w.rc.ripas.addr ≠ w.rc.ripas.top ∧ c.enter.ripasReject = true then (1 : W) else 0) = 1 ∨
      (if w.rc.ripas.val = 1 ∧ w.rc.ripas.addr ≠ w.rc.ripas.top ∧ c.enter.ripasReject = true then (1 : W) else 0) = 0
    split
    · exact .inl rfl
    · exact .inr rfl
  · show (if w.rc.ripas.val = 1 ∧ w.rc.ripas.addr ≠ w.rc.ripas.top ∧ c.enter.ripasReject = true then (1 : W) else 0) = 1 ↔ _
    constructor
    · intro h
      rcases ite_or h with ⟨hc, _⟩ | ⟨_, h⟩
      · exact hc
      · exact absurd h (by decide)
    · intro hc
      exact if_pos hc
  · intro j hj
    show (if j = 2 then _ else if j = 1 then _ else if j = 0 then _ else w.rc.regs j) = _
    rw [if_neg (by omega), if_neg (by omega), if_neg (by omega)]

/-- **C29.**  As long as the REC has not run, the request stays as it was. -/
theorem C29_kept {c : Call} {w : World} {o : Out} (hi : Inv w.rc) (h : recEnter c w = some o) (hran : o.ran = false)
    (hr : w.rc.ripas.base ≠ w.rc.ripas.top) :
    o.w.rc.ripas = w.rc.ripas ∧ o.w.rc.regs = w.rc.regs ∧ o.w.rc.pc = w.rc.pc := by
  rcases recEnter_cases h with ⟨_, _, h1, _⟩ | ⟨_, _, _, _, h1, _⟩ | ⟨_, _, _, _, r1, h1, h2, h3⟩ |
    ⟨r1, r2, r3, ⟨w1, b⟩, hp, ⟨hb, h1⟩ | ⟨hb, h1⟩⟩
  · rw [h1]; exact ⟨rfl, rfl, rfl⟩
  · rw [h1]; exact ⟨rfl, rfl, rfl⟩
  · rw [h1]
    rcases (completeSea_some h2).2.2 with ⟨_, h4⟩ | ⟨h4, _⟩
    · rw [h4]; exact ⟨rfl, rfl, rfl⟩
    · have := completeMmio_none h3
      unfold Enter.injectSea at h4
      exact absurd (h4.symm.trans this.2.1) (by decide)
  · have := path_ripas hi hp hr
    rw [(Prod.mk.inj this).2] at hb
    simp at hb
  · rw [runRec_ran h1] at hran
    simp at hran

/-! ## Concrete cases -/

/-- X1 = 0x1000, X2 = 0x3000, X3 = RAM. -/
def Demo.asksRam (x3 : W) : Nat → W := fun i =>
  if i = 0 then 0xC4000197 else if i = 1 then 0x1000 else if i = 2 then 0x3000 else if i = 3 then x3 else 0

/-- The host is told the range. -/
example :
    let e := Demo.ev .sync ⟨0x5E000000, 0, 0⟩ (Demo.asksRam 1)
    seen (·.ripasBase) e = some 0x1000 ∧ seen (·.ripasTop) e = some 0x3000 ∧ seen (·.ripasVal) e = some 1 := by
  decide +kernel

example : RangeArgs 33 0x1000 0x3000 1 := by constructor <;> decide
example : ¬ RangeArgs 33 0x1000 0x100001000 1 := fun h => absurd h.par (by decide)

/-- A REC that asked for RAM and of which the host changed one page. -/
def Demo.asking : World :=
  { Demo.world with rc := { Demo.rc with ripas := ⟨0x1000, 0x3000, 0x2000, 1, 0, false⟩, lastEsr := 0x5E000000 } }

example : Inv Demo.asking.rc ∧ Demo.asking.rc.ripas.base ≠ Demo.asking.rc.ripas.top := by
  refine ⟨⟨by decide, fun h => absurd h (by decide), fun _ => ⟨by decide, by decide, by decide, by decide, ?_⟩,
    fun h => absurd h (by decide), fun h => absurd h (by decide)⟩, by decide⟩
  constructor <;> decide

/-- It can be run. -/
example : ((recEnter (Demo.call 16 0 [Demo.ev .irq ⟨0, 0, 0⟩ fun _ => 0]) Demo.asking).map (·.ran)) = some true := by
  decide +kernel

/-- **Deviation.**  The state 0x1_0000_0001 is not a RIPAS, yet it is accepted and treated as RAM. -/
theorem C29_state_truncated :
    let e := Demo.ev .sync ⟨0x5E000000, 0, 0⟩ (Demo.asksRam 0x100000001)
    seen (·.reason) e = some EXIT_RIPAS ∧ seen (·.ripasVal) e = some 1 := by
  decide +kernel

end Verif.Run
