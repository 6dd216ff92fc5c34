import Verif.Run.Rsi
import Verif.Run.PropPsci

/-!
# C86: what a realm is told about the calls it can make
-/

namespace Verif.Run

namespace Spec

/-- The realm goes on with "not supported" (-1) in X0. -/
def SaysNo (o : Option (World × Bool)) : Prop := ∃ w', o = some (w', true) ∧ w'.rc.regs 0 = -1

end Spec

theorem rsi_ret (w : World) (v : W) : ∃ w', rsiFinish (w, ret w.rc v) = some (w', true) ∧ w'.rc.regs 0 = v := by
  refine ⟨_, rfl, ?_⟩
  rfl

theorem features_answer (env : Env) {w : World} (h : w.rc.regs 0 = 0x8400000A) :
    ∃ w', realmRsi env w = some (w', true) ∧
      w'.rc.regs 0 = if psciKnown ((w.rc.regs 1).setWidth 32) then (0 : W) else -1 := by
  have hf : fid w.rc = 0x8400000A := by unfold fid; rw [h]; decide
  have hs : rsiSwitch env w 0x8400000A = some (psciFeatures w) := by
    unfold rsiSwitch psci
    rw [h]
    rfl
  unfold realmRsi
  rw [hf, hs]
  exact rsi_ret w _

theorem psci_no (env : Env) {v : World} {f : BitVec 32} (hx : (v.rc.regs 0).setWidth 32 = f) (h0 : f ≠ 0x84000000)
    (k1 : f ≠ 0x84000001) (k2 : f ≠ 0xC4000001) (k3 : f ≠ 0x84000002) (k4 : f ≠ 0x84000003) (k5 : f ≠ 0xC4000003)
    (k6 : f ≠ 0x84000004) (k7 : f ≠ 0xC4000004) (k8 : f ≠ 0x84000008) (k9 : f ≠ 0x84000009) (k10 : f ≠ 0x8400000A) :
    psci env v = (v, ret v.rc (-1)) := by
  subst hx
  unfold psci
  dsimp only
  rw [if_neg h0, if_neg (not_or.2 ⟨k1, k2⟩), if_neg k3, if_neg (not_or.2 ⟨k4, k5⟩), if_neg (not_or.2 ⟨k6, k7⟩),
    if_neg (not_or.2 ⟨k8, k9⟩), if_neg k10]
  rfl

theorem switch_no (env : Env) {v : World} {f : BitVec 32} (hx : (v.rc.regs 0).setWidth 32 = f)
    (hrsi : ¬ (0xC4000190 ≤ f ∧ f ≤ 0xC4000199)) (h0 : f ≠ 0x84000000)
    (k1 : f ≠ 0x84000001) (k2 : f ≠ 0xC4000001) (k3 : f ≠ 0x84000002) (k4 : f ≠ 0x84000003) (k5 : f ≠ 0xC4000003)
    (k6 : f ≠ 0x84000004) (k7 : f ≠ 0xC4000004) (k8 : f ≠ 0x84000008) (k9 : f ≠ 0x84000009) (k10 : f ≠ 0x8400000A)
    (k11 : f ≠ 0x80000000) : rsiSwitch env v f = some (v, ret v.rc (-1)) := by
  have q : ∀ g : BitVec 32, 0xC4000190 ≤ g → g ≤ 0xC4000199 → f ≠ g := fun g a b c => hrsi (c ▸ ⟨a, b⟩)
  have q0 : f ≠ 0xC4000190 := q _ (by decide) (by decide)
  have q1 : f ≠ 0xC4000191 := q _ (by decide) (by decide)
  have q2 : f ≠ 0xC4000192 := q _ (by decide) (by decide)
  have q3 : f ≠ 0xC4000193 := q _ (by decide) (by decide)
  have q4 : f ≠ 0xC4000194 := q _ (by decide) (by decide)
  have q5 : f ≠ 0xC4000195 := q _ (by decide) (by decide)
  have q6 : f ≠ 0xC4000196 := q _ (by decide) (by decide)
  have q7 : f ≠ 0xC4000197 := q _ (by decide) (by decide)
  have q8 : f ≠ 0xC4000198 := q _ (by decide) (by decide)
  have q9 : f ≠ 0xC4000199 := q _ (by decide) (by decide)
  have hp := psci_no env hx h0 k1 k2 k3 k4 k5 k6 k7 k8 k9 k10
  unfold rsiSwitch
  rw [if_neg k11, hp]
  by_cases hr : (0x84000000 ≤ f ∧ f ≤ 0x84000014) ∨ (0xC4000000 ≤ f ∧ f ≤ 0xC4000014)
  · rw [if_pos hr]
  · rw [if_neg hr, if_neg q0, if_neg q1, if_neg q4, if_neg q5, if_neg q2, if_neg q3, if_neg q6, if_neg q7, if_neg q8,
      if_neg q9]

/-- C86: what PSCI_FEATURES says of a function is true: if it says 0 the call of that function is never answered with "not
supported" (but for PSCI_FEATURES itself, whose answer is about another function), and if it says "not supported" that is what
the call gets. `v` is any state in which the realm calls the function. Missing: PSCI_VERSION, of which it is false
(`C86_version_denied`), and identifiers with the SVE hint bit; functions of RSI are none of PSCI. -/
theorem C86_features_partial (env : Env) {w v : World} (h : w.rc.regs 0 = 0x8400000A) {f : BitVec 32}
    (hf : f = (w.rc.regs 1).setWidth 32) (hv : v.rc.regs 0 = f.setWidth 64) (hint : f &&& 0x10000 = 0)
    (hver : f ≠ 0x84000000) (hrsi : ¬ (0xC4000190 ≤ f ∧ f ≤ 0xC4000199)) :
    ∃ w', realmRsi env w = some (w', true) ∧ (w'.rc.regs 0 = 0 ∨ w'.rc.regs 0 = -1) ∧
      (w'.rc.regs 0 = 0 → f = 0x8400000A ∨ ¬ Spec.SaysNo (realmRsi env v)) ∧
      (w'.rc.regs 0 = -1 → Spec.SaysNo (realmRsi env v)) := by
  obtain ⟨w', e, ha⟩ := features_answer env h
  rw [← hf] at ha
  have hx : (v.rc.regs 0).setWidth 32 = f := by rw [hv]; ext i hi; simp
  have hfid : fid v.rc = f := by
    unfold fid
    rw [hx]
    apply BitVec.eq_of_getLsbD_eq
    intro i hi
    have := congrArg (fun b : BitVec 32 => b.getLsbD i) hint
    simp only [BitVec.getLsbD_and] at this
    simp only [BitVec.getLsbD_and, BitVec.getLsbD_not, hi, decide_true, Bool.true_and]
    revert this
    cases f.getLsbD i <;> simp
  refine ⟨w', e, ?_, ?_, ?_⟩
  · rw [ha]; split <;> simp
  · intro h0
    rw [ha] at h0
    have hk : psciKnown f = true := by
      by_contra hk
      rw [if_neg hk] at h0
      exact absurd h0 (by decide)
    simp only [psciKnown, Bool.or_eq_true, beq_iff_eq] at hk
    have out : ∀ p : World × Res, rsiSwitch env v f = some p →
        (p.2.act.exit = true ∨ (p.2.act.upd = true ∧ p.2.act.abort = false ∧ p.2.x 0 ≠ -1)) →
        ¬ Spec.SaysNo (realmRsi env v) := by
      rintro p hp hq ⟨u, hu, hn⟩
      unfold realmRsi at hu
      rw [hfid, hp] at hu
      simp only [Option.bind_some, rsiFinish] at hu
      rcases hq with hq | ⟨h1, h2, h3⟩
      · obtain ⟨y, _, hy⟩ := Option.map_eq_some_iff.1 hu
        have := (Prod.mk.inj hy).2
        rw [hq] at this
        cases this
      · rw [h1, h2] at hu
        simp only [if_true, Bool.false_eq_true, if_false, Option.map_some, Option.some.injEq, Prod.mk.injEq] at hu
        rw [← hu.1] at hn
        exact h3 hn
    have sw : ∀ g : BitVec 32, f = g → ((0x84000000 ≤ g ∧ g ≤ 0x84000014) ∨ (0xC4000000 ≤ g ∧ g ≤ 0xC4000014)) →
        g ≠ 0x80000000 → rsiSwitch env v f = some (psci env v) := by
      intro g hg h1 h2
      unfold rsiSwitch
      rw [hg, if_neg h2, if_pos h1]
    have ps : ∀ g : BitVec 32, f = g → (v.rc.regs 0).setWidth 32 = g := fun g hg => hx.trans hg
    have on_ : ∀ p : World × Res, p = psciOn env v →
        (p.2.act.exit = true ∨ (p.2.act.upd = true ∧ p.2.act.abort = false ∧ p.2.x 0 ≠ -1)) := by
      rintro p rfl
      unfold psciOn
      split
      · exact Or.inr ⟨rfl, rfl, by simp only [ret, upd, if_true]; decide⟩
      · split
        · exact Or.inr ⟨rfl, rfl, by simp only [ret, upd, if_true]; decide⟩
        · split
          · exact Or.inr ⟨rfl, rfl, by simp only [ret, upd, if_true]; decide⟩
          · exact Or.inl rfl
    have aff : ∀ p : World × Res, p = psciAffinity env v →
        (p.2.act.exit = true ∨ (p.2.act.upd = true ∧ p.2.act.abort = false ∧ p.2.x 0 ≠ -1)) := by
      rintro p rfl
      unfold psciAffinity
      split
      · exact Or.inr ⟨rfl, rfl, by simp only [ret, upd, if_true]; decide⟩
      · split
        · exact Or.inr ⟨rfl, rfl, by simp only [ret, upd, if_true]; decide⟩
        · split
          · exact Or.inr ⟨rfl, rfl, by simp only [ret, upd, if_true]; decide⟩
          · exact Or.inl rfl
    rcases hk with (((((((((hk | hk) | hk) | hk) | hk) | hk) | hk) | hk) | hk) | hk) | hk
    · exact Or.inr (out _ (sw _ hk (by decide) (by decide)) (by unfold psci; rw [ps _ hk]; exact Or.inl rfl))
    · exact Or.inr (out _ (sw _ hk (by decide) (by decide)) (by unfold psci; rw [ps _ hk]; exact Or.inl rfl))
    · exact Or.inr (out _ (sw _ hk (by decide) (by decide)) (by unfold psci; rw [ps _ hk]; exact Or.inl rfl))
    · exact Or.inr (out _ (sw _ hk (by decide) (by decide)) (on_ _ (by unfold psci; rw [ps _ hk]; rfl)))
    · exact Or.inr (out _ (sw _ hk (by decide) (by decide)) (on_ _ (by unfold psci; rw [ps _ hk]; rfl)))
    · exact Or.inr (out _ (sw _ hk (by decide) (by decide)) (aff _ (by unfold psci; rw [ps _ hk]; rfl)))
    · exact Or.inr (out _ (sw _ hk (by decide) (by decide)) (aff _ (by unfold psci; rw [ps _ hk]; rfl)))
    · exact Or.inr (out _ (sw _ hk (by decide) (by decide)) (by unfold psci; rw [ps _ hk]; exact Or.inl rfl))
    · exact Or.inr (out _ (sw _ hk (by decide) (by decide)) (by unfold psci; rw [ps _ hk]; exact Or.inl rfl))
    · exact Or.inl hk
    · refine Or.inr (out (v, ret v.rc 0x10002) (by unfold rsiSwitch; rw [if_pos hk]) (Or.inr ⟨rfl, rfl, ?_⟩))
      simp only [ret, upd, if_true]; decide
  · intro h0
    rw [ha] at h0
    have hk : psciKnown f = false := by
      by_contra hk
      rw [if_pos (by simpa using hk)] at h0
      exact absurd h0 (by decide)
    simp only [psciKnown, Bool.or_eq_false_iff, beq_eq_false_iff_ne, ne_eq] at hk
    obtain ⟨⟨⟨⟨⟨⟨⟨⟨⟨⟨k1, k2⟩, k3⟩, k4⟩, k5⟩, k6⟩, k7⟩, k8⟩, k9⟩, k10⟩, k11⟩ := hk
    have hs := switch_no env hx hrsi hver k1 k2 k3 k4 k5 k6 k7 k8 k9 k10 k11
    unfold Spec.SaysNo realmRsi
    rw [hfid, hs]
    exact rsi_ret v _

/-- C86, where it fails: PSCI_FEATURES denies PSCI_VERSION, which the realm can call. -/
theorem C86_version_denied (env : Env) {w v : World} (h : w.rc.regs 0 = 0x8400000A) (h1 : w.rc.regs 1 = 0x84000000)
    (hv : v.rc.regs 0 = 0x84000000) :
    Spec.SaysNo (realmRsi env w) ∧ ∃ v', realmRsi env v = some (v', true) ∧ v'.rc.regs 0 = 0x10001 := by
  obtain ⟨w', e, ha⟩ := features_answer env h
  rw [h1, if_neg (by decide)] at ha
  refine ⟨⟨w', e, ha⟩, ?_⟩
  have hf : fid v.rc = 0x84000000 := by unfold fid; rw [hv]; decide
  have hs : rsiSwitch env v 0x84000000 = some (v, ret v.rc 0x10001) := by
    unfold rsiSwitch psci
    rw [hv]
    rfl
  unfold realmRsi
  rw [hf, hs]
  exact rsi_ret v _

/-- C86: RSI_VERSION accepts exactly the version 1.0, and says in X1 and X2 that this is the one there is. -/
theorem C86_rsi_version (env : Env) {w : World} (h : w.rc.regs 0 = 0xC4000190) :
    ∃ w', realmRsi env w = some (w', true) ∧ (w'.rc.regs 0 = 0 ↔ w.rc.regs 1 = 0x10000) ∧
      (w'.rc.regs 0 = 0 ∨ w'.rc.regs 0 = 1) ∧ w'.rc.regs 1 = 0x10000 ∧ w'.rc.regs 2 = 0x10000 := by
  have hf : fid w.rc = 0xC4000190 := by unfold fid; rw [h]; decide
  have hs : rsiSwitch env w 0xC4000190 = some (rsiVersion w) := rfl
  unfold realmRsi
  rw [hf, hs]
  refine ⟨_, rfl, ?_⟩
  by_cases hq : w.rc.regs 1 = 0x10000
  · refine ⟨⟨fun _ => hq, fun _ => ?_⟩, Or.inl ?_, rfl, rfl⟩ <;>
    · show (if w.rc.regs 1 ≠ 0x10000 then RSI_ERROR_INPUT else RSI_SUCCESS) = _
      rw [if_neg (by simpa using hq)]; rfl
  · have e1 : (if w.rc.regs 1 ≠ 0x10000 then RSI_ERROR_INPUT else RSI_SUCCESS) = (1 : W) := by
      rw [if_pos hq]; rfl
    refine ⟨⟨fun x => ?_, fun x => absurd x hq⟩, Or.inr e1, rfl, rfl⟩
    exact absurd (e1.symm.trans x) (by decide)

namespace Demo

def wants (x0 x1 : W) : World := { world with rc := { rc with regs := fun i => if i = 0 then x0 else if i = 1 then x1 else 0 } }

/-- CPU_ON is there and CPU_FREEZE is not. -/
example := C86_features_partial Demo.env (w := wants 0x8400000A 0xC4000003) (v := wants 0xC4000003 7) (f := 0xC4000003) rfl
  (by decide) (by decide) (by decide) (by decide) (by decide)
example := C86_features_partial Demo.env (w := wants 0x8400000A 0x8400000B) (v := wants 0x8400000B 7) (f := 0x8400000B) rfl
  (by decide) (by decide) (by decide) (by decide) (by decide)
example := C86_version_denied Demo.env (w := wants 0x8400000A 0x84000000) (v := wants 0x84000000 7) rfl rfl rfl
example := C86_rsi_version Demo.env (w := wants 0xC4000190 0x10000) rfl
example : [wants 0x8400000A 0xC4000003, wants 0x8400000A 0x8400000B, wants 0xC4000190 0x10000, wants 0xC4000190 0x10001].map
    (fun w => (realmRsi Demo.env w).map (·.1.rc.regs 0)) = [some 0, some (-1), some 0, some 1] := by decide +kernel

end Demo

end Verif.Run
