import Verif.Vtcr.Props

/-!
# The EL2 registers set at start-up and what a realm runs under (C80)

`rmm_arch_init` (/repo/runtime/core/init.c:26-46) sets some EL2 registers of each CPU that starts. REC_CREATE derives
the MDCR_EL2 of a REC from what the register holds on the CPU it runs on (/repo/runtime/rmi/rec.c:108), and entering a
REC writes it (/repo/runtime/core/run.c:164). Nothing puts back the value of start-up, so what is there when a REC is
created depends on what ran before. EL3 is taken to keep the registers of R-EL2 while the host runs.
-/

namespace Verif.Vtcr.Arch

open Verif.Vtcr
open Features (W inplace mask extract field)

/-- The registers of a CPU that say what it is: MIDR_EL1, PMCR_EL0 and ID_AA64MMFR3_EL1. -/
structure Ident where
  midr : W
  pmcr : W
  mmfr3 : W

/-- The registers `rmm_arch_init` sets. -/
structure Regs where
  cnthctl : W
  vpidr : W
  mdcr : W
  hcrx : W

/-- MDCR_EL2_INIT: /repo/lib/arch/include/arch.h:869-894. -/
def mdcrInit : W := 1#64 <<< 28 ||| 1#64 <<< 23 ||| 1#64 <<< 17 ||| 1#64 <<< 9 ||| 1#64 <<< 6 ||| 1#64 <<< 5

/-- `is_feat_sctlr2x_present`: /repo/lib/arch/include/arch_features.h:166-170; field SCTLRX is at bit 4 (arch.h). -/
def sctlr2 (d : Ident) : Bool := extract 4 4 d.mmfr3 == 1

/-- `rmm_arch_init`: init.c:26-46. MPAM and SPE are compiled out (/repo/lib/common/include/utils_def.h:152-166).
CNTHCTL_EL2_INIT is arch.h:1083, PMCR_EL0.N bits 11 to 15 (arch.h:725-726), HCRX_SCTLR2EN bit 15 (arch.h:195). -/
def archInit (d : Ident) : Regs :=
  let hcrx : W := 0
  let cnthctl : W := 1#64 <<< 1 ||| 1#64 <<< 0
  let vpidr := d.midr
  let mdcr := mdcrInit ||| (extract 11 5 d.pmcr &&& mask 0 5)
  let hcrx := if sctlr2 d then hcrx ||| 1#64 <<< 15 else hcrx
  ⟨cnthctl, vpidr, mdcr, hcrx⟩

/-- A REC: `rd->pmu_enabled`, `rd->pmu_num_ctrs` and `rec->common_sysregs.mdcr_el2`. -/
structure Rec where
  pmu : Bool
  ctrs : Nat
  mdcr : W

structure M where
  cpu : Nat → Option Regs
  recs : Nat → Option Rec

inductive Ev where
  /-- CPU `i` is started, cold or warm: `rmm_warmboot_main`, init.c:50-61 -/
  | boot (i : Nat)
  /-- REC_CREATE on CPU `i` makes REC `r` -/
  | create (i r : Nat) (pmu : Bool) (ctrs : Nat)
  | destroy (r : Nat)
  /-- CPU `i` enters REC `r`: `restore_realm_state`, run.c:146-179. CNTHCTL_EL2 is put back when the REC is left
  (run.c:209; C52) and so left out. -/
  | enter (i r : Nat)

def upd {α : Type} (f : Nat → α) (i : Nat) (v : α) : Nat → α := fun j => if j = i then v else f j

/-- One event. Nothing runs on a CPU that has not been started, and a REC that is not there is not entered. -/
def step (d : Nat → Ident) (m : M) : Ev → M
  | .boot i => { m with cpu := upd m.cpu i (some (archInit (d i))) }
  | .create i r pmu ctrs =>
    match m.cpu i with
    | none => m
    | some c => { m with recs := upd m.recs r (some ⟨pmu, ctrs, mdcr c.mdcr pmu ctrs⟩) }
  | .destroy r => { m with recs := upd m.recs r none }
  | .enter i r =>
    match m.cpu i, m.recs r with
    | some c, some q => { m with cpu := upd m.cpu i (some { c with mdcr := q.mdcr }) }
    | _, _ => m

def run (d : Nat → Ident) (es : List Ev) : M := es.foldl (step d) ⟨fun _ => none, fun _ => none⟩

/-- The registers realm code in REC `r` runs under on CPU `i` after the events `es`. -/
def under (d : Nat → Ident) (es : List Ev) (i r : Nat) : Option Regs :=
  match (run d es).cpu i, (run d es).recs r with
  | some _, some _ => (run d (es ++ [.enter i r])).cpu i
  | _, _ => none

/-! ## Proofs -/

/-- A REC with a PMU is given at most 31 counters: REALM_CREATE checks the number against the feature register
(/repo/runtime/rmi/realm.c:281-285; C50). -/
def Ev.ok : Ev → Prop
  | .create _ _ pmu c => pmu = true → c < 32
  | _ => True

/-- From bit 7 on as at start-up. -/
def High (v : W) : Prop := ∀ i, 7 ≤ i → v.getLsbD i = mdcrInit.getLsbD i

structure RecOk (q : Rec) : Prop where
  high : High q.mdcr
  off : q.pmu = false → q.mdcr.getLsbD 6 = true ∧ q.mdcr.getLsbD 5 = true
  on : q.pmu = true → q.mdcr.getLsbD 6 = false ∧ q.mdcr.getLsbD 5 = false ∧ field 0 5 q.mdcr = q.ctrs

structure CpuOk (d : Ident) (c : Regs) : Prop where
  high : High c.mdcr
  vpidr : c.vpidr = d.midr
  cnthctl : c.cnthctl = 3
  hcrx : c.hcrx = if extract 4 4 d.mmfr3 = 1 then 0x8000 else 0

structure Inv (d : Nat → Ident) (m : M) : Prop where
  cpu : ∀ i c, m.cpu i = some c → CpuOk (d i) c
  recs : ∀ r q, m.recs r = some q → RecOk q

theorem mdcr_ok {c : W} (h : High c) (pmu : Bool) {ctrs : Nat} (hc : pmu = true → ctrs < 32) : RecOk ⟨pmu, ctrs, mdcr c pmu ctrs⟩ := by
  cases pmu
  · have hp := C51_pmu c false 0 (by omega)
    have e : mdcr c false ctrs = mdcr c false 0 := rfl
    rw [e]
    exact ⟨fun i hi => by rw [hp.2.2 i hi]; exact h i hi, fun e => ⟨(hp.1 e).1, (hp.1 e).2.1⟩, fun e => (by cases e)⟩
  · have hp := C51_pmu c true ctrs (hc rfl)
    exact ⟨fun i hi => by rw [hp.2.2 i hi]; exact h i hi, fun e => (by cases e), fun e => hp.2.1 e⟩

theorem init_high (d : Ident) : High (archInit d).mdcr := by
  intro i hi
  simp only [archInit]
  rw [BitVec.getLsbD_or, BitVec.getLsbD_and]
  by_cases h : i < 64
  · rw [Features.bit_mask _ _ _ (by omega)]
    have : ¬ i < 5 := by omega
    simp [this]
  · rw [BitVec.getLsbD_of_ge _ _ (by omega), BitVec.getLsbD_of_ge (mask 0 5) _ (by omega)]; simp

theorem init_ok (d : Ident) : CpuOk d (archInit d) := by
  refine ⟨init_high d, rfl, ?_, ?_⟩
  · simp [archInit]
  · simp only [archInit, sctlr2]
    by_cases h : extract 4 4 d.mmfr3 = 1
    · simp [h]
    · simp [h]

theorem step_inv {d : Nat → Ident} {m : M} (h : Inv d m) {e : Ev} (he : e.ok) : Inv d (step d m e) := by
  cases e with
  | boot i =>
    refine ⟨fun j c hj => ?_, h.recs⟩
    by_cases hij : j = i
    · subst hij
      simp only [step, upd, if_true, Option.some.injEq] at hj
      subst hj; exact init_ok _
    · simp only [step, upd, if_neg hij] at hj
      exact h.cpu j c hj
  | create i r pmu ctrs =>
    unfold step
    cases hc : m.cpu i with
    | none => simpa [hc] using h
    | some c =>
      simp only [hc]
      refine ⟨h.cpu, fun r' q hq => ?_⟩
      by_cases hr : r' = r
      · subst hr
        simp only [upd, if_true, Option.some.injEq] at hq
        subst hq; exact mdcr_ok (h.cpu i c hc).high pmu he
      · simp only [upd, if_neg hr] at hq
        exact h.recs r' q hq
  | destroy r =>
    refine ⟨h.cpu, fun r' q hq => ?_⟩
    by_cases hr : r' = r
    · subst hr; simp [step, upd] at hq
    · simp only [step, upd, if_neg hr] at hq
      exact h.recs r' q hq
  | enter i r =>
    unfold step
    cases hc : m.cpu i with
    | none => simpa [hc] using h
    | some c =>
      cases hq : m.recs r with
      | none => simpa [hc, hq] using h
      | some q =>
        simp only [hc, hq]
        refine ⟨fun j c' hj => ?_, h.recs⟩
        by_cases hij : j = i
        · subst hij
          simp only [upd, if_true, Option.some.injEq] at hj
          subst hj
          have := h.cpu j c hc
          exact ⟨(h.recs r q hq).high, this.vpidr, this.cnthctl, this.hcrx⟩
        · simp only [upd, if_neg hij] at hj
          exact h.cpu j c' hj

theorem run_inv (d : Nat → Ident) (es : List Ev) (hes : ∀ e ∈ es, e.ok) : Inv d (run d es) := by
  have : ∀ (es : List Ev) (m : M), Inv d m → (∀ e ∈ es, e.ok) → Inv d (es.foldl (step d) m) := by
    intro es
    induction es with
    | nil => intro m h _; exact h
    | cons e es ih =>
      intro m h hes
      exact ih _ (step_inv h (hes e (by simp))) (fun e' he' => hes e' (by simp [he']))
  exact this es _ ⟨fun _ _ h => (by cases h), fun _ _ h => (by cases h)⟩ hes

theorem under_eq {d : Nat → Ident} {es : List Ev} {i r : Nat} {c : Regs} (h : under d es i r = some c) :
    ∃ c0 q, (run d es).cpu i = some c0 ∧ (run d es).recs r = some q ∧ c = { c0 with mdcr := q.mdcr } := by
  unfold under at h
  cases hc : (run d es).cpu i with
  | none => simp [hc] at h
  | some c0 =>
    cases hq : (run d es).recs r with
    | none => simp [hc, hq] at h
    | some q =>
      simp only [hc, hq, run, List.foldl_append, List.foldl_cons, List.foldl_nil] at h
      simp only [run] at hc hq
      simp only [step, hc, hq, upd, if_true, Option.some.injEq] at h
      exact ⟨c0, q, rfl, rfl, h.symm⟩

/-! ## Properties -/

/-- What the realm in REC `r`, made with `pmu` and `ctrs`, has to run under on a CPU with identity `d`, bit by bit.
Debug registers trap (TDA), counting is off at EL2 (HPMD, HCCD), multithreaded counting is as it was (MTPME), and the
PMU registers trap unless the realm has a PMU. -/
structure Required (d : Ident) (pmu : Bool) (c : Regs) : Prop where
  midr : c.vpidr = d.midr
  sctlr2 : c.hcrx = if extract 4 4 d.mmfr3 = 1 then 0x8000 else 0
  debug : c.mdcr.getLsbD 9 = true
  silent : c.mdcr.getLsbD 17 = true ∧ c.mdcr.getLsbD 23 = true ∧ c.mdcr.getLsbD 28 = true
  rest : ∀ i, 7 ≤ i → i ≠ 9 → i ≠ 17 → i ≠ 23 → i ≠ 28 → c.mdcr.getLsbD i = false
  trap : c.mdcr.getLsbD 6 = !pmu ∧ c.mdcr.getLsbD 5 = !pmu

theorem high_bits {v : W} (h : High v) : v.getLsbD 9 = true ∧ (v.getLsbD 17 = true ∧ v.getLsbD 23 = true ∧ v.getLsbD 28 = true) ∧
    ∀ i, 7 ≤ i → i ≠ 9 → i ≠ 17 → i ≠ 23 → i ≠ 28 → v.getLsbD i = false := by
  have tab : ∀ i : Fin 64, 7 ≤ i.val → mdcrInit.getLsbD i = decide (i.val = 9 ∨ i.val = 17 ∨ i.val = 23 ∨ i.val = 28) := by
    decide
  refine ⟨by rw [h 9 (by omega)]; decide, ⟨by rw [h 17 (by omega)]; decide, by rw [h 23 (by omega)]; decide,
    by rw [h 28 (by omega)]; decide⟩, fun i h7 h9 h17 h23 h28 => ?_⟩
  by_cases hi : i < 64
  · rw [h i h7]
    have := tab ⟨i, hi⟩ h7
    dsimp only at this
    rw [this]; simp [h9, h17, h23, h28]
  · exact BitVec.getLsbD_of_ge _ _ (by omega)

/-- Whatever CPUs were started, RECs created, destroyed and entered before, on whatever CPUs and in whatever order, a
realm runs under the settings RMM means it to have. -/
theorem C80_realm_settings (d : Nat → Ident) (es : List Ev) (hes : ∀ e ∈ es, e.ok) (i r : Nat) (c : Regs) (q : Rec)
    (hu : under d es i r = some c) (hq : (run d es).recs r = some q) : Required (d i) q.pmu c := by
  obtain ⟨c0, q', hc, hq', rfl⟩ := under_eq hu
  obtain rfl := Option.some.inj (hq.symm.trans hq')
  have hI := run_inv d es hes
  have h1 := hI.cpu i c0 hc
  have h2 := hI.recs r q hq
  have hb := high_bits h2.high
  refine ⟨h1.vpidr, h1.hcrx, hb.1, hb.2.1, hb.2.2, ?_⟩
  cases hp : q.pmu
  · exact h2.off hp
  · exact ⟨(h2.on hp).1, (h2.on hp).2.1⟩

/-- A realm with a PMU has the counters it was given, whatever went before. -/
theorem C80_counters (d : Nat → Ident) (es : List Ev) (hes : ∀ e ∈ es, e.ok) (i r : Nat) (c : Regs) (q : Rec)
    (hu : under d es i r = some c) (hq : (run d es).recs r = some q) (hp : q.pmu = true) :
    field 0 5 c.mdcr = q.ctrs := by
  obtain ⟨c0, q', hc, hq', rfl⟩ := under_eq hu
  obtain rfl := Option.some.inj (hq.symm.trans hq')
  exact ((run_inv d es hes).recs r q hq).on hp |>.2.2

/-- Two REC that are made alike run under the same registers on the same CPU, but for HPMN if they have no PMU. Part of
the claim that they run under the same registers altogether; `C80_history_shows` is why it is only a part. -/
theorem C80_history_partial (d : Nat → Ident) (es es' : List Ev) (hes : ∀ e ∈ es, e.ok) (hes' : ∀ e ∈ es', e.ok) (i r r' : Nat)
    (c c' : Regs) (q q' : Rec) (hu : under d es i r = some c) (hu' : under d es' i r' = some c')
    (hq : (run d es).recs r = some q) (hq' : (run d es').recs r' = some q') (hp : q.pmu = q'.pmu)
    (hc : q.pmu = true → q.ctrs = q'.ctrs) :
    c.vpidr = c'.vpidr ∧ c.hcrx = c'.hcrx ∧ (∀ n, 5 ≤ n → c.mdcr.getLsbD n = c'.mdcr.getLsbD n) ∧
      (q.pmu = true → c.mdcr = c'.mdcr) := by
  have a := C80_realm_settings d es hes i r c q hu hq
  have b := C80_realm_settings d es' hes' i r' c' q' hu' hq'
  have hi : ∀ n, 5 ≤ n → c.mdcr.getLsbD n = c'.mdcr.getLsbD n := by
    intro n hn
    by_cases h5 : n = 5
    · subst h5; rw [a.trap.2, b.trap.2, hp]
    by_cases h6 : n = 6
    · subst h6; rw [a.trap.1, b.trap.1, hp]
    by_cases h9 : n = 9
    · subst h9; rw [a.debug, b.debug]
    by_cases h17 : n = 17
    · subst h17; rw [a.silent.1, b.silent.1]
    by_cases h23 : n = 23
    · subst h23; rw [a.silent.2.1, b.silent.2.1]
    by_cases h28 : n = 28
    · subst h28; rw [a.silent.2.2, b.silent.2.2]
    rw [a.rest n (by omega) h9 h17 h23 h28, b.rest n (by omega) h9 h17 h23 h28]
  refine ⟨a.midr.trans b.midr.symm, a.sctlr2.trans b.sctlr2.symm, hi, fun hpm => ?_⟩
  have e1 := C80_counters d es hes i r c q hu hq hpm
  have e2 := C80_counters d es' hes' i r' c' q' hu' hq' (hp ▸ hpm)
  apply BitVec.eq_of_getLsbD_eq
  intro n hn
  by_cases h5 : n < 5
  · have f1 := field_bits 0 5 c.mdcr n
    have f2 := field_bits 0 5 c'.mdcr n
    have : field 0 5 c.mdcr = field 0 5 c'.mdcr := by rw [e1, e2, hc hpm]
    rw [this] at f1
    have := f1.symm.trans f2
    simpa [h5] using this
  · exact hi n (by omega)

/-- A CPU with six counters. -/
def demoId : Nat → Ident := fun _ => ⟨0x410fd0f0, 6#64 <<< 11, 0x10⟩

/-- A realm without a PMU can run with HPMN 6, as set at start-up, or with the counters of a REC that ran before. -/
theorem C80_history_shows :
    (under demoId [.boot 0, .create 0 2 false 0] 0 2).map (field 0 5 ·.mdcr) = some 6 ∧
    (under demoId [.boot 0, .create 0 1 true 3, .enter 0 1, .create 0 2 false 0] 0 2).map (field 0 5 ·.mdcr) = some 3 := by
  decide +kernel

/-- The hypotheses of the theorems above: two CPUs, three RECs. -/
example : (under demoId [.boot 0, .boot 1, .create 0 1 true 3, .enter 1 1, .create 1 2 true 4, .create 1 3 false 0, .boot 1] 1 2).map
    (fun c => (c.vpidr, c.hcrx, c.mdcr)) = some (0x410fd0f0, 0x8000, 0x10820204) := by decide +kernel

end Verif.Vtcr.Arch
