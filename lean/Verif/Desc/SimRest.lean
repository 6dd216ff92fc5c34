import Verif.Desc.Hw

/-!
# Simulation: realms, RECs and the rest of the system
-/

namespace Verif.Desc

open Rmm (State Plat Ret Rd GSt Walk Content Tlbi upd lk getRd getRec getTab idx sz rootFor dOf Entry InvG rdOf tabOf recOf)
open Rmm (PlatOk errInput errRtt errRealm errRec)
open S2tte

/-- An outcome of the entry-level machine run on a word-level state. -/
def lift (c : CState) (o : Rmm.Out) : COut := o.map fun x => ({ c with s := x.1 }, x.2)

/-- Close `strip` equations. -/
macro "strip_eq" : tactic => `(tactic| (unfold strip; dsimp only; simp only [strip_upd]; rfl))

section
variable {P : Plat} {a : State} {c : CState} {lp : Nat → Bool} {dp : Nat → Nat}
variable {ti : Nat → Rmm.TabInfo} {di : Nat → Nat × Nat} {rl : Nat → List Nat}

theorem Rel.lift (R : Rel a c lp dp) (r : Ret) : Sim (some (a, r)) (lift c (some (strip a, r))) := by
  refine Sim.some ⟨lp, dp, R.of_mem rfl rfl rfl⟩ rfl

/-- Like `Rel.lift` for a new state. -/
theorem sim_lift {a' s' : State} {r r' : Ret} (h : Rel a' { c with s := s' } lp dp) (e : r = r') :
    Sim (some (a', r)) (lift c (some (s', r'))) := Sim.some ⟨lp, dp, h⟩ e

theorem sim_none : Sim none (lift c none) := Sim.none

theorem granuleDelegate_sim (R : Rel a c lp dp) (x : Nat) :
    Sim (Rmm.granuleDelegate P a x) (lift c (Rmm.granuleDelegate P c.s x)) := by
  unfold Rmm.granuleDelegate
  rw [R.same, lk_strip]
  by_cases h1 : lk P a x .ns = true
  swap
  · rw [if_neg h1, if_neg h1]; exact R.lift _
  rw [if_pos h1, if_pos h1, show (strip a).pas = a.pas from rfl]
  by_cases h2 : a.pas x = .ns
  swap
  · rw [if_neg h2, if_neg h2]; exact R.lift _
  rw [if_pos h2, if_pos h2]
  exact sim_lift ((R.page x 0).of_mem rfl (by strip_eq) rfl) rfl

theorem granuleUndelegate_sim (R : Rel a c lp dp) (x : Nat) :
    Sim (Rmm.granuleUndelegate P a x) (lift c (Rmm.granuleUndelegate P c.s x)) := by
  unfold Rmm.granuleUndelegate
  rw [R.same, lk_strip]
  by_cases h1 : lk P a x .delegated = true
  swap
  · rw [if_neg h1, if_neg h1]; exact R.lift _
  rw [if_pos h1, if_pos h1, show (strip a).pas = a.pas from rfl]
  by_cases h2 : a.pas x = .realm
  swap
  · rw [if_neg h2, if_neg h2]; exact sim_none
  rw [if_pos h2, if_pos h2]
  exact sim_lift (R.of_mem rfl rfl rfl) rfl

theorem realmActivate_sim (h : InvG P a ti di rl) (R : Rel a c lp dp) (rdA : Nat) :
    Sim (Rmm.realmActivate P a rdA) (lift c (Rmm.realmActivate P c.s rdA)) := by
  unfold Rmm.realmActivate
  rw [R.same, lk_strip, getRd_strip]
  by_cases h1 : lk P a rdA .rd = true
  swap
  · rw [if_neg h1, if_neg h1]; exact R.lift _
  rw [if_pos h1, if_pos h1]
  have hrd := ((Rmm.lk_iff _ _ _ _).mp h1).2
  rw [Rmm.getRd_eq h hrd]
  dsimp only
  by_cases h2 : (rdOf a rdA).state = .new
  swap
  · rw [if_neg h2, if_neg h2]; exact R.lift _
  rw [if_pos h2, if_pos h2]
  exact sim_lift ((R.rd rdA (h.rds rdA hrd).mem (r' := { rdOf a rdA with state := .active })
    ⟨rfl, rfl, rfl, rfl⟩).of_mem rfl (by strip_eq) rfl) rfl

theorem realmDestroy_sim (h : InvG P a ti di rl) (R : Rel a c lp dp) (rdA : Nat) :
    Sim (Rmm.realmDestroy P a rdA) (lift c (Rmm.realmDestroy P c.s rdA)) := by
  unfold Rmm.realmDestroy
  rw [R.same, lk_strip, getRd_strip, show (strip a).st = a.st from rfl, show (strip a).rc = a.rc from rfl]
  by_cases h1 : lk P a rdA .rd = true
  swap
  · rw [if_neg h1, if_neg h1]; exact R.lift _
  rw [if_pos h1, if_pos h1]
  have hrd := ((Rmm.lk_iff _ _ _ _).mp h1).2
  by_cases h2 : a.rc rdA = 0
  swap
  · rw [if_neg h2, if_neg h2]; exact R.lift _
  rw [if_pos h2, if_pos h2, Rmm.getRd_eq h hrd]
  dsimp only
  generalize (List.range (rdOf a rdA).nroots).all (fun j => decide (a.st ((rdOf a rdA).root + 4096 * j) = .rtt)) = b1
  generalize (List.range (rdOf a rdA).nroots).all (fun j => decide (a.rc ((rdOf a rdA).root + 4096 * j) = 0)) = b2
  cases b1
  · exact sim_none
  cases b2
  · exact R.lift _
  simp only [if_true]
  by_cases h3 : (rdOf a rdA).vmid < P.vmidCount
  swap
  · rw [if_neg h3, if_neg h3]; exact sim_none
  rw [if_pos h3, if_pos h3]
  refine sim_lift (R.keep ?_ rfl ?_ ?_) rfl
  · unfold Rmm.realmDestroySt strip
    dsimp only
    rw [strip_upd]
    congr 2
    funext x
    split <;> rfl
  · intro g t hg
    unfold Rmm.realmDestroySt upd at hg
    dsimp only at hg
    split at hg
    · cases hg
    · split at hg
      · cases hg
      · exact hg
  · intro g r hg
    unfold Rmm.realmDestroySt upd at hg
    dsimp only at hg
    split at hg
    · cases hg
    · split at hg
      · cases hg
      · exact ⟨r, hg, rfl, rfl, rfl, rfl⟩

theorem takeAux_strip : ∀ (l : List Nat) (s : State),
    Rmm.takeAux P (strip s) l = (strip (Rmm.takeAux P s l).1, (Rmm.takeAux P s l).2) ∧
    (Rmm.takeAux P s l).1.mem = s.mem ∧ (Rmm.takeAux P s l).1.rc = s.rc := by
  intro l
  induction l with
  | nil => intro s; exact ⟨rfl, rfl, rfl⟩
  | cons x l ih =>
    intro s
    unfold Rmm.takeAux
    rw [lk_strip]
    by_cases h1 : lk P s x .delegated = true
    swap
    · rw [if_neg h1, if_neg h1]; exact ⟨rfl, rfl, rfl⟩
    rw [if_pos h1, if_pos h1]
    dsimp only
    obtain ⟨i1, i2, i3⟩ := ih { s with st := upd s.st x .recAux }
    have e : ({ strip s with st := upd (strip s).st x .recAux } : State) = strip { s with st := upd s.st x .recAux } := rfl
    have i1' : Rmm.takeAux P { strip s with st := upd (strip s).st x .recAux } l = _ := (congrArg (fun z => Rmm.takeAux P z l) e).trans i1
    rw [i1']
    exact ⟨rfl, i2, i3⟩

theorem freeAux_strip (s : State) (l : List Nat) : Rmm.freeAux (strip s) l = strip (Rmm.freeAux s l) := rfl

theorem recCreate_sim (R : Rel a c lp dp) (rdA recA pA : Nat) (q : Rmm.RecParams) :
    Sim (Rmm.recCreate P a rdA recA pA q) (lift c (Rmm.recCreate P c.s rdA recA pA q)) := by
  unfold Rmm.recCreate
  rw [R.same, lk_strip, show (strip a).pas = a.pas from rfl]
  by_cases h1 : (lk P a pA .ns && decide (a.pas pA = .ns)) = true
  swap
  · rw [if_neg h1, if_neg h1]; exact R.lift _
  rw [if_pos h1, if_pos h1]
  by_cases h2 : 16 < q.numAux
  · rw [if_pos h2, if_pos h2]; exact R.lift _
  rw [if_neg h2, if_neg h2]
  obtain ⟨t1, t2, t3⟩ := takeAux_strip (P := P) q.auxList a
  rw [t1]
  dsimp only
  generalize Rmm.takeAux P a q.auxList = tk at t2 t3 ⊢
  obtain ⟨s1, lst, ok⟩ := tk
  dsimp only at t2 t3 ⊢
  have fr : ∀ l r, Sim (some (Rmm.freeAux s1 l, r)) (lift c (some (Rmm.freeAux (strip s1) l, r))) := by
    intro l r
    exact sim_lift (R.of_mem t2 rfl rfl) rfl
  by_cases h3 : ok = false
  · rw [if_pos h3, if_pos h3]
    by_cases h4 : P.asserts ∧ lst ≠ []
    · rw [if_pos h4, if_pos h4]; exact sim_none
    · rw [if_neg h4, if_neg h4]; exact fr _ _
  rw [if_neg h3, if_neg h3, lk_strip, lk_strip, getRd_strip, show (strip s1).rc = s1.rc from rfl]
  by_cases h5 : (lk P s1 recA .delegated && lk P s1 rdA .rd) = true
  swap
  · rw [if_neg h5, if_neg h5]; exact fr _ _
  rw [if_pos h5, if_pos h5]
  by_cases h6 : s1.rc rdA = 1023
  · rw [if_pos h6, if_pos h6]; exact fr _ _
  rw [if_neg h6, if_neg h6]
  cases hr : getRd s1 rdA with
  | none => exact sim_none
  | some r =>
  dsimp only
  by_cases h7 : r.state ≠ .new
  · rw [if_pos h7, if_pos h7]; exact fr _ _
  rw [if_neg h7, if_neg h7]
  by_cases h8 : Mpidr.isValid q.mpidr = false ∨ (Mpidr.toIdx q.mpidr).toNat ≠ r.recCount
  · rw [if_pos h8, if_pos h8]; exact fr _ _
  rw [if_neg h8, if_neg h8]
  by_cases h9 : q.numAux ≠ r.numAux
  · rw [if_pos h9, if_pos h9]; exact fr _ _
  rw [if_neg h9, if_neg h9]
  have hm : a.mem rdA = .rd r := by
    unfold getRd at hr; rw [t2] at hr
    cases hm : a.mem rdA <;> rw [hm] at hr <;> cases hr
    rfl
  have hne : rdA ≠ recA := by
    intro hh
    simp only [Bool.and_eq_true, Rmm.lk_iff] at h5
    rw [hh] at h5
    have := h5.1.2.symm.trans h5.2.2
    cases this
  have R1 := R.recd recA (Rmm.newRec rdA r.recCount q q.auxList)
  have R2 := R1.rd rdA (r := r) (r' := { r with
        recCount := r.recCount + 1
        rim := if q.flags.getLsbD 0
          then r.rim ++ [.recd ((List.range 8).map q.gprs) q.pc q.flags] else r.rim })
    (by dsimp only; rw [Rmm.upd_ne _ _ _ hne]; exact hm) ⟨rfl, rfl, rfl, rfl⟩
  refine sim_lift (R2.of_mem ?_ ?_ rfl) rfl
  · unfold Rmm.recCreateSt; dsimp only; rw [t2]
  · unfold Rmm.recCreateSt; strip_eq

theorem recDestroy_sim (R : Rel a c lp dp) (recA : Nat) :
    Sim (Rmm.recDestroy P a recA) (lift c (Rmm.recDestroy P c.s recA)) := by
  unfold Rmm.recDestroy
  rw [R.same, lk_strip, getRec_strip, show (strip a).rc = a.rc from rfl, show (strip a).st = a.st from rfl]
  by_cases h1 : lk P a recA .recd = true
  swap
  · rw [if_neg h1, if_neg h1]; exact R.lift _
  rw [if_pos h1, if_pos h1]
  by_cases h2 : a.rc recA = 0
  swap
  · rw [if_neg h2, if_neg h2]; exact R.lift _
  rw [if_pos h2, if_pos h2]
  cases hr : getRec a recA with
  | none => exact sim_none
  | some q =>
  dsimp only
  by_cases h3 : (q.aux.all (fun x => decide (a.st x = .recAux)) && decide (1 ≤ a.rc q.rd)) = true
  swap
  · rw [if_neg h3, if_neg h3]; exact sim_none
  rw [if_pos h3, if_pos h3]
  refine sim_lift (R.keep ?_ rfl ?_ ?_) rfl
  · unfold Rmm.scrubAux strip
    dsimp only
    rw [strip_upd]
    congr 2
    funext x
    split <;> rfl
  · intro g t hg
    unfold Rmm.scrubAux upd at hg
    dsimp only at hg
    split at hg
    · cases hg
    · split at hg
      · cases hg
      · exact hg
  · intro g r hg
    unfold Rmm.scrubAux upd at hg
    dsimp only at hg
    split at hg
    · cases hg
    · split at hg
      · cases hg
      · exact ⟨r, hg, rfl, rfl, rfl, rfl⟩

theorem recAuxCount_sim (R : Rel a c lp dp) (rdA : Nat) :
    Sim (Rmm.recAuxCount P a rdA) (lift c (Rmm.recAuxCount P c.s rdA)) := by
  unfold Rmm.recAuxCount
  rw [R.same, lk_strip, getRd_strip]
  by_cases h1 : lk P a rdA .rd = true
  swap
  · rw [if_neg h1, if_neg h1]; exact R.lift _
  rw [if_pos h1, if_pos h1]
  cases getRd a rdA with
  | none => exact sim_none
  | some r => exact R.lift _

theorem psciComplete_sim (R : Rel a c lp dp) (x y : Nat) (v : BitVec 64) :
    Sim (Rmm.psciComplete P a x y v) (lift c (Rmm.psciComplete P c.s x y v)) := by
  unfold Rmm.psciComplete
  rw [R.same, lk_strip, lk_strip, getRec_strip, getRec_strip, show (strip a).rc = a.rc from rfl]
  by_cases h1 : x ≠ y ∧ lk P a x .recd = true ∧ lk P a y .recd = true
  swap
  · rw [if_neg h1, if_neg h1]; exact R.lift _
  rw [if_pos h1, if_pos h1]
  by_cases h2 : a.rc x ≠ 0
  · rw [if_pos h2, if_pos h2]; exact R.lift _
  rw [if_neg h2, if_neg h2]
  cases getRec a x with
  | none => exact sim_none
  | some q =>
  cases getRec a y with
  | none => exact sim_none
  | some t =>
  dsimp only
  by_cases h3 : q.psciPending = false
  · rw [if_pos h3, if_pos h3]; exact R.lift _
  rw [if_neg h3, if_neg h3]
  by_cases h4 : q.rd ≠ t.rd
  · rw [if_pos h4, if_pos h4]; exact R.lift _
  rw [if_neg h4, if_neg h4]
  by_cases h5 : (Mpidr.el1ToIdx (q.regs 1)).toNat ≠ t.idx
  · rw [if_pos h5, if_pos h5]; exact R.lift _
  rw [if_neg h5, if_neg h5]
  by_cases h6 : Rmm.isCpuOn (q.regs 0) = true
  · rw [if_pos h6, if_pos h6]
    by_cases h7 : v ≠ Rmm.psciSuccess ∧ v ≠ Rmm.psciDenied
    · rw [if_pos h7, if_pos h7]; exact R.lift _
    rw [if_neg h7, if_neg h7]
    by_cases h8 : a.rc y ≠ 0 ∨ t.runnable = true
    · rw [if_pos h8, if_pos h8]
      exact sim_lift ((R.recd x _).of_mem rfl (by strip_eq) rfl) rfl
    rw [if_neg h8, if_neg h8]
    by_cases h9 : v = Rmm.psciDenied
    · rw [if_pos h9, if_pos h9]
      exact sim_lift ((R.recd x _).of_mem rfl (by strip_eq) rfl) rfl
    rw [if_neg h9, if_neg h9]
    exact sim_lift (((R.recd y _).recd x _).of_mem rfl (by strip_eq) rfl) rfl
  rw [if_neg h6, if_neg h6]
  by_cases h7 : Rmm.isAffinityInfo (q.regs 0) = true
  · rw [if_pos h7, if_pos h7]
    by_cases h8 : v ≠ Rmm.psciSuccess
    · rw [if_pos h8, if_pos h8]; exact R.lift _
    rw [if_neg h8, if_neg h8]
    exact sim_lift ((R.recd x _).of_mem rfl (by strip_eq) rfl) rfl
  · rw [if_neg h7, if_neg h7]; exact sim_none

theorem recEnter_sim (R : Rel a c lp dp) (x run : Nat) (acc rej : Bool) :
    Sim (Rmm.recEnter P a x run acc rej) (lift c (Rmm.recEnter P c.s x run acc rej)) := by
  unfold Rmm.recEnter
  rw [R.same, lk_strip, lk_strip, getRec_strip, show (strip a).rc = a.rc from rfl,
    show (strip a).pas = a.pas from rfl]
  by_cases h1 : lk P a run .ns = true
  swap
  · rw [if_neg h1, if_neg h1]; exact R.lift _
  rw [if_pos h1, if_pos h1]
  by_cases h2 : lk P a x .recd = true
  swap
  · rw [if_neg h2, if_neg h2]; exact R.lift _
  rw [if_pos h2, if_pos h2]
  by_cases h3 : a.rc x ≠ 0
  · rw [if_pos h3, if_pos h3]; exact R.lift _
  rw [if_neg h3, if_neg h3]
  by_cases h4 : a.pas run ≠ .ns
  · rw [if_pos h4, if_pos h4]; exact R.lift _
  rw [if_neg h4, if_neg h4]
  cases getRec a x with
  | none => exact sim_none
  | some q =>
  dsimp only
  rw [getRd_strip]
  cases getRd a q.rd with
  | none => exact sim_none
  | some r =>
  dsimp only
  cases r.state with
  | new => exact R.lift _
  | off => exact R.lift _
  | active =>
    dsimp only
    by_cases h5 : q.runnable = false
    · rw [if_pos h5, if_pos h5]; exact R.lift _
    rw [if_neg h5, if_neg h5]
    by_cases h6 : q.psciPending = true
    · rw [if_pos h6, if_pos h6]; exact R.lift _
    rw [if_neg h6, if_neg h6]
    by_cases h7 : acc = false
    · rw [if_pos h7, if_pos h7]; exact R.lift _
    rw [if_neg h7, if_neg h7]
    exact sim_lift ((R.recd x _).of_mem rfl (by strip_eq) rfl) rfl

theorem recRun_sim (R : Rel a c lp dp) (x : Nat) (stop off : Bool) (regs : Nat → BitVec 64) (pc : BitVec 64) :
    Sim (Rmm.recRun a x stop off regs pc) (lift c (Rmm.recRun c.s x stop off regs pc)) := by
  unfold Rmm.recRun
  rw [R.same, getRec_strip, show (strip a).rc = a.rc from rfl, show (strip a).st = a.st from rfl]
  by_cases h1 : a.st x = .recd ∧ a.rc x = 1
  swap
  · rw [if_neg h1, if_neg h1]; exact R.lift _
  rw [if_pos h1, if_pos h1]
  cases getRec a x with
  | none => exact sim_none
  | some q =>
  exact sim_lift ((R.recd x _).of_mem rfl (by strip_eq) rfl) rfl

theorem psciRequest_sim (R : Rel a c lp dp) (x : Nat) :
    Sim (Rmm.psciRequest a x) (lift c (Rmm.psciRequest c.s x)) := by
  unfold Rmm.psciRequest
  rw [R.same, getRec_strip, show (strip a).rc = a.rc from rfl, show (strip a).st = a.st from rfl]
  by_cases h1 : a.st x = .recd ∧ a.rc x = 1
  swap
  · rw [if_neg h1, if_neg h1]; exact R.lift _
  rw [if_pos h1, if_pos h1]
  cases getRec a x with
  | none => exact sim_none
  | some q =>
  dsimp only
  rw [getRd_strip]
  cases getRd a q.rd with
  | none => exact sim_none
  | some r =>
  dsimp only
  split
  · exact sim_lift ((R.recd x _).of_mem rfl (by strip_eq) rfl) rfl
  · exact R.lift _

theorem rsiIpaStateSet_sim (R : Rel a c lp dp) (x base top : Nat) (v : Ripas) (chg : Bool) :
    Sim (Rmm.rsiIpaStateSet a x base top v chg) (lift c (Rmm.rsiIpaStateSet c.s x base top v chg)) := by
  unfold Rmm.rsiIpaStateSet
  rw [R.same, getRec_strip, show (strip a).rc = a.rc from rfl, show (strip a).st = a.st from rfl]
  by_cases h1 : a.st x = .recd ∧ a.rc x = 1
  swap
  · rw [if_neg h1, if_neg h1]; exact R.lift _
  rw [if_pos h1, if_pos h1]
  cases getRec a x with
  | none => exact sim_none
  | some q =>
  dsimp only
  rw [getRd_strip]
  cases getRd a q.rd with
  | none => exact sim_none
  | some r =>
  dsimp only
  split
  · exact sim_lift ((R.recd x _).of_mem rfl (by strip_eq) rfl) rfl
  · exact sim_lift ((R.recd x _).of_mem rfl (by strip_eq) rfl) rfl

theorem psciSystemOff_sim (R : Rel a c lp dp) (x : Nat) :
    Sim (Rmm.psciSystemOff a x) (lift c (Rmm.psciSystemOff c.s x)) := by
  unfold Rmm.psciSystemOff
  rw [R.same, getRec_strip, show (strip a).rc = a.rc from rfl, show (strip a).st = a.st from rfl]
  by_cases h1 : a.st x = .recd ∧ a.rc x = 1
  swap
  · rw [if_neg h1, if_neg h1]; exact R.lift _
  rw [if_pos h1, if_pos h1]
  cases getRec a x with
  | none => exact sim_none
  | some q =>
  dsimp only
  by_cases h2 : a.st q.rd = .rd
  swap
  · rw [if_neg h2, if_neg h2]; exact sim_none
  rw [if_pos h2, if_pos h2, getRd_strip]
  cases hr : getRd a q.rd with
  | none => exact sim_none
  | some r =>
  have hm : a.mem q.rd = .rd r := by
    unfold getRd at hr
    cases hm : a.mem q.rd <;> rw [hm] at hr <;> cases hr
    rfl
  exact sim_lift ((R.rd q.rd hm (r' := { r with state := .off }) ⟨rfl, rfl, rfl, rfl⟩).of_mem rfl (by strip_eq) rfl) rfl

theorem rsiExtend_sim (R : Rel a c lp dp) (x i v : Nat) :
    Sim (Rmm.rsiExtend a x i v) (lift c (Rmm.rsiExtend c.s x i v)) := by
  unfold Rmm.rsiExtend
  rw [R.same, getRec_strip, show (strip a).rc = a.rc from rfl, show (strip a).st = a.st from rfl]
  by_cases h1 : a.st x = .recd ∧ a.rc x = 1
  swap
  · rw [if_neg h1, if_neg h1]; exact R.lift _
  rw [if_pos h1, if_pos h1]
  cases getRec a x with
  | none => exact sim_none
  | some q =>
  dsimp only
  by_cases h2 : a.st q.rd = .rd
  swap
  · rw [if_neg h2, if_neg h2]; exact sim_none
  rw [if_pos h2, if_pos h2, getRd_strip]
  cases hr : getRd a q.rd with
  | none => exact sim_none
  | some r =>
  have hm : a.mem q.rd = .rd r := by
    unfold getRd at hr
    cases hm : a.mem q.rd <;> rw [hm] at hr <;> cases hr
    rfl
  dsimp only
  by_cases h3 : 1 ≤ i ∧ i ≤ 4
  · rw [if_pos h3, if_pos h3]
    exact sim_lift ((R.rd q.rd hm (r' := { r with rem := upd r.rem i (r.rem i ++ [v]) })
      ⟨rfl, rfl, rfl, rfl⟩).of_mem rfl (by strip_eq) rfl) rfl
  · rw [if_neg h3, if_neg h3]; exact R.lift _

theorem auxWrite_sim (R : Rel a c lp dp) (x y p : Nat) :
    Sim (Rmm.auxWrite a x y p) (lift c (Rmm.auxWrite c.s x y p)) := by
  unfold Rmm.auxWrite
  rw [R.same, getRec_strip, show (strip a).rc = a.rc from rfl, show (strip a).st = a.st from rfl]
  by_cases h1 : a.st x = .recd ∧ a.rc x = 1
  swap
  · rw [if_neg h1, if_neg h1]; exact R.lift _
  rw [if_pos h1, if_pos h1]
  cases getRec a x with
  | none => exact sim_none
  | some q =>
  dsimp only
  by_cases h2 : y ∈ q.aux
  · rw [if_pos h2, if_pos h2]
    exact sim_lift ((R.page y p).of_mem rfl (by strip_eq) rfl) rfl
  · rw [if_neg h2, if_neg h2]; exact R.lift _

theorem hostWrite_sim (R : Rel a c lp dp) (x p : Nat) :
    Sim (Rmm.hostWrite a x p) (lift c (Rmm.hostWrite c.s x p)) := by
  unfold Rmm.hostWrite
  rw [R.same, show (strip a).pas = a.pas from rfl]
  by_cases h1 : a.pas x = .ns
  · rw [if_pos h1, if_pos h1]
    exact sim_lift ((R.page x p).of_mem rfl (by strip_eq) rfl) rfl
  · rw [if_neg h1, if_neg h1]; exact R.lift _

theorem el3Move_sim (R : Rel a c lp dp) (x : Nat) (b : Bool) :
    Sim (Rmm.el3Move a x b) (lift c (Rmm.el3Move c.s x b)) := by
  unfold Rmm.el3Move
  rw [R.same, show (strip a).pas = a.pas from rfl]
  by_cases h1 : a.pas x = .realm
  · rw [if_pos h1, if_pos h1]; exact R.lift _
  · rw [if_neg h1, if_neg h1]
    exact sim_lift (R.of_mem rfl rfl rfl) rfl

/-! ## REALM_CREATE -/

theorem pageWord_zero (i : Nat) : pageWord 0 i = createUnassignedEmpty := by
  unfold pageWord; rw [Nat.zero_div]; rfl

/-- What `init_s2_starting_level` leaves in a scrubbed granule. -/
theorem rootWord_enc (lpa2 : Bool) (d : Nat) (r : Geometry.RootInit) :
    Enc lpa2 d (Rmm.rootEntry r) (rootWord createUnassignedEmpty r) := by
  cases r <;> exact ⟨trivial, rfl⟩

theorem realmCreate_sim (h : InvG P a ti di rl) (R : Rel a c lp dp) (rdA pA : Nat) (q : Rmm.RealmParams) :
    Sim (Rmm.realmCreate P a rdA pA q) (realmCreateW P c rdA pA q) := by
  unfold Rmm.realmCreate realmCreateW
  have e5 : ∀ x e, lk P c.s x e = lk P a x e := by intro x e; rw [R.same, lk_strip]
  have e3 : c.s.pas = a.pas := by rw [R.same]; rfl
  have e4 : c.s.vmid = a.vmid := by rw [R.same]; rfl
  simp only [e5, e3, e4]
  by_cases h1 : (lk P a pA .ns && decide (a.pas pA = .ns)) = true
  swap
  · rw [if_neg h1, if_neg h1]; exact R.refl _
  rw [if_pos h1, if_pos h1]
  cases Features.validateRealmParams P.hw q.p with
  | none => exact Sim.none
  | some b =>
  cases b with
  | false => exact R.refl _
  | true =>
  dsimp only
  by_cases h2 : q.vmid < P.vmidCount ∧ a.vmid q.vmid = false
  swap
  · rw [if_neg h2, if_neg h2]; exact R.refl _
  rw [if_pos h2, if_pos h2]
  have undo : Sim
      (some ({ a with vmid := upd (upd a.vmid q.vmid true) q.vmid false }, errInput))
      (some (⟨⟨c.s.st, c.s.rc, c.s.mem, a.pas, upd (upd a.vmid q.vmid true) q.vmid false⟩, c.tw⟩, errInput)) := by
    refine Sim.some ⟨lp, dp, R.of_mem rfl ?_ rfl⟩ rfl
    dsimp only
    rw [R.same]; rfl
  by_cases h3 : q.rttBase ≤ rdA ∧ rdA < q.rttBase + q.p.rttNumStart * 4096
  · rw [if_pos h3, if_pos h3]; exact undo
  rw [if_neg h3, if_neg h3]
  by_cases h4 : (lk P a rdA .delegated &&
            (List.range q.p.rttNumStart).all (fun j => lk P a (q.rttBase + 4096 * j) .delegated)) = true
  swap
  · rw [if_neg h4, if_neg h4]; exact undo
  rw [if_pos h4, if_pos h4]
  cases Geometry.initStartingLevel q.p.s2sz q.p.rttLevelStart q.p.rttNumStart with
  | none => exact Sim.none
  | some ts =>
  dsimp only
  simp only [Bool.and_eq_true, Rmm.lk_iff, List.all_eq_true, List.mem_range] at h4
  obtain ⟨⟨_, hrd⟩, hroots⟩ := h4
  have hin : ∀ x, Rmm.inRange q.rttBase q.p.rttNumStart x = true → a.st x = .delegated := by
    intro x hx
    unfold Rmm.inRange at hx
    simp only [List.any_eq_true, List.mem_range, beq_iff_eq] at hx
    obtain ⟨j, hj, rfl⟩ := hx
    exact (hroots j hj).2
  have hmem : ∀ j < q.p.rttNumStart, Rmm.inRange q.rttBase q.p.rttNumStart (q.rttBase + 4096 * j) = true := by
    intro j hj
    unfold Rmm.inRange
    simp only [List.any_eq_true, List.mem_range, beq_iff_eq]
    exact ⟨j, hj, rfl⟩
  have hnot : ∀ x, a.st x = .rtt → Rmm.inRange q.rttBase q.p.rttNumStart x = false := by
    intro x hx
    cases hh : Rmm.inRange q.rttBase q.p.rttNumStart x with
    | false => rfl
    | true => have := hin x hh; rw [hx] at this; cases this
  have hnrd : ∀ j < q.p.rttNumStart, q.rttBase + 4096 * j ≠ rdA := by intro j hj hh; apply h3; omega
  have hne : ∀ x, a.st x = .rtt → x ≠ rdA := by intro x hx hh; subst hh; rw [hrd] at hx; cases hx
  refine Sim.some ⟨fun x => if Rmm.inRange q.rttBase q.p.rttNumStart x then Features.lpa2Requested q.p else lp x,
    fun x => if Rmm.inRange q.rttBase q.p.rttNumStart x then dOf q.p.rttLevelStart else dp x, ?_, ?_, ?_, ?_⟩ rfl
  · unfold realmCreateStW Rmm.realmCreateSt
    dsimp only
    rw [R.same]
    unfold strip
    dsimp only
    rw [strip_upd]
    congr 2
    funext x
    split <;> rfl
  · intro g t hg i hi
    unfold Rmm.realmCreateSt upd at hg
    dsimp only at hg
    unfold realmCreateStW
    dsimp only
    split at hg
    · cases hg
    split at hg
    · rename_i hr
      rw [if_pos hr, if_pos hr, if_pos hr]
      injection hg with hg
      subst hg
      have : oldWords c g i = createUnassignedEmpty := by
        have hp : c.s.mem g = .page 0 := by
          rw [R.same]; unfold strip; dsimp only; rw [h.delPage g (hin g hr)]; rfl
        unfold oldWords; rw [hp]; exact pageWord_zero i
      rw [this]
      exact rootWord_enc _ _ _
    · rename_i hr
      rw [if_neg hr, if_neg hr, if_neg hr]
      exact R.ent g t hg i hi
  · intro x r hx j hj
    unfold Rmm.realmCreateSt upd at hx
    dsimp only at hx
    split at hx
    · cases hx
      dsimp only at hj ⊢
      rw [if_pos (hmem j hj), if_pos (hmem j hj)]
      exact ⟨rfl, rfl⟩
    · split at hx
      · cases hx
      · have := hnot _ (root_st h hx hj)
        rw [this]
        exact R.root x r hx j hj
  · intro g t hg i hi k hk
    unfold Rmm.realmCreateSt upd at hg
    dsimp only at hg
    split at hg
    · cases hg
    split at hg
    · injection hg with hg
      subst hg
      exfalso
      dsimp only at hk
      cases hts : ts (Rmm.rangeIdx q.rttBase g) i <;> rw [hts] at hk <;> cases hk
    · have h5 := hnot _ (tab_st h hg)
      have h6 := hnot _ (child_st h hg hi hk)
      rw [h5, h6]
      exact R.link g t hg i hi k hk

end

end Verif.Desc
