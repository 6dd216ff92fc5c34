import Verif.Ni.Cmds

/-!
# The same for the commands on realms and RECs, and for the steps of running RECs
-/

namespace Verif.Ni

open Rmm

section
variable {V : Obs} {P : Plat} {s : State}

local macro "branch " h:ident : tactic =>
  `(tactic| refine lowOut_ite Iff.rfl (fun $h:ident => ?_) (fun $h:ident => ?_))

theorem realmCreateSt_low {rdA : Nat} {q : RealmParams} {ts : Nat → Nat → Geometry.RootInit} {r : Ret} :
    lowOut V (some (realmCreateSt (low V s) rdA q ts, r)) = lowOut V (some (realmCreateSt s rdA q ts, r)) := by
  refine low_upd (fun a ha => ?_) rfl
  rw [upd_ne _ _ _ ha]
  split
  · rfl
  · exact low_keep a

theorem low_vm {f : Nat → Bool} {r : Ret} :
    lowOut V (some ({ low V s with vmid := f }, r)) = lowOut V (some ({ s with vmid := f }, r)) :=
  lowOut_some (low_of low_keep)

theorem realmCreate_low (rdA pA : Nat) (q : RealmParams) :
    lowOut V (realmCreate P (low V s) rdA pA q) = lowOut V (realmCreate P s rdA pA q) := by
  unfold realmCreate
  branch h0
  · cases Features.validateRealmParams P.hw q.p with
    | none => rfl
    | some b =>
      cases b with
      | false => exact lowOut_low
      | true =>
        dsimp only
        branch h1
        · branch h2
          · exact low_vm
          branch h3
          · cases Geometry.initStartingLevel q.p.s2sz q.p.rttLevelStart q.p.rttNumStart with
            | none => rfl
            | some ts => exact realmCreateSt_low
          · exact low_vm
        · exact lowOut_low
  · exact lowOut_low

theorem realmDestroy_low (rdA : Nat) :
    lowOut V (realmDestroy P (low V s) rdA) = lowOut V (realmDestroy P s rdA) := by
  unfold realmDestroy
  branch h0
  · branch h1
    · rw [getRd_low]
      cases getRd s rdA with
      | none => rfl
      | some r =>
        dsimp only [Option.map_some]
        branch h2
        · branch h3
          · branch h4
            · rw [show realmDestroySt (low V s) rdA (lowRd (V rdA) r) = realmDestroySt (low V s) rdA r from rfl]
              refine low_upd (fun a ha => ?_) rfl
              rw [upd_ne _ _ _ ha]
              split
              · rfl
              · exact low_keep a
            · rfl
          · exact lowOut_low
        · rfl
    · exact lowOut_low
  · exact lowOut_low

theorem takeAux_mem (m : Nat → Content) : ∀ (l : List Nat) (s : State), takeAux P { s with mem := m } l =
    ({ (takeAux P s l).1 with mem := m }, (takeAux P s l).2) := by
  intro l
  induction l with
  | nil => intro s; rfl
  | cons a l ih =>
    intro s
    unfold takeAux
    have e : lk P { s with mem := m } a .delegated = lk P s a .delegated := rfl
    rw [e]
    cases lk P s a .delegated with
    | false => rfl
    | true =>
      simp only [if_true]
      have := ih { s with st := upd s.st a .recAux }
      dsimp only at this
      rw [this]

theorem takeAux_low (l : List Nat) : takeAux P (low V s) l =
    ({ (takeAux P s l).1 with mem := (low V s).mem }, (takeAux P s l).2) := takeAux_mem (low V s).mem l s

/-- Giving the auxiliary granules back. -/
theorem freeAux_low {l : List Nat} {r : Ret} (h : ∀ a ∈ l, s.st a = .delegated) :
    lowOut V (some (freeAux { markAux s l with mem := (low V s).mem } l, r)) =
      lowOut V (some (freeAux (markAux s l) l, r)) := by
  have h1 : freeAux { markAux s l with mem := (low V s).mem } l = low V s :=
    freeAux_markAux (s := low V s) h
  rw [h1, freeAux_markAux h]
  exact lowOut_low

theorem recCreate_low (rdA recA pA : Nat) (q : RecParams) :
    lowOut V (recCreate P (low V s) rdA recA pA q) = lowOut V (recCreate P s rdA recA pA q) := by
  obtain ⟨tk, rest, h1, h2, _, h4⟩ := takeAux_spec P q.auxList s
  have hd : ∀ a ∈ tk, s.st a = .delegated := fun a ha => (h4 a ha).2
  unfold recCreate
  branch h0
  · branch h5
    · exact lowOut_low
    rw [takeAux_low, h2]
    dsimp only
    branch h6
    · branch h7
      · rfl
      · exact freeAux_low hd
    have hr : rest = [] := by simpa using h6
    have hq : q.auxList = tk := by rw [h1, hr, List.append_nil]
    rw [hq]
    branch h7
    · branch h8
      · exact freeAux_low hd
      have e1 : getRd { markAux s tk with mem := (low V s).mem } rdA = (getRd s rdA).map (lowRd (V rdA)) := getRd_low rdA
      have e2 : getRd (markAux s tk) rdA = getRd s rdA := rfl
      rw [e1, e2]
      cases getRd s rdA with
      | none => rfl
      | some r =>
        dsimp only [Option.map_some]
        branch h9
        · exact freeAux_low hd
        branch h10
        · exact freeAux_low hd
        branch h11
        · exact freeAux_low hd
        · refine low_upd (fun x hx => low_upd2 (fun hx2 => ?_) (fun _ => rfl)) (lowC_rd ?_)
          · rw [upd_ne _ _ _ hx2]
            refine lowC_lowC ?_
            dsimp only [markAux]
            split <;> simp
          · unfold lowRd
            cases V rdA <;> rfl
    · exact freeAux_low hd
  · exact lowOut_low

theorem recDestroy_low (recA : Nat) :
    lowOut V (recDestroy P (low V s) recA) = lowOut V (recDestroy P s recA) := by
  unfold recDestroy
  branch h0
  · branch h1
    · rw [getRec_low]
      cases getRec s recA with
      | none => rfl
      | some c =>
        dsimp only [Option.map_some]
        branch h2
        · refine low_upd (fun x hx => ?_) rfl
          rw [upd_ne _ _ _ hx]
          dsimp only [scrubAux, lowRec]
          split
          · rfl
          · exact low_keep x
        · rfl
    · exact lowOut_low
  · exact lowOut_low

theorem recAuxCount_low (rdA : Nat) :
    lowOut V (recAuxCount P (low V s) rdA) = lowOut V (recAuxCount P s rdA) := by
  unfold recAuxCount
  branch h0
  · rw [getRd_low]
    cases getRd s rdA with
    | none => rfl
    | some r => exact lowOut_low
  · exact lowOut_low

/-- What is visible of a REC with an answered PSCI request. -/
theorem psciResult_low (b : Bool) (c : Rec) (v : BitVec 64) :
    lowRec b (psciResult (lowRec b c) v) = lowRec b (psciResult c v) := by
  cases b
  · simp only [lowRec, psciResult, Bool.false_eq_true, if_false]
  · rfl

theorem lowRec_reg (b : Bool) {c : Rec} (h : c.psciPending = true) {i : Nat} (hi : i < 4) :
    (lowRec b c).regs i = c.regs i := by
  cases b
  · simp only [lowRec, h, Bool.false_eq_true, if_false, if_true, hi]
  · rfl

theorem psciTarget_low (b : Bool) (c t : Rec) (h : c.psciPending = true) :
    lowRec b { lowRec b t with
      regs := fun i => if i = 0 then (lowRec b c).regs 3 else (lowRec b t).regs i
      pc := (lowRec b c).regs 2, runnable := true } =
    lowRec b { t with
      regs := fun i => if i = 0 then c.regs 3 else t.regs i
      pc := c.regs 2, runnable := true } := by
  rw [lowRec_reg b h (by omega), lowRec_reg b h (by omega)]
  cases b
  · simp only [lowRec, Bool.false_eq_true, if_false]
    rw [Rec.mk.injEq]
    refine ⟨rfl, rfl, rfl, rfl, ?_, rfl, rfl, rfl⟩
    cases t.psciPending
    · rfl
    · simp only [if_true]
      funext i
      split
      · rfl
      · rfl
  · rfl

theorem psciComplete_low (callA tgtA : Nat) (status : BitVec 64) :
    lowOut V (psciComplete P (low V s) callA tgtA status) = lowOut V (psciComplete P s callA tgtA status) := by
  unfold psciComplete
  branch h0
  · branch h1
    · exact lowOut_low
    rw [getRec_low, getRec_low]
    cases getRec s callA with
    | none => cases getRec s tgtA <;> rfl
    | some c =>
      cases getRec s tgtA with
      | none => rfl
      | some t =>
        dsimp only [Option.map_some]
        branch h2
        · exact lowOut_low
        have hp : c.psciPending = true := by simpa using h2
        branch h3
        · exact lowOut_low
        have hrd : c.rd = t.rd := by simpa using h3
        have hv : V c.rd = V t.rd := by rw [hrd]
        rw [hv]
        have e0 := lowRec_reg (V t.rd) hp (i := 0) (by omega)
        have e1 := lowRec_reg (V t.rd) hp (i := 1) (by omega)
        rw [e1]
        have es : ∀ v, lowC V callA (s.st callA) (.recd (psciResult (lowRec (V t.rd) c) v)) =
            lowC V callA (s.st callA) (.recd (psciResult c v)) := by
          intro v
          have := psciResult_low (V c.rd) c v
          rw [← hv]
          exact congrArg Content.recd this
        branch h4
        · exact lowOut_low
        rw [e0]
        branch h5
        · branch h6
          · exact lowOut_low
          branch h7
          · exact low_upd (fun x _ => low_keep x) (es _)
          branch h8
          · exact low_upd (fun x _ => low_keep x) (es _)
          · refine low_upd (fun x _ => low_upd2 (fun _ => low_keep x) (fun _ => ?_)) (es _)
            exact congrArg Content.recd (psciTarget_low _ c t hp)
        · branch h6
          · branch h7
            · exact lowOut_low
            · exact low_upd (fun x _ => low_keep x) (es _)
          · rfl
  · exact lowOut_low

theorem completeSetRipas_low (b rej : Bool) (c : Rec) :
    lowRec b (completeSetRipas { lowRec b c with sr := { (lowRec b c).sr with reject := rej } }) =
      lowRec b (completeSetRipas { c with sr := { c.sr with reject := rej } }) := by
  unfold completeSetRipas
  by_cases h : c.sr.base = c.sr.top
  · rw [if_pos h, if_pos (show (lowRec b c).sr.base = (lowRec b c).sr.top from h)]
    exact lowRec_sr ..
  · rw [if_neg h, if_neg (show ¬ (lowRec b c).sr.base = (lowRec b c).sr.top from h)]
    cases b
    · simp only [lowRec, Bool.false_eq_true, if_false]
      rw [Rec.mk.injEq]
      refine ⟨rfl, rfl, rfl, rfl, ?_, rfl, rfl, rfl⟩
      cases c.psciPending
      · rfl
      · simp only [if_true]
        funext i
        by_cases hi : i < 4
        · simp only [hi, if_true]
        · simp only [hi, if_false]
    · rfl

theorem recEnter_low (recA runA : Nat) (acc rej : Bool) :
    lowOut V (recEnter P (low V s) recA runA acc rej) = lowOut V (recEnter P s recA runA acc rej) := by
  unfold recEnter
  branch h0
  · branch h1
    · branch h2
      · exact lowOut_low
      branch h3
      · exact lowOut_low
      rw [getRec_low]
      cases getRec s recA with
      | none => rfl
      | some c =>
        dsimp only [Option.map_some]
        rw [show (lowRec (V c.rd) c).rd = c.rd from rfl, getRd_low]
        cases getRd s c.rd with
        | none => rfl
        | some r =>
          dsimp only [Option.map_some]
          rw [show (lowRd (V c.rd) r).state = r.state from rfl]
          cases r.state with
          | new => exact lowOut_low
          | off => exact lowOut_low
          | active =>
            dsimp only
            branch h4
            · exact lowOut_low
            branch h5
            · exact lowOut_low
            branch h6
            · exact lowOut_low
            · refine low_upd (fun x _ => low_keep x) ?_
              have hrd : ∀ q : Rec, (completeSetRipas q).rd = q.rd := by
                intro q; unfold completeSetRipas; split <;> rfl
              simp only [lowC, hrd]
              exact congrArg Content.recd (completeSetRipas_low _ _ _)
    · exact lowOut_low
  · exact lowOut_low

theorem recRun_low (recA : Nat) (stop off : Bool) (regs : Nat → BitVec 64) (pc : BitVec 64) :
    lowOut V (recRun (low V s) recA stop off regs pc) = lowOut V (recRun s recA stop off regs pc) := by
  unfold recRun
  branch h0
  · rw [getRec_low]
    cases getRec s recA with
    | none => rfl
    | some c => exact low_upd (fun x _ => low_keep x) rfl
  · exact lowOut_low

/-- The REC, if it runs, belongs to an observer. -/
def Owned (V : Obs) (s : State) (recA : Nat) : Prop := ∀ c, getRec s recA = some c → V c.rd = true

theorem lowRec_true (q : Rec) : lowRec true q = q := rfl
theorem lowRd_true (r : Rd) : lowRd true r = r := rfl

theorem psciRequest_low (recA : Nat) (ho : Owned V s recA) :
    lowOut V (psciRequest (low V s) recA) = lowOut V (psciRequest s recA) := by
  unfold psciRequest
  branch h0
  · rw [getRec_low]
    cases h : getRec s recA with
    | none => rfl
    | some c =>
      dsimp only [Option.map_some]
      rw [ho c h, lowRec_true, getRd_low]
      cases getRd s c.rd with
      | none => rfl
      | some r =>
        dsimp only [Option.map_some]
        branch h1
        · exact low_upd (fun x _ => low_keep x) rfl
        · exact lowOut_low
  · exact lowOut_low

theorem regs0_low (b : Bool) (c : Rec) (v : BitVec 64) :
    lowRec b { lowRec b c with regs := fun i => if i = 0 then v else (lowRec b c).regs i } =
      lowRec b { c with regs := fun i => if i = 0 then v else c.regs i } := by
  cases b
  · simp only [lowRec, Bool.false_eq_true, if_false]
    rw [Rec.mk.injEq]
    refine ⟨rfl, rfl, rfl, rfl, ?_, rfl, rfl, rfl⟩
    cases c.psciPending
    · rfl
    · simp only [if_true]
      funext i
      by_cases hi : i < 4
      · simp only [hi, if_true]
      · simp only [hi, if_false]
  · rfl

theorem regs1_low (b : Bool) (c : Rec) (v w : BitVec 64) (x : SetRipas) :
    lowRec b { lowRec b c with
      sr := x
      regs := fun i => if i = 0 then v else if i = 1 then w else (lowRec b c).regs i } =
    lowRec b { c with
      sr := x
      regs := fun i => if i = 0 then v else if i = 1 then w else c.regs i } := by
  cases b
  · simp only [lowRec, Bool.false_eq_true, if_false]
    rw [Rec.mk.injEq]
    refine ⟨rfl, rfl, rfl, rfl, ?_, rfl, rfl, rfl⟩
    cases c.psciPending
    · rfl
    · simp only [if_true]
      funext i
      by_cases hi : i < 4
      · simp only [hi, if_true]
      · simp only [hi, if_false]
  · rfl

theorem rsiIpaStateSet_low (recA base top : Nat) (v : Ripas) (chg : Bool) :
    lowOut V (rsiIpaStateSet (low V s) recA base top v chg) = lowOut V (rsiIpaStateSet s recA base top v chg) := by
  unfold rsiIpaStateSet
  branch h0
  · rw [getRec_low]
    cases getRec s recA with
    | none => rfl
    | some c =>
      dsimp only [Option.map_some]
      rw [show (lowRec (V c.rd) c).rd = c.rd from rfl, getRd_low]
      cases getRd s c.rd with
      | none => rfl
      | some r =>
        dsimp only [Option.map_some]
        branch h1
        · exact low_upd (fun x _ => low_keep x) (congrArg Content.recd (regs0_low _ _ _))
        · exact low_upd (fun x _ => low_keep x) (congrArg Content.recd (regs1_low _ _ _ _ _))
  · exact lowOut_low

theorem psciSystemOff_low (recA : Nat) :
    lowOut V (psciSystemOff (low V s) recA) = lowOut V (psciSystemOff s recA) := by
  unfold psciSystemOff
  branch h0
  · rw [getRec_low]
    cases getRec s recA with
    | none => rfl
    | some c =>
      dsimp only [Option.map_some]
      branch h2
      · rw [show (lowRec (V c.rd) c).rd = c.rd from rfl, getRd_low]
        cases getRd s c.rd with
        | none => rfl
        | some r =>
          dsimp only [Option.map_some]
          refine low_upd (fun x _ => low_keep x) (lowC_rd ?_)
          unfold lowRd
          cases V c.rd <;> rfl
      · rfl
  · exact lowOut_low

theorem rsiExtend_low (recA i v : Nat) :
    lowOut V (rsiExtend (low V s) recA i v) = lowOut V (rsiExtend s recA i v) := by
  unfold rsiExtend
  branch h0
  · rw [getRec_low]
    cases getRec s recA with
    | none => rfl
    | some c =>
      dsimp only [Option.map_some]
      branch h2
      · rw [show (lowRec (V c.rd) c).rd = c.rd from rfl, getRd_low]
        cases getRd s c.rd with
        | none => rfl
        | some r =>
          dsimp only [Option.map_some]
          branch h3
          · refine low_upd (fun x _ => low_keep x) (lowC_rd ?_)
            unfold lowRd
            cases V c.rd <;> rfl
          · exact lowOut_low
      · rfl
  · exact lowOut_low

theorem realmWrite_low (recA a p : Nat) :
    lowOut V (realmWrite (low V s) recA a p) = lowOut V (realmWrite s recA a p) := by
  unfold realmWrite
  branch h0
  · rw [getRec_low]
    cases getRec s recA with
    | none => rfl
    | some c =>
      dsimp only [Option.map_some]
      rw [show (lowRec (V c.rd) c).rd = c.rd from rfl, getRd_low]
      cases getRd s c.rd with
      | none => rfl
      | some r =>
        dsimp only [Option.map_some]
        rw [translate_low]
        cases translate s r a with
        | none => exact lowOut_low
        | some o =>
          obtain ⟨pa, ns⟩ := o
          dsimp only
          branch h1
          · exact low_upd (fun x _ => low_keep x) rfl
          · exact lowOut_low
  · exact lowOut_low

theorem auxWrite_low (recA a p : Nat) :
    lowOut V (auxWrite (low V s) recA a p) = lowOut V (auxWrite s recA a p) := by
  unfold auxWrite
  branch h0
  · rw [getRec_low]
    cases getRec s recA with
    | none => rfl
    | some c =>
      dsimp only [Option.map_some]
      branch h1
      · exact low_upd (fun x _ => low_keep x) rfl
      · exact lowOut_low
  · exact lowOut_low

theorem hostWrite_low (a p : Nat) : lowOut V (hostWrite (low V s) a p) = lowOut V (hostWrite s a p) := by
  unfold hostWrite
  branch h0
  · exact low_upd (fun x _ => low_keep x) rfl
  · exact lowOut_low

theorem el3Move_low (a : Nat) (b : Bool) : lowOut V (el3Move (low V s) a b) = lowOut V (el3Move s a b) := by
  unfold el3Move
  branch h0
  · exact lowOut_low
  · exact lowOut_some (low_of low_keep)

/-- Every operation, except a PSCI request of a hidden realm, looks only at the visible part of the state. -/
theorem step_low (op : Op) (ho : ∀ r, op = .psciRequest r → Owned V s r) :
    lowOut V (step P (low V s) op) = lowOut V (step P s op) := by
  cases op with
  | granuleDelegate a => exact granuleDelegate_low a
  | granuleUndelegate a => exact granuleUndelegate_low a
  | rttCreate rd rtt a lvl => exact rttCreate_low rd rtt a lvl
  | rttFold rd a lvl => exact rttFold_low rd a lvl
  | rttDestroy rd a lvl => exact rttDestroy_low rd a lvl
  | rttMapUnprotected rd a lvl desc => exact rttMapUnprotected_low rd a lvl desc
  | rttUnmapUnprotected rd a lvl => exact rttUnmapUnprotected_low rd a lvl
  | rttReadEntry rd a lvl => exact rttReadEntry_low rd a lvl
  | dataCreateUnknown rd data a => exact dataCreateUnknown_low rd data a
  | dataCreate rd data a src fl => exact dataCreate_low rd data a src fl
  | dataDestroy rd a => exact dataDestroy_low rd a
  | rttInitRipas rd b t => exact rttInitRipas_low rd b t
  | rttSetRipas rd q b t => exact rttSetRipas_low rd q b t
  | realmActivate rd => exact realmActivate_low rd
  | realmCreate rd p q => exact realmCreate_low rd p q
  | realmDestroy rd => exact realmDestroy_low rd
  | recCreate rd r p q => exact recCreate_low rd r p q
  | recDestroy r => exact recDestroy_low r
  | recAuxCount rd => exact recAuxCount_low rd
  | psciComplete c t st => exact psciComplete_low c t st
  | recEnter r run acc rej => exact recEnter_low r run acc rej
  | recRun r stop off regs pc => exact recRun_low r stop off regs pc
  | psciRequest r => exact psciRequest_low r (ho r rfl)
  | rsiIpaStateSet r b t v c => exact rsiIpaStateSet_low r b t v c
  | psciSystemOff r => exact psciSystemOff_low r
  | rsiExtend r i v => exact rsiExtend_low r i v
  | realmWrite r a p => exact realmWrite_low r a p
  | auxWrite r a p => exact auxWrite_low r a p
  | hostWrite a p => exact hostWrite_low a p
  | el3Move a b => exact el3Move_low a b

end

end Verif.Ni
