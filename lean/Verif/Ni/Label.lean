import Verif.Ni.Recs
import Verif.Rmm.PropIso
import Verif.Rmm.PropHist

/-!
# What the coalition sees happen
-/

namespace Verif.Ni

open Rmm

/-- Something the coalition sees happen. -/
inductive Lab where
  /-- a command of the host, a write of the host, a step of a realm of the coalition, or a deliberate exit of
  another realm with a RIPAS change request or PSCI_SYSTEM_OFF: all of it -/
  | op (o : Op)
  /-- a REC of another realm is left, for good if `off`; not its registers -/
  | exit (rec_ : Nat) (off : Bool)
  /-- a REC of another realm asks the host for a PSCI function: registers X0 to X3 -/
  | psci (rec_ : Nat) (x0 x1 x2 x3 : BitVec 64)
  /-- another realm stores `p` to page `x` of the host's memory -/
  | store (x p : Nat)

/-- The REC belongs to the coalition. -/
def mine (V : Nat → Bool) (s : State) (r : Nat) : Bool := V (recOf s r).rd

/-- The REC runs and the operation ends that. -/
def leaves (P : Plat) (s : State) (op : Op) (r : Nat) : Bool :=
  s.rc r == 1 && match step P s op with
    | some (s', _) => s'.rc r == 0
    | none => false

/-- The page of the host's memory that the REC reaches at address `a`. -/
def hostPage (s : State) (r a : Nat) : Option Nat :=
  if s.st r = .recd ∧ s.rc r = 1 then
    match view s (recOf s r).rd a with
    | some (.assignedNs _ x) => if s.pas x = .ns then some x else none
    | _ => none
  else none

/-- What the host and the realms in `V` see of an operation; `none` when it is hidden from them. -/
def label (P : Plat) (V : Nat → Bool) (s : State) : Op → Option Lab
  | .recRun r stop off regs pc =>
    if mine V s r then some (.op (.recRun r stop off regs pc))
    else if stop then some (.exit r off) else none
  | .psciRequest r =>
    if mine V s r then some (.op (.psciRequest r))
    else if leaves P s (.psciRequest r) r then
      some (.psci r ((recOf s r).regs 0) ((recOf s r).regs 1) ((recOf s r).regs 2) ((recOf s r).regs 3))
    else none
  | .rsiIpaStateSet r b t v c =>
    if mine V s r || leaves P s (.rsiIpaStateSet r b t v c) r then some (.op (.rsiIpaStateSet r b t v c)) else none
  | .rsiExtend r i v => if mine V s r then some (.op (.rsiExtend r i v)) else none
  | .realmWrite r a p =>
    if mine V s r then some (.op (.realmWrite r a p)) else (hostPage s r a).map fun x => .store x p
  | .auxWrite r a p => if mine V s r then some (.op (.auxWrite r a p)) else none
  | o => some (.op o)

/-- Memory of a realm in `V`: a page behind its data or an auxiliary granule of one of its RECs. -/
def Vis (V : Nat → Bool) (s : State) (x : Nat) : Prop :=
  (∃ r a rp, V r = true ∧ view s r a = some (.assigned rp x)) ∨
  (∃ q, s.st q = .recd ∧ V (recOf s q).rd = true ∧ x ∈ (recOf s q).aux)

open Classical in
/-- The coalition of the host and the realms in `V`. -/
noncomputable def obs (V : Nat → Bool) (s : State) : Obs := ⟨V, fun x => decide (Vis V s x)⟩

/-- The coalition cannot tell the states apart. -/
def L (V : Nat → Bool) (s t : State) : Prop := low (obs V s) t = low (obs V s) s

section
variable {P : Plat} {V : Nat → Bool} {o : Obs} {s t s' t' : State} {ret ret' : Ret}

/-! ## Equal visible parts -/

theorem st_of (h : low o t = low o s) : t.st = s.st := (congrArg State.st h :)
theorem rc_of (h : low o t = low o s) : t.rc = s.rc := (congrArg State.rc h :)
theorem pas_of (h : low o t = low o s) : t.pas = s.pas := (congrArg State.pas h :)

theorem mem_of (h : low o t = low o s) (a : Nat) : lowC o a (s.st a) (t.mem a) = lowC o a (s.st a) (s.mem a) := by
  have := congrFun (congrArg State.mem h) a
  rw [low_mem, low_mem, st_of h] at this
  exact this

theorem view_low (r a : Nat) : view (low o s) r a = view s r a := by
  unfold view leaf
  rw [getRd_low]
  cases getRd s r with
  | none => rfl
  | some q =>
    dsimp only [Option.map_some]
    rw [hwWalk_low]
    rfl

theorem view_of (h : low o t = low o s) (r a : Nat) : view t r a = view s r a := by
  rw [← view_low (o := o) (s := t), h, view_low]

/-- A REC without its registers. -/
def bare (q : Rec) : Rec := { q with regs := fun _ => 0, pc := 0 }

theorem bare_lowRec (b : Bool) (q : Rec) : bare (lowRec b q) = bare q := rfl

theorem bare_of (h : low o t = low o s) (r : Nat) : bare (recOf t r) = bare (recOf s r) := by
  have e : getRec (low o t) r = getRec (low o s) r := by rw [h]
  rw [getRec_low, getRec_low] at e
  unfold recOf
  cases h1 : getRec t r with
  | none =>
    cases h2 : getRec s r with
    | none => rfl
    | some q => rw [h1, h2] at e; cases e
  | some p =>
    cases h2 : getRec s r with
    | none => rw [h1, h2] at e; cases e
    | some q =>
      rw [h1, h2] at e
      have e2 : lowRec (o p.rd) p = lowRec (o q.rd) q := Option.some.inj e
      exact (congrArg bare e2 :)

theorem recRd_of (h : low o t = low o s) (r : Nat) : (recOf t r).rd = (recOf s r).rd :=
  (congrArg Rec.rd (bare_of h r) :)

theorem aux_of (h : low o t = low o s) (r : Nat) : (recOf t r).aux = (recOf s r).aux :=
  (congrArg Rec.aux (bare_of h r) :)

theorem vis_of (h : low o t = low o s) (x : Nat) : Vis V t x ↔ Vis V s x := by
  unfold Vis
  simp only [view_of h, recRd_of h, aux_of h, st_of h]

theorem obs_of (h : low o t = low o s) : obs V t = obs V s := by
  unfold obs
  congr 1
  funext x
  exact decide_eq_decide.mpr (vis_of h x)

theorem L.refl (s : State) : L V s s := rfl

theorem L.symm (h : L V s t) : L V t s := by
  unfold L
  rw [obs_of h]
  exact Eq.symm h

theorem L.trans {u : State} (h1 : L V s t) (h2 : L V t u) : L V s u := by
  unfold L at *
  rw [obs_of h1] at h2
  rw [h2, h1]

/-- Enlarging what is visible by pages that agree. -/
theorem L_of {o : Obs} (hV : o.V = V) (h : low o t = low o s) (hd : ∀ x, Vis V s x → o.D x = true ∨ t.mem x = s.mem x) :
    L V s t := by
  refine low_ext (st_of h) (rc_of h) (pas_of h) (congrArg State.vmid h :) fun a => ?_
  have hm := mem_of h a
  cases hs : s.mem a with
  | page p =>
    rw [hs] at hm
    cases ht : t.mem a with
    | page q =>
      rw [ht] at hm
      simp only [lowC] at hm ⊢
      by_cases hv : Vis V s a
      · rcases hd a hv with h1 | h1
        · rw [h1] at hm
          simp only [Bool.true_eq_false, and_false, if_false] at hm
          rw [Content.page.inj hm]
        · rw [ht, hs] at h1; rw [Content.page.inj h1]
      · have : (obs V s).D a = false := by simpa [obs] using hv
        rw [this]
        by_cases he : s.st a = .data ∨ s.st a = .recAux
        · simp only [he, and_self, if_true]
        · simp only [he, false_and, if_false] at hm ⊢; exact hm
    | table x => rw [ht] at hm; cases hm
    | rd x => rw [ht] at hm; cases hm
    | recd x => rw [ht] at hm; cases hm
  | table x =>
    rw [hs] at hm
    cases ht : t.mem a <;> rw [ht] at hm <;> first | cases hm; done | exact hm
  | rd x =>
    rw [hs] at hm
    subst hV
    cases ht : t.mem a <;> rw [ht] at hm <;> first | exact hm | cases hm
  | recd x =>
    rw [hs] at hm
    subst hV
    cases ht : t.mem a <;> rw [ht] at hm <;> first | exact hm | cases hm

theorem mine_of (h : low o t = low o s) (r : Nat) : mine V t r = mine V s r := by
  unfold mine; rw [recRd_of h]

end

end Verif.Ni
