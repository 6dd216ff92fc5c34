import Verif.Rmm.PropView

/-!
# What a coalition of the host and some realms can see

`low V s` is the state with everything erased that the coalition is not entitled to see.
-/

namespace Verif.Ni

open Rmm

/-- The observers, besides the host: `V` the realms, by the address of their descriptor, and `D` the pages
of memory behind their data and the auxiliary granules of their RECs. -/
structure Obs where
  V : Nat → Bool
  D : Nat → Bool

instance : CoeFun Obs (fun _ => Nat → Bool) := ⟨Obs.V⟩

/-- A realm descriptor without the extensible measurements, unless `b`. -/
def lowRd (b : Bool) (r : Rd) : Rd := { r with rem := if b then r.rem else fun _ => [] }

/-- A REC without registers and program counter, unless `b`.  The registers shown to the host
with a PSCI request that is not answered yet stay. -/
def lowRec (b : Bool) (q : Rec) : Rec :=
  { q with
    regs := if b then q.regs else if q.psciPending then fun i => if i < 4 then q.regs i else 0 else fun _ => 0
    pc := if b then q.pc else 0 }

/-- The visible part of granule `a` in state `e` with contents `c`. -/
def lowC (V : Obs) (a : Nat) (e : GSt) : Content → Content
  | .page p => .page (if (e = .data ∨ e = .recAux) ∧ V.D a = false then 0 else p)
  | .rd r => .rd (lowRd (V a) r)
  | .recd q => .recd (lowRec (V q.rd) q)
  | .table t => .table t

def low (V : Obs) (s : State) : State := { s with mem := fun a => lowC V a (s.st a) (s.mem a) }

/-- The visible part of an outcome. -/
def lowOut (V : Obs) (o : Out) : Out := o.map fun x => (low V x.1, x.2)

section
variable {V : Obs} {P : Plat} {s : State}

theorem lowRd_idem (b : Bool) (r : Rd) : lowRd b (lowRd b r) = lowRd b r := by
  cases b <;> rfl

theorem lowRec_idem (b : Bool) (q : Rec) : lowRec b (lowRec b q) = lowRec b q := by
  cases b
  · unfold lowRec
    dsimp only
    cases q.psciPending
    · rfl
    · simp only [Bool.false_eq_true, if_false, if_true]
      congr 1
      funext i
      split <;> rfl
  · rfl

theorem lowC_idem (a : Nat) (e : GSt) (c : Content) : lowC V a e (lowC V a e c) = lowC V a e c := by
  cases c with
  | page p =>
    by_cases h : (e = .data ∨ e = .recAux) ∧ V.D a = false
    · simp only [lowC, h, and_self, if_true]
    · simp only [lowC, h, if_false]
  | table t => rfl
  | rd r => simp only [lowC, lowRd_idem]
  | recd q =>
    simp only [lowC]
    rw [show (lowRec (V q.rd) q).rd = q.rd from rfl, lowRec_idem]

theorem low_idem (s : State) : low V (low V s) = low V s := by
  unfold low
  dsimp only
  congr 1
  funext a
  exact lowC_idem ..

/-- Two states look the same if their granules do. -/
theorem low_ext {s t : State} (h1 : t.st = s.st) (h2 : t.rc = s.rc) (h3 : t.pas = s.pas) (h4 : t.vmid = s.vmid)
    (h5 : ∀ a, lowC V a (s.st a) (t.mem a) = lowC V a (s.st a) (s.mem a)) : low V t = low V s := by
  unfold low
  rw [h1, h2, h3, h4]
  congr 1
  funext a
  exact h5 a

@[simp] theorem lk_low (a : Nat) (e : GSt) : lk P (low V s) a e = lk P s a e := rfl
@[simp] theorem low_st : (low V s).st = s.st := rfl
@[simp] theorem low_rc : (low V s).rc = s.rc := rfl
@[simp] theorem low_pas : (low V s).pas = s.pas := rfl
@[simp] theorem low_vmid : (low V s).vmid = s.vmid := rfl
theorem low_mem (a : Nat) : (low V s).mem a = lowC V a (s.st a) (s.mem a) := rfl

theorem getRd_low (a : Nat) : getRd (low V s) a = (getRd s a).map (lowRd (V a)) := by
  unfold getRd
  rw [low_mem]
  cases s.mem a <;> rfl

theorem getRec_low (a : Nat) : getRec (low V s) a = (getRec s a).map fun q => lowRec (V q.rd) q := by
  unfold getRec
  rw [low_mem]
  cases s.mem a <;> rfl

@[simp] theorem getTab_low (a : Nat) : getTab (low V s) a = getTab s a := by
  unfold getTab
  rw [low_mem]
  cases s.mem a <;> rfl

theorem walkFrom_low (a tgt : Nat) : ∀ d g, walkFrom (low V s) a tgt d g = walkFrom s a tgt d g := by
  intro d
  induction d with
  | zero => intro g; rfl
  | succ d ih =>
    intro g
    unfold walkFrom
    rw [getTab_low]
    simp only [ih, low_st]

@[simp] theorem walk_low (b : Bool) (r : Rd) (a tgt : Nat) : walk (low V s) (lowRd b r) a tgt = walk s r a tgt := by
  unfold walk
  rw [walkFrom_low]
  rfl

theorem hwWalk_low (a : Nat) : ∀ d g, hwWalk (low V s) a d g = hwWalk s a d g := by
  intro d
  induction d with
  | zero => intro g; unfold hwWalk; rw [getTab_low]
  | succ d ih =>
    intro g
    unfold hwWalk
    rw [getTab_low]
    simp only [ih]

theorem translate_low (b : Bool) (r : Rd) (a : Nat) : translate (low V s) (lowRd b r) a = translate s r a := by
  unfold translate
  rw [hwWalk_low]
  rfl

end

end Verif.Ni
