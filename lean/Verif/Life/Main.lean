import Verif.Life.RecCmds

/-!
# Every execution keeps the invariant
-/

namespace Verif.Life

open Rmm
open Atom (MInv)

section
variable {P : Plat} {n : Nat} {m m' : M} {s : State} {T : Ov}

theorem go_out (hP : PlatOk P) (I : LInv P n m s T) {i : Nat} (hi : i < n) : LOut P n m s i (go P n m i) := by
  cases hp : m.pc i with
  | walk p =>
    have : go P n m i = lift m i (Atom.go P n m.atom i) := by unfold go; rw [hp]
    rw [this]
    exact go_walk hP I hi hp
  | cReserve rd pA q => exact cReserve_ok hP I hi hp
  | cLock rd pA q todo done => exact cLock_ok hP I hi hp
  | cUndo rd pA q => exact cUndo_ok I hi hp
  | dSum rd r k acc => exact dSum_ok I hi hp
  | dFree rd r k => exact dFree_ok I hi hp
  | nTake rd recA pA q todo done => exact nTake_ok I hi hp
  | nLock rd recA pA q todo done => exact nLock_ok I hi hp
  | nFree rd recA pA q ret todo => exact nFree_ok I hi hp
  | kFree recA rd todo => exact kFree_ok I hi hp
  | kPut recA rd => exact kPut_ok I hi hp

theorem start_busy {i : Nat} (hp : m.pc i ≠ .walk .idle) (op : Op) : start P n m i op = .blocked := by
  unfold start
  split
  · exact absurd (by assumption) hp
  · rfl

theorem start_out (hP : PlatOk P) (I : LInv P n m s T) {i : Nat} (hi : i < n) (op : Op) :
    LOut P n m s i (start P n m i op) := by
  by_cases hp : m.pc i = .walk .idle
  swap
  · rw [start_busy hp]; exact trivial
  cases op with
  | realmCreate rd pA q => exact realmCreate_start I hi hp
  | realmDestroy rd => exact realmDestroy_start I hi hp
  | recCreate rd recA pA q => exact recCreate_start I hi hp
  | recDestroy recA => exact recDestroy_start I hi hp
  | _ =>
    unfold start
    rw [hp]
    exact start_walk hP I hi hp rfl

theorem mstep_out (hP : PlatOk P) (I : LInv P n m s T) {i : Nat} (hi : i < n) (act : Atom.Act) :
    LOut P n m s i (mstep P n m i act) := by
  cases act with
  | start op => exact start_out hP I hi op
  | go => exact go_out hP I hi

/-- Nothing under way. -/
def Ov.nil : Ov := ⟨fun _ => none, fun _ => 0, fun _ => false⟩

theorem cnt_idle (a : Nat) : ∀ n, cnt n (fun _ => Pc.idle) a = 0 := by
  intro n
  induction n with
  | zero => rfl
  | succ n ih => unfold cnt; rw [ih]; rfl

theorem init_inv (hi : Init P s) : LInv P n ⟨s, fun _ => .idle⟩ s .nil := by
  obtain ⟨ti, di, rl, h⟩ := hi.inv
  refine ⟨?_, ⟨ti, di, rl, h, fun _ _ => trivial, fun _ _ _ _ _ x hx => by cases hx⟩, ?_, ?_, ?_, ?_, ?_⟩
  · cases s
    simp only [ov, State.mk.injEq, true_and]
    exact ⟨rfl, rfl, rfl, by funext v; simp [ovVm, Ov.nil]⟩
  · refine ⟨fun h => (by cases h), fun h => absurd rfl h, fun h => (by cases h), ?_⟩
    intro a ha
    rw [hi.st a] at ha; cases ha
  · refine ⟨fun h => (by cases h), ?_, ?_, ?_, ?_, ?_, ?_⟩
    · intro i a e _ hx; cases hx
    · intro i j a e e' _ _ hx; cases hx
    · intro i _; exact List.nodup_nil
    · intro v
      constructor
      · intro hx; cases hx
      · rintro ⟨i, _, hx⟩; cases hx
    · intro i j v _ _ hx; cases hx
    · intro a; rw [cnt_idle]; rfl
  · intro i _ j _ _ x hx; cases hx
  · intro i _ x hx; cases hx
  · intro i _; exact trivial

theorem Exec.inv (hP : PlatOk P) {l : List (Ev × Bool)} (x : Exec P n m l) : ∃ s T, LInv P n m s T := by
  induction x with
  | init hi => exact ⟨_, _, init_inv hi⟩
  | @step m m' l i act ev _ hi e ih =>
    obtain ⟨s, T, I⟩ := ih
    have k := mstep_out hP I hi act
    rw [e] at k
    obtain ⟨s', T', I', _⟩ := k
    exact ⟨s', T', I'⟩

end

end Verif.Life
