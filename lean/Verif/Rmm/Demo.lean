import Verif.Rmm.ViewEff

/-!
# Concrete executions

A concrete platform and concrete executions from a freshly booted state, used to show
that the hypotheses of the property theorems are met by non-trivial states, and as
witnesses where a property fails.
-/

namespace Verif.Rmm

/-- Run a list of operations. -/
def run (P : Plat) (s : State) : List Op → Option State
  | [] => some s
  | op :: l =>
    match step P s op with
    | some (s', _) => run P s' l
    | none => none

theorem run_reach {P : Plat} : ∀ (l : List Op) {s s' : State}, Reach P s → run P s l = some s' → Reach P s' := by
  intro l
  induction l with
  | nil => intro s s' h e; cases e; exact h
  | cons op l ih =>
    intro s s' h e
    unfold run at e
    cases hs : step P s op with
    | none => rw [hs] at e; cases e
    | some x =>
      obtain ⟨s1, ret⟩ := x
      rw [hs] at e
      exact ih (Reach.step h hs) e

namespace Demo

/-- A platform with 4GB of tracked DRAM at address 0. -/
def plat : Plat :=
  { tracked := fun a => a % 4096 == 0 && decide (a < 2 ^ 32)
    vmidCount := 256
    hw := { paWidth := 52, lpa2 := true, pmuVersionOk := true, pmuCtrs := 4, bps0 := 5, wps0 := 3
            bps1 := 0, wps1 := 0, sve := true, sveVq := 3, numLrs := 3, hpmn0 := false }
    asserts := true }

theorem plat_ok : PlatOk plat := by
  constructor
  · intro a h; simp only [plat, Bool.and_eq_true, beq_iff_eq, decide_eq_true_eq] at h; exact h.1
  · intro a h; simp only [plat, Bool.and_eq_true, beq_iff_eq, decide_eq_true_eq] at h; omega
  · constructor <;> simp [plat]

/-- Freshly booted: page `a` of memory holds `a`. -/
def boot : State :=
  { st := fun _ => .ns, rc := fun _ => 0, mem := fun a => .page a, pas := fun _ => .ns, vmid := fun _ => false }

theorem boot_init : Init plat boot := by
  constructor <;> intro a <;> simp [boot]

/-- Parameters of a realm with a 33 bit IPA space that starts at level 1. -/
def rparams (root vmid : Nat) : RealmParams :=
  { p := { flags := 0, s2sz := 33, sveVl := 0, numBps := 2, numWps := 2, pmuNumCtrs := 0
           algorithm := 0, rttLevelStart := 1, rttNumStart := 1 }
    rttBase := root, vmid := vmid }

/-- Parameters of the REC number `i`, with auxiliary granules from `aux` on. -/
def recparams (i aux : Nat) : RecParams :=
  { flags := 1, mpidr := BitVec.ofNat 64 i, pc := 0, gprs := fun _ => 0, numAux64 := 16
    aux := fun j => aux + j * 4096 }

/-- Granule number `i`. -/
def G (i : Nat) : Nat := i * 4096

def delegates (a n : Nat) : List Op := (List.range n).map fun i => .granuleDelegate (G (a + i))

/-- A realm (descriptor 16, root 17) with tables for the first 2MB (18, 19) and the first
2MB of the unprotected half (20, 21). -/
def mkRealm : List Op :=
  delegates 16 6 ++
  [.realmCreate (G 16) (G 1) (rparams (G 17) 7),
   .rttCreate (G 16) (G 18) 0 2, .rttCreate (G 16) (G 19) 0 3,
   .rttCreate (G 16) (G 20) (2 ^ 32) 2, .rttCreate (G 16) (G 21) (2 ^ 32) 3]

/-- A measured data page (22) at 0, an unmeasured one (23) at 4096, RAM at 0..16KB. -/
def mkData : List Op :=
  delegates 22 2 ++
  [.rttInitRipas (G 16) 0 16384, .dataCreate (G 16) (G 22) 0 (G 5) 1,
   .dataCreateUnknown (G 16) (G 23) 4096]

/-- Two RECs (32 and 64, auxiliary granules after them). -/
def mkRecs : List Op :=
  delegates 32 17 ++ delegates 64 17 ++
  [.recCreate (G 16) (G 32) (G 1) (recparams 0 (G 33)), .recCreate (G 16) (G 64) (G 1) (recparams 1 (G 65))]

def mkNs : List Op := [.rttMapUnprotected (G 16) (2 ^ 32) 3 0x9000]

def all : List Op := mkRealm ++ mkData ++ mkRecs ++ mkNs

/-- The statuses of a list of operations. -/
def statuses (s : State) : List Op → List (Option (Nat × Nat))
  | [] => []
  | op :: l =>
    match step plat s op with
    | some (s', r) => some (r.status, r.idx) :: statuses s' l
    | none => [none]

end Demo

end Verif.Rmm
