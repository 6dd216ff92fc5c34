import Verif.Atom.PropRsi
import Verif.Conc.Word

/-!
# C75: every granule passes the checks of lock and unlock

`__granule_assert_unlocked_invariants` (granule.h:71-118) looks at the descriptor of a granule when its
lock is taken and when it is released. In the machine of `Verif.Atom.Rsi` a command changes the state
and the count of a granule in one step, while it holds the lock, so that a lock is taken or released
only with a state and a count that the machine shows between two steps.
-/

namespace Verif.Atom

open Rmm Conc

/-- The codes of the states: granule_types.h:79-212. -/
def code : GSt → BitVec 5
  | .ns => 0
  | .delegated => 1
  | .rd => 2
  | .recd => 3
  | .recAux => 4
  | .data => 5
  | .rtt => 6

/-- The descriptor of granule `g` (granule_types.h:222-250) in the memory `s`: the lock, the state, the count. -/
def descOf (s : State) (lock : Bool) (g : Nat) : Desc :=
  BitVec.ofNat 16 ((if lock then 32768 else 0) + (code (s.st g)).toNat * 1024 + s.rc g)

/-- `__granule_assert_unlocked_invariants`, granule.h:71-118: false if an assertion fails.
RTT_REFCOUNT_MAX is 4096 / 8 (lines 18-19). -/
def unlockCheck (w : Desc) : Bool :=
  match (stateOf w).toNat with
  | 0 | 1 => countOf w == 0
  | 2 => true
  | 3 => (countOf w).toNat ≤ 1
  | 5 => countOf w == 0
  | 6 => (countOf w).toNat ≤ 512
  | 4 => countOf w == 0
  | 7 => (countOf w).toNat ≤ 1
  | 8 => countOf w == 0
  | 9 => (countOf w).toNat ≤ 1
  | 10 => countOf w == 0
  | _ => false

theorem descOf_fields (s : State) (lock : Bool) (g : Nat) (h : s.rc g ≤ 1023) :
    locked (descOf s lock g) = lock ∧ stateOf (descOf s lock g) = code (s.st g) ∧
    (countOf (descOf s lock g)).toNat = s.rc g := by
  have hc := (code (s.st g)).isLt
  have ht : (descOf s lock g).toNat = (if lock then 32768 else 0) + (code (s.st g)).toNat * 1024 + s.rc g := by
    unfold descOf
    rw [BitVec.toNat_ofNat]
    apply Nat.mod_eq_of_lt
    split <;> omega
  refine ⟨?_, BitVec.eq_of_toNat_eq ?_, ?_⟩
  · rw [bit15, ht]
    cases lock
    · exact decide_eq_false (by simp; omega)
    · exact decide_eq_true (by simp; omega)
  · rw [toNat_stateOf, ht]
    cases lock <;> simp <;> omega
  · rw [toNat_countOf, ht]
    cases lock <;> simp <;> omega

theorem counts {P : Plat} (hP : PlatOk P) {s : State} (hr : Reach P s) (g : Nat) :
    s.rc g ≤ (match s.st g with | .rd => 1023 | .recd => 1 | .rtt => 512 | _ => 0) := by
  obtain ⟨ti, di, rl, h⟩ := hr.inv hP
  cases hs : s.st g with
  | rd => exact (h.rds g hs).max
  | recd => exact (h.recs g hs).rc
  | rtt => have := (h.tab g hs).rc; rw [this]; exact cnt_le _ _
  | _ => exact Nat.le_of_eq (h.rc0 g (by simp [hs]))

theorem check_ok {P : Plat} (hP : PlatOk P) {s : State} (hr : Reach P s) (lock : Bool) (g : Nat) :
    unlockCheck (descOf s lock g) = true ∧ (countOf (descOf s lock g)).toNat = s.rc g ∧
    stateOf (descOf s lock g) = code (s.st g) := by
  have hc := counts hP hr g
  have hm : s.rc g ≤ 1023 := by
    revert hc; cases s.st g <;> simp <;> omega
  obtain ⟨-, h2, h3⟩ := descOf_fields s lock g hm
  refine ⟨?_, h3, h2⟩
  have h0 : s.rc g = 0 → countOf (descOf s lock g) = 0 := fun h => BitVec.eq_of_toNat_eq (by rw [h3, h]; rfl)
  unfold unlockCheck
  rw [h2, h3]
  cases hs : s.st g <;> rw [hs] at hc <;> simp only [code] <;>
    first
    | rfl
    | exact beq_iff_eq.2 (h0 (Nat.le_zero.1 hc))
    | exact decide_eq_true hc

/-- **C75.** Whatever `n` CPUs do, with commands that lock hand over hand and with RSI calls: no check
at a lock or an unlock fails, for no granule, at no time; the count in the descriptor never
overflows into the state, so it is the number of references. -/
theorem C75_unlock_checks {P : Plat} (hP : PlatOk P) {n : Nat} {r : R} {l : List Ev} (x : RExec P n r l) (lock : Bool) (g : Nat) :
    unlockCheck (descOf r.m.s lock g) = true ∧ (countOf (descOf r.m.s lock g)).toNat = r.m.s.rc g ∧
    stateOf (descOf r.m.s lock g) = code (r.m.s.st g) :=
  check_ok hP (C73_reach hP x) lock g

/-- **C75.** What the checks say, in words: memory of the host, delegated memory, data and auxiliary
granules of a REC are never referred to, a REC by at most one CPU (that runs it), a table by at most 512
entries, a realm descriptor by at most 1023 RECs. -/
theorem C75_counts {P : Plat} (hP : PlatOk P) {n : Nat} {r : R} {l : List Ev} (x : RExec P n r l) (g : Nat) :
    r.m.s.rc g ≤ (match r.m.s.st g with | .rd => 1023 | .recd => 1 | .rtt => 512 | _ => 0) :=
  counts hP (C73_reach hP x) g

/-- A change of state and count that is not done in one step under the lock would fail the check: a
table that has become delegated memory with its entries still counted, a REC that two CPUs run. -/
example : unlockCheck (BitVec.ofNat 16 (1 * 1024 + 512)) = false ∧ unlockCheck (BitVec.ofNat 16 (3 * 1024 + 2)) = false ∧
    unlockCheck (BitVec.ofNat 16 (6 * 1024 + 513)) = false ∧ unlockCheck (BitVec.ofNat 16 (11 * 1024)) = false := by decide

namespace Ex

/-- An execution with granules of every kind: the realm, its two RECs that run, an auxiliary granule, a page
and the table with its entries. -/
example : ∃ r l, RExec Demo.plat 2 r l ∧ descOf r.m.s false (Demo.G 16) = 2 * 1024 + 2 ∧ descOf r.m.s false (Demo.G 32) = 3 * 1024 + 1 ∧
    descOf r.m.s true (Demo.G 33) = 32768 + 4 * 1024 ∧ descOf r.m.s false (Demo.G 23) = 5 * 1024 ∧
    descOf r.m.s false (Demo.G 19) = 6 * 1024 + 2 := by
  obtain ⟨r, l, h1, h2⟩ := rexec (c := rsetup)
    (p := fun x => decide (descOf x.1.m.s false (Demo.G 16) = 2 * 1024 + 2 ∧ descOf x.1.m.s false (Demo.G 32) = 3 * 1024 + 1 ∧
      descOf x.1.m.s true (Demo.G 33) = 32768 + 4 * 1024 ∧ descOf x.1.m.s false (Demo.G 23) = 5 * 1024 ∧
      descOf x.1.m.s false (Demo.G 19) = 6 * 1024 + 2)) (by decide +kernel)
  exact ⟨r, l, h1, of_decide_eq_true h2⟩

end Ex

end Verif.Atom
