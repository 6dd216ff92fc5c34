import Verif.Atom.Progress
import Verif.Rmm.Demo

/-!
# C65: commands that lock hand over hand behave as if they were atomic

`Exec` runs any number of CPUs over one memory; the table commands take and release granule
locks step by step.  `Serial` runs the operations one after the other, each as a single step
of `Rmm.step`.
-/

namespace Verif.Atom

open Rmm

/-- Operations run one after the other from the initial state; latest first. -/
inductive Serial (P : Plat) : State → List (Op × Ret) → Prop where
  | init {s} : Init P s → Serial P s []
  | step {s s' op ret l} : Serial P s l → Rmm.step P s op = some (s', ret) → Serial P s' ((op, ret) :: l)

/-- Two records of an operation say the same.  Only a DATA_CREATE that fails may fail with
different codes. -/
def Agree (x y : Op × Ret) : Prop :=
  x.1 = y.1 ∧ (x.2 = y.2 ∨
    ((∃ rd data a src flags, x.1 = .dataCreate rd data a src flags) ∧ x.2.status ≠ 0 ∧ y.2.status ≠ 0))

theorem Serial.reach {P : Plat} {s : State} {l : List (Op × Ret)} (h : Serial P s l) : Reach P s := by
  induction h with
  | init h => exact .init h
  | step _ e ih => exact .step ih e

/-- Whatever `n` CPUs have done: running the completed operations one after the other, in the
order in which they completed, gives the same memory and the same results. -/
theorem C65_linearizable {P : Plat} (hP : PlatOk P) {n : Nat} {m : M} {l : List (Op × Ret)} (x : Exec P n m l) :
    ∃ l', Serial P m.s l' ∧ List.Forall₂ Agree l l' := by
  induction x with
  | init h => exact ⟨[], .init h, .nil⟩
  | @quiet m m' l i act x hi e ih =>
    have k := mstep_ok hP (Exec.inv hP x) hi act
    rw [e] at k
    rw [k.1]
    exact ih
  | @done m m' l i act y x hi e ih =>
    obtain ⟨op, ret⟩ := y
    have k := mstep_ok hP (Exec.inv hP x) hi act
    rw [e] at k
    obtain ⟨l', h1, h2⟩ := ih
    rcases k.1 with h3 | ⟨ht, hs, hr, h3⟩
    · exact ⟨(op, ret) :: l', .step h1 h3, .cons ⟨rfl, Or.inl rfl⟩ h2⟩
    · refine ⟨(op, errInput) :: l', ?_, .cons ⟨rfl, Or.inr ⟨?_, hr, by simp [errInput]⟩⟩ h2⟩
      · rw [hs]; exact .step h1 h3
      · cases op with
        | dataCreate rd data a src flags => exact ⟨rd, data, a, src, flags, rfl⟩
        | _ => exact ht.elim

/-- The memory is one that operations run one after the other reach: what is proved of
`Reach` holds while commands of several CPUs are under way. -/
theorem C65_reach {P : Plat} (hP : PlatOk P) {n : Nat} {m : M} {l : List (Op × Ret)} (x : Exec P n m l) :
    Reach P m.s := by
  obtain ⟨l', h, _⟩ := C65_linearizable hP x
  exact h.reach

/-- An assertion that fails in an interleaving fails in the same operation run alone in
the same memory. -/
theorem C65_assert {P : Plat} (hP : PlatOk P) {n : Nat} {m : M} {l : List (Op × Ret)} (x : Exec P n m l) {i : Nat}
    (hi : i < n) {act : Act} {op : Op} (e : mstep P n m i act = .fail op) : Rmm.step P m.s op = none := by
  have k := mstep_ok hP (Exec.inv hP x) hi act
  rw [e] at k
  exact k

/-- No two CPUs hold the same lock. -/
theorem C65_exclusive {P : Plat} (hP : PlatOk P) {n : Nat} {m : M} {l : List (Op × Ret)} (x : Exec P n m l)
    {i j : Nat} (hi : i < n) (hj : j < n) (hne : i ≠ j) {g : Nat} (h1 : g ∈ held (m.pc i)) : g ∉ held (m.pc j) := by
  obtain ⟨_, _, _, _, _, hd⟩ := Exec.inv hP x
  exact hd i hi j hj hne g h1

/-- There is no deadlock: while some CPU is inside a command, some CPU inside a command has
a step to make. -/
theorem C65_no_deadlock {P : Plat} (hP : PlatOk P) {n : Nat} {m : M} {l : List (Op × Ret)} (x : Exec P n m l)
    {i : Nat} (hi : i < n) (hne : m.pc i ≠ .idle) :
    ∃ j < n, m.pc j ≠ .idle ∧ mstep P n m j .go ≠ .blocked :=
  progress (Exec.inv hP x) hi hne

/-- Commands end: if no CPU begins another command, at most eleven steps for each CPU are
made. -/
theorem C65_terminate {P : Plat} (hP : PlatOk P) {n : Nat} {m m' : M} {l : List (Op × Ret)} (x : Exec P n m l)
    {k : Nat} (g : Goes P n k m m') : k ≤ 11 * n := by
  have I := Exec.inv hP x
  have h1 := (g.inv hP I).2
  have h2 : total n m ≤ 11 * n := by
    obtain ⟨ti, di, rl, h, hp, -⟩ := I
    have key : ∀ i < n, fuel (m.pc i) ≤ 11 := by
      intro i hi
      have hpi := hp i hi
      cases hpc : m.pc i with
      | idle => simp [fuel]
      | locking op todo done =>
        rw [hpc] at hpi
        have h3 := hpi.2.2.1
        have h4 : (first op).length ≤ 2 := by
          cases op <;> simp only [first, two] <;> first | (split <;> simp) | simp
        rw [h3, List.length_append] at h4
        simp only [fuel]
        omega
      | checked op c => simp [fuel]
      | root op c => simp [fuel]
      | walking op c d g =>
        rw [hpc] at hpi
        have h3 := hpi.2.1.depth h
        have h4 := (h.rds _ hpi.1.rd).geo.d0
        simp only [fuel]
        split at h4 <;> omega
    have key2 : ∀ j, j ≤ n → ((List.range j).map fun i => fuel (m.pc i)).sum ≤ 11 * j := by
      intro j
      induction j with
      | zero => intro _; simp
      | succ j ih =>
        intro hj
        rw [List.range_succ, List.map_append, List.sum_append]
        simp only [List.map_cons, List.map_nil, List.sum_cons, List.sum_nil, Nat.add_zero]
        have := ih (by omega)
        have := key j (by omega)
        omega
    exact key2 n (le_refl n)
  omega

/-! ## Two CPUs -/

/-- Runs a schedule: `(i, some op)` lets CPU `i` begin `op`, `(i, none)` lets it make a step
(nothing happens if it is idle). -/
def sched (P : Plat) (n : Nat) : List (Nat × Option Op) → M → List (Op × Ret) → Option (M × List (Op × Ret))
  | [], m, l => some (m, l)
  | (i, a) :: todo, m, l =>
    match decide (i < n), a, m.pc i with
    | false, _, _ => none
    | true, none, .idle => sched P n todo m l
    | true, a, _ =>
      match mstep P n m i (match a with | some op => .start op | none => .go) with
      | .ok m' none => sched P n todo m' l
      | .ok m' (some d) => sched P n todo m' (d :: l)
      | _ => none

theorem sched_exec {P : Plat} {n : Nat} : ∀ (c : List (Nat × Option Op)) {m m' : M} {l l' : List (Op × Ret)},
    Exec P n m l → sched P n c m l = some (m', l') → Exec P n m' l' := by
  intro c
  induction c with
  | nil => intro m m' l l' x e; unfold sched at e; cases e; exact x
  | cons a c ih =>
    obtain ⟨i, a⟩ := a
    intro m m' l l' x e
    unfold sched at e
    split at e
    · cases e
    · exact ih x e
    · have hi : i < n := of_decide_eq_true (by assumption)
      split at e
      · rename_i hs; exact ih (.quiet x hi hs) e
      · rename_i hs; exact ih (.done x hi hs) e
      · cases e

namespace Ex

open Rmm.Demo

/-- CPU `i` runs `op` to its end while the others stand still. -/
def whole (i : Nat) (op : Op) : List (Nat × Option Op) := (i, some op) :: List.replicate 12 (i, none)

/-- `k` steps of CPU `i`. -/
def go_ (i k : Nat) : List (Nat × Option Op) := List.replicate k (i, none)

def setup : List (Nat × Option Op) := (mkRealm ++ mkData).flatMap (whole 0)

/-- Two CPUs in the same realm: CPU 1 maps a page of the unprotected half while CPU 0 destroys
the data page at 4096.  They meet in the root table. -/
def meet : List (Nat × Option Op) :=
  setup ++ [(1, some (.rttMapUnprotected (G 16) (2 ^ 32) 3 0x9000))] ++ go_ 1 5 ++
  [(0, some (.dataDestroy (G 16) 4096))] ++ go_ 0 4

def crossing : List (Nat × Option Op) := meet ++ go_ 1 1 ++ go_ 0 1 ++ go_ 1 1 ++ go_ 0 10

/-- CPU 0 waits for the root table. -/
def waiting : List (Nat × Option Op) :=
  setup ++ [(1, some (.rttMapUnprotected (G 16) (2 ^ 32) 3 0x9000))] ++ go_ 1 3 ++
  [(0, some (.dataDestroy (G 16) 4096))] ++ go_ 0 2

/-- A DATA_CREATE for an address that is mapped; its source is delegated meanwhile. -/
def stolenOp : Op := .dataCreate (G 16) (G 24) 0 (G 5) 1

def stolen : List (Nat × Option Op) :=
  setup ++ whole 0 (.granuleDelegate (G 24)) ++ [(0, some stolenOp)] ++ whole 1 (.granuleDelegate (G 5)) ++ go_ 0 12

theorem exec {c : List (Nat × Option Op)} {p : M × List (Op × Ret) → Bool}
    (h : (sched plat 2 c ⟨boot, fun _ => .idle⟩ []).any p = true) :
    ∃ m l, Exec plat 2 m l ∧ p (m, l) = true := by
  cases hs : sched plat 2 c ⟨boot, fun _ => .idle⟩ [] with
  | none => rw [hs] at h; cases h
  | some x =>
    obtain ⟨m, l⟩ := x
    rw [hs] at h
    exact ⟨m, l, sched_exec c (.init boot_init) hs, h⟩

/-- Both commands are inside the tables at the same time. -/
example : ∃ m l, Exec plat 2 m l ∧ (G 20 ∈ held (m.pc 1) ∧ G 17 ∈ held (m.pc 0)) := by
  obtain ⟨m, l, h1, h2⟩ := exec (c := meet)
    (p := fun x => decide (G 20 ∈ held (x.1.pc 1) ∧ G 17 ∈ held (x.1.pc 0))) (by decide +kernel)
  exact ⟨m, l, h1, of_decide_eq_true h2⟩

/-- ... and both succeed; the one that began first ends first. -/
example : ∃ m l, Exec plat 2 m l ∧ (l.take 2).map (fun y => (y.2.status, y.2.x1)) = [(0, G 23), (0, 0)] ∧
    m.s.st (G 23) = .delegated ∧ m.s.rc (G 19) = 1 := by
  obtain ⟨m, l, h1, h2⟩ := exec (c := crossing)
    (p := fun x => decide ((x.2.take 2).map (fun y => (y.2.status, y.2.x1)) = [(0, G 23), (0, 0)] ∧
      x.1.s.st (G 23) = .delegated ∧ x.1.s.rc (G 19) = 1)) (by decide +kernel)
  exact ⟨m, l, h1, of_decide_eq_true h2⟩

def isBlocked : Res → Bool
  | .blocked => true
  | _ => false

def isIdle : Pc → Bool
  | .idle => true
  | _ => false

def failsIn : Res → Option Op
  | .fail op => some op
  | _ => none

/-- CPUs do wait for each other. -/
example : ∃ m l, Exec plat 2 m l ∧ m.pc 0 ≠ .idle ∧ mstep plat 2 m 0 .go = .blocked := by
  obtain ⟨m, l, h1, h2⟩ := exec (c := waiting)
    (p := fun x => !isIdle (x.1.pc 0) && isBlocked (mstep plat 2 x.1 0 .go)) (by decide +kernel)
  rw [Bool.and_eq_true] at h2
  refine ⟨m, l, h1, fun hh => ?_, ?_⟩
  · simp [hh, isIdle] at h2
  · generalize mstep plat 2 m 0 .go = r at h2
    cases r with
    | blocked => rfl
    | _ => exact absurd h2.2 (by simp [isBlocked])

/-- The two CPUs of `meet` have steps to make. -/
example : ∃ m l m', Exec plat 2 m l ∧ Goes plat 2 1 m m' := by
  obtain ⟨m, l, h1, h2⟩ := exec (c := meet)
    (p := fun x => match go plat 2 x.1 1 with | .ok _ _ => true | _ => false) (by decide +kernel)
  dsimp only at h2
  split at h2
  · rename_i m' d e
    exact ⟨m, l, m', h1, .step .refl (by omega) e⟩
  · cases h2

end Ex

open Rmm.Demo Ex

/-- The codes do differ: a DATA_CREATE looks at its source before it takes any lock.  If the
source is delegated in between, the command can still fail because of the table, while the
command run when it completes fails because of the source. -/
theorem C65_data_create_code : ∃ m l op ret, Exec plat 2 m ((op, ret) :: l) ∧
    ret.status ≠ errInput.status ∧ (Rmm.step plat m.s op).any (fun x => x.2.status == errInput.status) = true := by
  obtain ⟨m, l, h1, h2⟩ := exec (c := stolen)
    (p := fun x => match x.2 with
      | (op, ret) :: _ => decide (ret.status ≠ errInput.status) &&
          (Rmm.step plat x.1.s op).any (fun x => x.2.status == errInput.status)
      | [] => false) (by decide +kernel)
  cases l with
  | nil => cases h2
  | cons x l =>
    obtain ⟨op, ret⟩ := x
    dsimp only at h2
    rw [Bool.and_eq_true, decide_eq_true_eq] at h2
    exact ⟨m, l, op, ret, h1, h2.1, h2.2⟩

/-- Assertions that fail are met, too (they are those of C07). -/
example : ∃ m l op, Exec plat 2 m l ∧ mstep plat 2 m 1 .go = .fail op := by
  obtain ⟨m, l, h1, h2⟩ := exec
    (c := ((List.range 9).map fun i => Op.granuleDelegate (G (15 + i))).flatMap (whole 0) ++
      whole 0 (.realmCreate (G 15) (G 1) { rparams (G 16) 7 with
        p := { (rparams (G 16) 7).p with rttLevelStart := 2, rttNumStart := 8 } }) ++
      [(1, some (.rttMapUnprotected (G 15) (2 ^ 32) 1 0x40000000))] ++ go_ 1 3)
    (p := fun x => (failsIn (mstep plat 2 x.1 1 .go)).isSome) (by decide +kernel)
  dsimp only at h2
  cases hr : mstep plat 2 m 1 .go with
  | fail op => exact ⟨m, l, op, h1, hr⟩
  | _ => rw [hr] at h2; cases h2

end Verif.Atom
