import Verif.Life.Progress
import Verif.Rmm.Demo

/-!
# C81: realms and RECs created and destroyed on several CPUs

`Exec` runs any number of CPUs; REALM_CREATE, REALM_DESTROY, REC_CREATE and REC_DESTROY take
and release locks, VMIDs and granules step by step, in between steps of all other commands.
`Runs` runs the commands one after the other, each at its point.
-/

namespace Verif.Life

open Rmm

/-- The points of an execution, latest first: the command, its result, and whether another CPU
was inside one of the four commands. -/
def pts (l : List (Ev × Bool)) : List (Op × Ret × Bool) :=
  l.filterMap fun | (.point _ op ret, b) => some (op, ret, b) | (.exit .., _) => none

/-- Commands run one after the other; latest first. -/
inductive Runs (P : Plat) : State → List (Op × Ret × Bool) → Prop where
  | init {s} : Init P s → Runs P s []
  | step {s s' op ret b l} : Runs P s l → Done P s op s' ret b → Runs P s' ((op, ret, b) :: l)

/-- The memory `mem` is `s`, up to what the commands under way have still to do or to undo. -/
structure Under (n : Nat) (pc : Nat → Pc) (s mem : State) : Prop where
  /-- granules of no command under way -/
  same : ∀ a, (∀ i < n, ∀ e, (a, e) ∉ tr (pc i)) → mem.st a = s.st a ∧ mem.mem a = s.mem a
  /-- granules a command under way has taken, or not yet freed -/
  taken : ∀ i < n, ∀ a e, (a, e) ∈ tr (pc i) → mem.st a = e ∧ s.st a = .delegated
  /-- ... are those of one CPU -/
  one : ∀ i < n, ∀ j < n, ∀ a e e', (a, e) ∈ tr (pc i) → (a, e') ∈ tr (pc j) → i = j
  /-- references to be dropped -/
  rc : ∀ a, mem.rc a = s.rc a + cnt n pc a
  /-- VMIDs reserved by a REALM_CREATE under way -/
  vmid : ∀ v, mem.vmid v = true ↔ (s.vmid v = true ∨ ∃ i < n, vmOf (pc i) = some v)
  vmid1 : ∀ i < n, ∀ v, vmOf (pc i) = some v → s.vmid v = false ∧ ∀ j < n, vmOf (pc j) = some v → j = i
  pas : mem.pas = s.pas

theorem points_pts (ev : List Ev) (b : Bool) :
    pts (ev.map fun e => (e, b)) = (points ev).map fun x => (x.1, x.2, b) := by
  induction ev with
  | nil => rfl
  | cons e ev ih =>
    cases e with
    | point i op ret =>
      simp only [pts, points, List.map_cons, List.filterMap_cons] at ih ⊢
      rw [ih]
    | exit i op ret =>
      simp only [pts, points, List.map_cons, List.filterMap_cons] at ih ⊢
      exact ih

section
variable {P : Plat} {n : Nat} {m m' : M} {s : State} {T : Ov}

theorem LInv.under (I : LInv P n m s T) : Under n m.pc s m.s := by
  refine ⟨?_, ?_, fun i hi j hj a e e' h1 h2 => I.trk.one hi hj h1 h2, ?_, ?_, ?_, ?_⟩
  · intro a h
    have hg : T.g a = Option.none := by
      cases hg : T.g a with
      | none => rfl
      | some y =>
        obtain ⟨e, c⟩ := y
        obtain ⟨i, hi, h1⟩ := I.trk.own hg
        exact absurd h1 (h i hi e)
    rw [I.mem]
    exact ⟨ovSt_none _ hg, ovMem_none _ hg⟩
  · intro i hi a e h
    obtain ⟨c, hc⟩ := I.trk.has hi h
    rw [I.mem]
    exact ⟨by simp only [ov, ovSt, hc], (I.sep.g hc).1⟩
  · intro a
    rw [I.mem, ← I.trk.rc]
    rfl
  · intro v
    rw [← I.trk.vm, I.mem]
    simp [ov, ovVm]
  · intro i hi v h
    exact ⟨I.sep.vm ((I.trk.vm v).mpr ⟨i, hi, h⟩), fun j hj h2 => I.trk.vm1 hj hi h2 h⟩
  · rw [I.mem]; rfl

/-- The invariant together with the commands run one after the other. -/
theorem runs_inv (hP : PlatOk P) {l : List (Ev × Bool)} (x : Exec P n m l) :
    ∃ s T, LInv P n m s T ∧ Runs P s (pts l) := by
  induction x with
  | init hi => exact ⟨_, _, init_inv hi, .init hi⟩
  | @step m m' l i act ev _ hi e ih =>
    obtain ⟨s, T, I, R⟩ := ih
    have k := mstep_out hP I hi act
    rw [e] at k
    obtain ⟨s', T', I', E⟩ := k
    refine ⟨s', T', I', ?_⟩
    have h1 : pts (ev.map (fun e => (e, others n m i)) ++ l) =
        (points ev).map (fun x => (x.1, x.2, others n m i)) ++ pts l := by
      rw [← points_pts]
      simp only [pts, List.filterMap_append]
    rw [h1]
    rcases E with ⟨h2, rfl⟩ | ⟨op, ret, h2, h3⟩
    · rw [h2]; exact R
    · rw [h2]; exact .step R h3

/-- Whatever `n` CPUs have done, the memory is the one that the commands leave when they run
one after the other in the order of their points, up to what the commands under way have still
to do or to undo.  Each command does at its point what the atomic command does, or fails and
does nothing. -/
theorem C81_serial (hP : PlatOk P) {l : List (Ev × Bool)} (x : Exec P n m l) :
    ∃ s, Runs P s (pts l) ∧ Inv P s ∧ Under n m.pc s m.s := by
  obtain ⟨s, T, I, R⟩ := runs_inv hP x
  exact ⟨s, R, inv_of I, I.under⟩

/-- While no CPU is inside one of the four commands the memory is exactly that one: nothing is
leaked by commands that failed or ended. -/
theorem C81_quiet (hP : PlatOk P) {l : List (Ev × Bool)} (x : Exec P n m l)
    (h : ∀ i < n, (m.pc i).life = false) : Runs P m.s (pts l) ∧ Inv P m.s := by
  obtain ⟨s, T, I, R⟩ := runs_inv hP x
  rw [I.quiet h]
  exact ⟨R, inv_of I⟩

/-- A command that succeeds has done what the atomic command does. -/
theorem C81_success (hP : PlatOk P) {l : List (Ev × Bool)} (x : Exec P n m l) {op : Op} {ret : Ret} {b : Bool}
    (h : (op, ret, b) ∈ pts l) (hr : ret.status = 0) :
    ∃ s s' l', Runs P s l' ∧ (step P s op = some (s', ret) ∨ Made P s s' ret op) := by
  obtain ⟨s, -, -, R⟩ := runs_inv hP x
  generalize pts l = q at R h
  induction R with
  | init => cases h
  | @step s s' op' ret' b' l' R1 d ih =>
    rw [List.mem_cons] at h
    rcases h with h | h
    · simp only [Prod.mk.injEq] at h
      obtain ⟨rfl, rfl, rfl⟩ := h
      rcases d with d | d | ⟨_, d, _⟩
      · exact ⟨_, _, _, R1, Or.inl d⟩
      · exact ⟨_, _, _, R1, Or.inr d⟩
      · exact absurd hr d
    · exact ih h

/-- Points and exits of CPU `i`, latest first: each exit comes after a point of its own with the
same result; the second argument is the point whose exit is still to come. -/
inductive Paired (i : Nat) : List Ev → Option (Op × Ret) → Prop where
  | nil : Paired i [] none
  | otherPoint {j op ret l p} : j ≠ i → Paired i l p → Paired i (.point j op ret :: l) p
  | otherExit {j op ret l p} : j ≠ i → Paired i l p → Paired i (.exit j op ret :: l) p
  | point {op ret l} : Paired i l none → Paired i (.point i op ret :: l) (some (op, ret))
  | exit {op ret l} : Paired i l (some (op, ret)) → Paired i (.exit i op ret :: l) none

theorem paired_shape {i : Nat} {op : Op} {p p' : Option (Op × Ret)} {c : Option Op} {ev l : List Ev}
    (h : Shape i op p c p' ev) (k : Paired i l p) : Paired i (ev ++ l) p' := by
  cases h with
  | on => exact k
  | whole => exact .exit (.point k)
  | point => exact .point k
  | exit => exact .exit k

theorem paired_other {i j : Nat} (hj : j ≠ i) {op : Op} {p p' q : Option (Op × Ret)} {c : Option Op} {ev l : List Ev}
    (h : Shape j op p c p' ev) (k : Paired i l q) : Paired i (ev ++ l) q := by
  cases h with
  | on => exact k
  | whole => exact .otherExit hj (.otherPoint hj k)
  | point => exact .otherPoint hj k
  | exit => exact .otherExit hj k

theorem mstep_shape {i : Nat} {act : Atom.Act} {ev : List Ev} (e : mstep P n m i act = .ok m' ev) :
    ∃ op, Shape i op (promise (m.pc i)) (cmdOf (m'.pc i)) (promise (m'.pc i)) ev ∧ ∀ j, j ≠ i → m'.pc j = m.pc j := by
  have h2 : ∀ j, j ≠ i → m'.pc j = m.pc j := by
    intro j hj
    rw [mstep_pc e, upd_ne _ _ _ hj]
  cases act with
  | start op =>
    obtain ⟨h0, h1⟩ := start_shape (show start P n m i op = .ok m' ev from e)
    refine ⟨op, ?_, h2⟩
    rw [h0]
    exact h1
  | go =>
    obtain ⟨op, _, h1⟩ := go_shape (show go P n m i = .ok m' ev from e)
    exact ⟨op, h1, h2⟩

/-- A command has one point, not after its exit, and returns what was decided there; a CPU
outside RMM has no point whose exit is still to come, so the point lies between the start of
the command and its exit. -/
theorem C81_exit {l : List (Ev × Bool)} (x : Exec P n m l) (i : Nat) :
    Paired i (l.map (·.1)) (promise (m.pc i)) ∧ (m.pc i = .idle → promise (m.pc i) = none) := by
  refine ⟨?_, fun h => by rw [h]; rfl⟩
  induction x with
  | init => exact .nil
  | @step m m' l j act ev _ hj e ih =>
    obtain ⟨op, h1, h2⟩ := mstep_shape e
    have h3 : (ev.map (fun e => (e, others n m j)) ++ l).map (·.1) = ev ++ l.map (·.1) := by
      rw [List.map_append, List.map_map]
      congr 1
      simp [Function.comp_def]
    rw [h3]
    by_cases hij : j = i
    · subst hij
      exact paired_shape h1 ih
    · rw [h2 i (Ne.symm hij)]
      exact paired_other hij h1 ih

/-- What is recorded for a CPU belongs to the command it has begun, until that command ends. -/
theorem C81_command {i : Nat} {act : Atom.Act} {ev : List Ev} (e : mstep P n m i act = .ok m' ev) :
    ∃ op, (act = .start op ∧ m.pc i = .idle ∨ act = .go ∧ cmdOf (m.pc i) = some op) ∧
      (∀ y ∈ ev, ∃ ret, y = .point i op ret ∨ y = .exit i op ret) ∧
      (cmdOf (m'.pc i) = some op ∨ (cmdOf (m'.pc i) = none ∧ ∃ ret, .exit i op ret ∈ ev)) := by
  have key : ∀ {op p c p'}, Shape i op p c p' ev → (∀ y ∈ ev, ∃ ret, y = .point i op ret ∨ y = .exit i op ret) ∧
      (c = some op ∨ (c = none ∧ ∃ ret, .exit i op ret ∈ ev)) := by
    intro op p c p' h
    cases h with
    | on => exact ⟨fun y hy => (by cases hy), Or.inl rfl⟩
    | @whole ret =>
      refine ⟨fun y hy => ⟨ret, ?_⟩, Or.inr ⟨rfl, ret, by simp⟩⟩
      simpa [or_comm] using hy
    | @point ret =>
      refine ⟨fun y hy => ⟨ret, ?_⟩, Or.inl rfl⟩
      simp only [List.mem_singleton] at hy; exact Or.inl hy
    | @exit ret =>
      refine ⟨fun y hy => ⟨ret, ?_⟩, Or.inr ⟨rfl, ret, by simp⟩⟩
      simp only [List.mem_singleton] at hy; exact Or.inr hy
  cases act with
  | start op =>
    obtain ⟨h0, h1⟩ := start_shape (show start P n m i op = .ok m' ev from e)
    exact ⟨op, Or.inl ⟨rfl, h0⟩, key h1⟩
  | go =>
    obtain ⟨op, h0, h1⟩ := go_shape (show go P n m i = .ok m' ev from e)
    exact ⟨op, Or.inr ⟨rfl, h0⟩, key h1⟩

/-- An assertion that fails in an interleaving is one that fails in the command run alone, in the
memory of the commands run one after the other, or it is REC_CREATE that gives back auxiliary
granules it has taken and unlocked. -/
theorem C81_assert (hP : PlatOk P) {l : List (Ev × Bool)} (x : Exec P n m l) {i : Nat} (hi : i < n)
    {act : Atom.Act} {op : Op} (e : mstep P n m i act = .fail op) :
    (∃ s, Runs P s (pts l) ∧ step P s op = none) ∨
      ∃ rd recA pA q todo done, op = .recCreate rd recA pA q ∧ m.pc i = .nTake rd recA pA q todo done ∧ done ≠ [] := by
  obtain ⟨s, T, I, R⟩ := runs_inv hP x
  have k := mstep_out hP I hi act
  rw [e] at k
  rcases k with k | k
  · exact Or.inl ⟨s, R, k⟩
  · exact Or.inr k

/-- No two CPUs hold the same lock. -/
theorem C81_exclusive (hP : PlatOk P) {l : List (Ev × Bool)} (x : Exec P n m l) {i j : Nat} (hi : i < n) (hj : j < n)
    (hne : i ≠ j) {g : Nat} (h : g ∈ held (m.pc i)) : g ∉ held (m.pc j) := by
  obtain ⟨s, T, I, R⟩ := runs_inv hP x
  exact I.excl i hi j hj hne g h

/-- There is no deadlock: while some CPU is inside a command, some CPU inside a command has
a step to make. -/
theorem C81_no_deadlock (hP : PlatOk P) {l : List (Ev × Bool)} (x : Exec P n m l) {i : Nat} (hi : i < n)
    (hne : m.pc i ≠ .idle) : ∃ j < n, m.pc j ≠ .idle ∧ mstep P n m j .go ≠ .blocked := by
  obtain ⟨s, T, I⟩ := Exec.inv hP x
  exact progress I hi hne

/-- Commands end: there is a bound on the steps that the CPUs can make if none begins another
command. -/
theorem C81_terminate (hP : PlatOk P) {l : List (Ev × Bool)} (x : Exec P n m l) :
    ∃ K, ∀ k m', Goes P n k m m' → k ≤ K := by
  refine ⟨total n m, fun k m' g => ?_⟩
  have := (g.inv hP (Exec.inv hP x)).2
  omega

/-- At every moment a DELEGATED granule holds zeros. -/
theorem C81_zero (hP : PlatOk P) {l : List (Ev × Bool)} (x : Exec P n m l) {a : Nat} (h : m.s.st a = .delegated) :
    m.s.mem a = .page 0 := by
  obtain ⟨s, T, I, R⟩ := runs_inv hP x
  obtain ⟨ti, di, rl, hI⟩ := inv_of I
  rw [I.mem] at h ⊢
  obtain ⟨h1, h2⟩ := I.sep.del h
  simp only [ov, ovMem_none _ h1]
  exact hI.delPage a h2

/-- At every moment the state of a granule and its physical address space agree. -/
theorem C81_pas (hP : PlatOk P) {l : List (Ev × Bool)} (x : Exec P n m l) {a : Nat} (h : P.tracked a = true) :
    m.s.st a = .ns ↔ m.s.pas a ≠ .realm := by
  obtain ⟨s, T, I, R⟩ := runs_inv hP x
  obtain ⟨ti, di, rl, hI⟩ := inv_of I
  have h1 := I.sep.stNs a
  have h2 := hI.gpt a h
  rw [I.mem, h1]
  have : (ov T s).pas = s.pas := rfl
  rw [this]
  constructor
  · intro h3 h4; exact h2.mpr h4 h3
  · intro h3; by_contra h4; exact h3 (h2.mp h4)

/-- At every moment the reference count of a realm descriptor fits its 10 bits. -/
theorem C81_refs (hP : PlatOk P) {l : List (Ev × Bool)} (x : Exec P n m l) {a : Nat} (h : m.s.st a = .rd) :
    m.s.rc a ≤ 1023 := by
  obtain ⟨s, T, I, R⟩ := runs_inv hP x
  obtain ⟨ti, di, rl, hI⟩ := inv_of I
  have hr : m.s.rc a = s.rc a + T.rc a := by rw [I.mem]; rfl
  rw [hr]
  by_cases hs : s.st a = .rd
  · exact I.sep.cap hs
  · have h0 := I.sep.rc0 hs
    cases hg : T.g a with
    | none =>
      rw [I.mem] at h
      simp only [ov, ovSt_none _ hg] at h
      exact absurd h hs
    | some y =>
      obtain ⟨e, c⟩ := y
      have h1 := hI.rc0 a (Or.inr (Or.inl (I.sep.g hg).1))
      omega

/-- At every moment two realms that are not being destroyed have different VMIDs, both
reserved, and no REALM_CREATE under way has reserved one of them, or the same as another
one. -/
theorem C81_vmid (hP : PlatOk P) {l : List (Ev × Bool)} (x : Exec P n m l) :
    (∀ a b, m.s.st a = .rd → m.s.st b = .rd → (∀ i < n, ∀ r k, m.pc i ≠ .dFree a r k ∧ m.pc i ≠ .dFree b r k) →
      (rdOf m.s a).vmid = (rdOf m.s b).vmid → a = b) ∧
    (∀ a, m.s.st a = .rd → (∀ i < n, ∀ r k, m.pc i ≠ .dFree a r k) → m.s.vmid (rdOf m.s a).vmid = true ∧
      ∀ i < n, vmOf (m.pc i) ≠ some (rdOf m.s a).vmid) ∧
    ∀ i < n, ∀ j < n, ∀ v, vmOf (m.pc i) = some v → vmOf (m.pc j) = some v → i = j := by
  obtain ⟨s, T, I, R⟩ := runs_inv hP x
  obtain ⟨ti, di, rl, hI⟩ := inv_of I
  have key : ∀ a, m.s.st a = .rd → (∀ i < n, ∀ r k, m.pc i ≠ .dFree a r k) →
      s.st a = .rd ∧ rdOf m.s a = rdOf s a := by
    intro a h1 h2
    have hg : T.g a = Option.none := by
      cases hg : T.g a with
      | none => rfl
      | some y =>
        exfalso
        obtain ⟨e, c⟩ := y
        have he : e = .rd := by
          rw [I.mem] at h1
          simpa [ov, ovSt, hg] using h1
        subst he
        obtain ⟨i, hi, h3⟩ := I.trk.own hg
        cases hp : m.pc i with
        | dFree rd r k =>
          rw [hp] at h3
          simp only [tr, List.mem_cons, List.mem_map, Prod.mk.injEq] at h3
          rcases h3 with ⟨rfl, _⟩ | ⟨_, _, _, h3⟩
          · exact h2 i hi r k hp
          · cases h3
        | _ => rw [hp] at h3; simp [tr] at h3
    rw [I.mem] at h1 ⊢
    exact ⟨by simpa [ov, ovSt_none _ hg] using h1, rdOf_ov hg⟩
  refine ⟨?_, ?_, fun i hi j hj v h1 h2 => I.trk.vm1 hi hj h1 h2⟩
  · intro a b h1 h2 h3 h4
    obtain ⟨h5, h6⟩ := key a h1 fun i hi r k => (h3 i hi r k).1
    obtain ⟨h7, h8⟩ := key b h2 fun i hi r k => (h3 i hi r k).2
    rw [h6, h8] at h4
    exact hI.vmidInj a b h5 h7 h4
  · intro a h1 h2
    obtain ⟨h5, h6⟩ := key a h1 h2
    have h7 := (hI.rds a h5).vmid.2
    rw [h6]
    refine ⟨?_, ?_⟩
    · rw [I.mem]; simp [ov, ovVm, h7]
    · intro i hi h8
      have := I.sep.vm ((I.trk.vm _).mpr ⟨i, hi, h8⟩)
      rw [h7] at this; cases this

end

/-! ## Several CPUs -/

/-- Runs a schedule: `(i, some op)` lets CPU `i` begin `op`, `(i, none)` lets it make a step
(nothing happens if it is idle). -/
def sched (P : Plat) (n : Nat) : List (Nat × Option Op) → M → List (Ev × Bool) → Option (M × List (Ev × Bool))
  | [], m, l => some (m, l)
  | (i, a) :: todo, m, l =>
    match decide (i < n), a, m.pc i with
    | false, _, _ => none
    | true, none, .walk .idle => sched P n todo m l
    | true, a, _ =>
      match mstep P n m i (match a with | some op => .start op | none => .go) with
      | .ok m' ev => sched P n todo m' (ev.map (fun e => (e, others n m i)) ++ l)
      | _ => none

theorem sched_exec {P : Plat} {n : Nat} : ∀ (c : List (Nat × Option Op)) {m m' : M} {l l' : List (Ev × Bool)},
    Exec P n m l → sched P n c m l = some (m', l') → Exec P n m' l' := by
  intro c
  induction c with
  | nil => intro m m' l l' x e; unfold sched at e; cases e; exact x
  | cons a c ih =>
    obtain ⟨i, a⟩ := a
    intro m m' l l' x e
    unfold sched at e
    split at e
    · cases e
    · exact ih x e
    · have hi : i < n := of_decide_eq_true (by assumption)
      split at e
      · rename_i hs; exact ih (.step x hi hs) e
      · cases e

namespace Ex

open Rmm.Demo

/-- CPU `i` runs `op` to its end while the others stand still. -/
def whole (i : Nat) (op : Op) : List (Nat × Option Op) := (i, some op) :: List.replicate 24 (i, none)

/-- `k` steps of CPU `i`. -/
def go_ (i k : Nat) : List (Nat × Option Op) := List.replicate k (i, none)

theorem exec {c : List (Nat × Option Op)} {p : M × List (Ev × Bool) → Bool}
    (h : (sched plat 2 c ⟨boot, fun _ => .idle⟩ []).any p = true) :
    ∃ m l, Exec plat 2 m l ∧ p (m, l) = true := by
  cases hs : sched plat 2 c ⟨boot, fun _ => .idle⟩ [] with
  | none => rw [hs] at h; cases h
  | some x =>
    obtain ⟨m, l⟩ := x
    rw [hs] at h
    exact ⟨m, l, sched_exec c (.init boot_init) hs, h⟩

def prep : List (Nat × Option Op) := (delegates 16 2).flatMap (whole 0)

/-- Root 18 has not been delegated: this REALM_CREATE fails. -/
def opA : Op := .realmCreate (G 17) (G 1) (rparams (G 18) 7)

/-- A REALM_CREATE that has all it needs. -/
def opB : Op := .realmCreate (G 16) (G 2) (rparams (G 17) 7)

/-- CPU 1 runs `opB` while CPU 0 is in `opA`, which has reserved the same VMID. -/
def clash : List (Nat × Option Op) := prep ++ [(0, some opA)] ++ go_ 0 1 ++ whole 1 opB ++ go_ 0 4

def isIdle : Pc → Bool
  | .walk .idle => true
  | _ => false

theorem isIdle_iff {p : Pc} : isIdle p = true ↔ p = .idle := by
  cases p with
  | walk q => cases q <;> simp [isIdle]
  | _ => simp [isIdle]

theorem isIdle_life {p : Pc} (h : isIdle p = true) : p.life = false := by
  rw [isIdle_iff] at h; rw [h]; rfl

/-- The statuses of the points, latest first, and whether other CPUs were inside one of the four
commands. -/
def codes (l : List (Ev × Bool)) : List (Nat × Bool) := (pts l).map fun x => (x.2.1.status, x.2.2)

/-- A realm (16, root 17) and granules for two RECs (32 and 64). -/
def prep2 : List (Nat × Option Op) := (mkRealm ++ delegates 32 17 ++ delegates 64 17).flatMap (whole 0)

def rec0 : Op := .recCreate (G 16) (G 32) (G 1) (recparams 0 (G 33))
def rec1 : Op := .recCreate (G 16) (G 64) (G 1) (recparams 1 (G 65))

/-- Both CPUs create a REC; CPU 1 begins later and has taken three granules when CPU 0 is done. -/
def both : List (Nat × Option Op) := prep2 ++ [(0, some rec0)] ++ go_ 0 5 ++ [(1, some rec1)] ++ go_ 1 3

def bothEnd : List (Nat × Option Op) := both ++ go_ 0 20 ++ go_ 1 20

/-- Then both are destroyed at the same time; CPU 0 has freed two granules, CPU 1 has only its
reference left. -/
def dying : List (Nat × Option Op) :=
  bothEnd ++ [(0, some (.recDestroy (G 32)))] ++ go_ 0 2 ++ [(1, some (.recDestroy (G 64)))] ++ go_ 1 17

/-- The realm cannot be destroyed as long as a reference is left. -/
def early : List (Nat × Option Op) := dying ++ go_ 0 20 ++ whole 0 (.realmDestroy (G 16))

def dyingEnd : List (Nat × Option Op) := early ++ go_ 1 1

/-- REALM_DESTROY of an empty realm, with its VMID already free and its descriptor still there. -/
def gone : List (Nat × Option Op) :=
  prep ++ whole 0 opB ++ [(0, some (.realmDestroy (G 16)))] ++ go_ 0 2

/-- The parameter page is delegated while REALM_CREATE is under way. -/
def pageGone : List (Nat × Option Op) :=
  prep ++ [(0, some opB)] ++ go_ 0 1 ++ whole 1 (.granuleDelegate (G 2)) ++ go_ 0 3

/-- An auxiliary granule goes away under a REC_CREATE that has taken one. -/
def auxGone : List (Nat × Option Op) :=
  prep2 ++ [(0, some rec0)] ++ go_ 0 1 ++ whole 1 (.granuleUndelegate (G 34))

end Ex

open Rmm.Demo Ex

/-- Both REC_CREATEs are under way, and both have taken granules. -/
example : ∃ m l, Exec plat 2 m l ∧ (m.s.st (G 33) = .recAux ∧ m.s.st (G 65) = .recAux ∧
    (m.pc 0).life = true ∧ (m.pc 1).life = true) := by
  obtain ⟨m, l, h1, h2⟩ := exec (c := both)
    (p := fun x => decide (x.1.s.st (G 33) = .recAux ∧ x.1.s.st (G 65) = .recAux ∧
      (x.1.pc 0).life = true ∧ (x.1.pc 1).life = true)) (by decide +kernel)
  exact ⟨m, l, h1, of_decide_eq_true h2⟩

/-- Both succeed: the hypotheses of C81_quiet and C81_success are met. -/
example : ∃ m l, Exec plat 2 m l ∧ (∀ i < 2, (m.pc i).life = false) ∧
    (codes l).take 2 = [(0, false), (0, true)] ∧ m.s.rc (G 16) = 2 := by
  obtain ⟨m, l, h1, h2⟩ := exec (c := bothEnd)
    (p := fun x => decide (((x.1.pc 0).life = false ∧ (x.1.pc 1).life = false) ∧
      (codes x.2).take 2 = [(0, false), (0, true)] ∧ x.1.s.rc (G 16) = 2)) (by decide +kernel)
  obtain ⟨h3, h4⟩ := of_decide_eq_true h2
  refine ⟨m, l, h1, fun i hi => ?_, h4⟩
  obtain rfl | rfl : i = 0 ∨ i = 1 := by omega
  · exact h3.1
  · exact h3.2

/-- Two REC_DESTROYs whose effects are decided: the memory still has granules and references
that the commands run one after the other no longer have. -/
example : ∃ m l, Exec plat 2 m l ∧ ((codes l).take 2 = [(0, true), (0, false)] ∧ m.s.rc (G 16) = 2 ∧
    m.s.st (G 32) = .recd ∧ m.s.st (G 64) = .delegated ∧ m.s.st (G 33) = .delegated ∧ m.s.st (G 48) = .recAux) := by
  obtain ⟨m, l, h1, h2⟩ := exec (c := dying)
    (p := fun x => decide ((codes x.2).take 2 = [(0, true), (0, false)] ∧ x.1.s.rc (G 16) = 2 ∧
      x.1.s.st (G 32) = .recd ∧ x.1.s.st (G 64) = .delegated ∧ x.1.s.st (G 33) = .delegated ∧
      x.1.s.st (G 48) = .recAux)) (by decide +kernel)
  exact ⟨m, l, h1, of_decide_eq_true h2⟩

/-- The same with REALM_DESTROY: the VMID is free, the descriptor is still there. -/
example : ∃ m l, Exec plat 2 m l ∧ (m.s.st (G 16) = .rd ∧ m.s.st (G 17) = .rtt ∧ m.s.vmid 7 = false) := by
  obtain ⟨m, l, h1, h2⟩ := exec (c := gone)
    (p := fun x => decide (x.1.s.st (G 16) = .rd ∧ x.1.s.st (G 17) = .rtt ∧ x.1.s.vmid 7 = false)) (by decide +kernel)
  exact ⟨m, l, h1, of_decide_eq_true h2⟩

/-- Two REC_CREATEs whose steps bring both to their end. -/
example : ∃ m l m', Exec plat 2 m l ∧ m.pc 0 ≠ .idle ∧ Goes plat 2 1 m m' := by
  obtain ⟨m, l, h1, h2⟩ := exec (c := both)
    (p := fun x => (x.1.pc 0).life && match go plat 2 x.1 0 with | .ok _ _ => true | _ => false) (by decide +kernel)
  rw [Bool.and_eq_true] at h2
  have h3 := h2.2
  dsimp only at h3
  split at h3
  · rename_i m' d e
    refine ⟨m, l, m', h1, fun hh => ?_, .step .refl (by omega) e⟩
    have := h2.1
    dsimp only at this
    rw [hh] at this
    cases this
  · cases h3

/-- The clause about other CPUs in `Done` is needed: two REALM_CREATEs with the same VMID both
fail, though the second one succeeds whenever it runs alone, before or after the first. -/
theorem C81_spurious_failure : ∃ m0 l0 m1 l1, Exec plat 2 m0 l0 ∧ Exec plat 2 m1 l1 ∧
    (∀ i < 2, m0.pc i = .idle ∧ m1.pc i = .idle) ∧
    codes l1 = [(errInput.status, false), (errInput.status, true)] ++ codes l0 ∧
    ((step plat m0.s opB).map (·.2.status)) = some 0 ∧
    (((step plat m0.s opA).bind fun x => step plat x.1 opB).map (·.2.status)) = some 0 := by
  have h : ((sched plat 2 prep ⟨boot, fun _ => .idle⟩ []).any fun x =>
      (sched plat 2 clash ⟨boot, fun _ => .idle⟩ []).any fun y =>
        decide (((isIdle (x.1.pc 0) = true ∧ isIdle (y.1.pc 0) = true) ∧
            (isIdle (x.1.pc 1) = true ∧ isIdle (y.1.pc 1) = true)) ∧
          codes y.2 = [(errInput.status, false), (errInput.status, true)] ++ codes x.2 ∧
          ((step plat x.1.s opB).map (·.2.status)) = some 0 ∧
          (((step plat x.1.s opA).bind fun z => step plat z.1 opB).map (·.2.status)) = some 0)) = true := by
    decide +kernel
  obtain ⟨m0, l0, x0, h⟩ := exec h
  obtain ⟨m1, l1, x1, h⟩ := exec h
  obtain ⟨h1, h2, h3, h4⟩ := of_decide_eq_true h
  simp only [isIdle_iff] at h1
  refine ⟨m0, l0, m1, l1, x0, x1, fun i hi => ?_, h2, h3, h4⟩
  obtain rfl | rfl : i = 0 ∨ i = 1 := by omega
  · exact h1.1
  · exact h1.2

/-- A REALM_DESTROY fails because a REC_DESTROY that is over for everybody else has still to drop
its reference; once that is done it succeeds. -/
theorem C81_late_reference : ∃ m l, Exec plat 2 m l ∧ m.pc 0 = .idle ∧
    (codes l).take 3 = [((errRealm 0).status, true), (0, true), (0, false)] ∧
    ∃ rd, m.pc 1 = .kPut (G 64) rd := by
  obtain ⟨m, l, h1, h2⟩ := exec (c := early)
    (p := fun x => decide (isIdle (x.1.pc 0) = true ∧
      (codes x.2).take 3 = [((errRealm 0).status, true), (0, true), (0, false)]) &&
      (match x.1.pc 1 with | .kPut r _ => decide (r = G 64) | _ => false)) (by decide +kernel)
  rw [Bool.and_eq_true, decide_eq_true_eq] at h2
  refine ⟨m, l, h1, isIdle_iff.mp h2.1.1, h2.1.2, ?_⟩
  have h3 := h2.2
  dsimp only at h3
  split at h3
  · rename_i r rd e
    rw [of_decide_eq_true h3] at e
    exact ⟨rd, e⟩
  · cases h3

/-- `Made` is needed in `Done`: REALM_CREATE succeeds though its parameter page has been
delegated since it was read; the atomic command fails in such a memory. -/
theorem C81_page_read_before : (∃ m l, Exec plat 2 m l ∧ (codes l).take 2 = [(0, false), (0, true)] ∧
    m.s.st (G 16) = .rd ∧ m.s.st (G 2) = .delegated) ∧
    ∀ s, s.st (G 2) = .delegated → step plat s opB = some (s, errInput) := by
  refine ⟨?_, fun s hs => by simp [step, realmCreate, opB, lk, hs]⟩
  obtain ⟨m, l, h1, h2⟩ := exec (c := pageGone)
    (p := fun x => decide ((codes x.2).take 2 = [(0, false), (0, true)] ∧
      x.1.s.st (G 16) = .rd ∧ x.1.s.st (G 2) = .delegated)) (by decide +kernel)
  exact ⟨m, l, h1, of_decide_eq_true h2⟩

/-- The second case of C81_assert happens. -/
theorem C81_double_unlock : ∃ m l op, Exec plat 2 m l ∧ mstep plat 2 m 0 .go = .fail op ∧
    m.s.st (G 33) = .recAux ∧ m.s.st (G 34) = .ns := by
  obtain ⟨m, l, h1, h2⟩ := exec (c := auxGone)
    (p := fun x => decide (x.1.s.st (G 33) = .recAux ∧ x.1.s.st (G 34) = .ns) &&
      (match mstep plat 2 x.1 0 .go with | .fail _ => true | _ => false)) (by decide +kernel)
  rw [Bool.and_eq_true, decide_eq_true_eq] at h2
  have h3 := h2.2
  dsimp only at h3
  split at h3
  · rename_i op e
    exact ⟨m, l, op, h1, e, h2.1⟩
  · cases h3

end Verif.Life
