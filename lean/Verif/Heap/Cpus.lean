import Verif.Heap.Props

/-!
# C78: one heap per REC, whichever CPU runs it

`ctx_per_cpu` of memory_alloc.c:61-75 and 368-398, its users attestation_utils.c:52-150 and `rec_run_loop`
(run.c:258-370), and the crypto library calling the allocator in between, on any number of CPUs.
-/

namespace Verif.HeapCpu

open Verif.Heap

variable {T R : Type} [DecidableEq T] [DecidableEq R]

/-- A heap: `init_ctx` with `mem_buf` (attestation_utils.c:45-50), or that of a REC (rec.h:184-210). -/
inductive Hp (R : Type) where
  | boot
  | ofRec (r : R)
  deriving DecidableEq

/-- Where a CPU is: `boot`: in `attestation_init` after the assignment; `run r k`: in REC_ENTER, with the reference to the
REC; `k = 0` before the heap is assigned, `1` while it is, `2` after. -/
inductive Pc (R : Type) where
  | idle
  | boot
  | run (r : R) (k : Fin 3)
  deriving DecidableEq

/-- The state. `heap p = none`: the context is zero (the granules of a new REC are, rec.c:204-250, and so is
`init_ctx`): nothing can be allocated (memory_alloc.c:149-151). `up`: boot is over and the host runs.
`refc`: the reference counts of the RECs. -/
structure St (T R : Type) where
  pc : T → Pc R
  ctx : T → Option (Hp R)
  refc : R → Nat
  heap : Hp R → Option (Heap × Live)
  inited : Bool
  up : Bool

/-- What the crypto library and the attestation code do with the heap. -/
inductive Op where
  /-- `mbedtls_memory_buffer_alloc_init`, over memory `m` -/
  | init (m : Nat → Nat)
  | calloc (n size : Nat)
  | free (p : Nat)
  | write (p i v : Nat)

inductive Act (T R : Type) where
  | bootAssign (t : T)
  | bootEnd (t : T) (ok : Bool)
  | enter (t : T) (r : R)
  | assign (t : T)
  | use (t : T) (o : Op)
  | unassign (t : T)
  | leave (t : T)
  | destroy (r : R)

/-- The result of a step: `off`: this CPU cannot do this now; `fails`: an assertion fails. -/
inductive Out (T R : Type) where
  | ok (s : St T R)
  | off
  | fails

def set {A B : Type} [DecidableEq A] (f : A → B) (a : A) (b : B) : A → B := fun x => if x = a then b else f x

/-- `buffer_alloc_ctx_assign`, memory_alloc.c:368-386: `none` is -EINVAL. -/
def ctxAssign (ctx : T → Option (Hp R)) (t : T) (p : Hp R) : Option (T → Option (Hp R)) :=
  if ctx t ≠ none then none else some (set ctx t (some p))

/-- `buffer_alloc_ctx_unassign`, memory_alloc.c:388-398: `none`: the assertion fails. -/
def ctxUnassign (ctx : T → Option (Hp R)) (t : T) : Option (T → Option (Hp R)) :=
  if ctx t = none then none else some (set ctx t none)

/-- One operation on a heap. `B p` is the buffer of the heap `p`; `allowed`: `attestation_heap_ctx_init`
(attestation_utils.c:120-133) does nothing if `attest_initialized` is not set. The library frees only what it has
allocated from this heap, and writes only into that. -/
def opOn (b : Nat × Nat) (allowed : Bool) (x : Option (Heap × Live)) : Op → Option (Option (Option (Heap × Live)))
  | .init m => if allowed then some (some (some (init m b.1 b.2, fun _ => 0))) else some (some x)
  | .calloc n size =>
    if n < W64 ∧ size < W64 then
      match x with
      | none => some (some none)
      | some (h, l) =>
        match calloc h n size with
        | none => none
        | some (h', p) => some (some (some (h', if p = 0 then l else upd l p (n * size))))
    else some none
  | .free p =>
    match x with
    | none => some none
    | some (h, l) =>
      if l p = 0 then some none
      else
        match free h p with
        | none => none
        | some h' => some (some (some (h', upd l p 0)))
  | .write p i v =>
    match x with
    | none => some none
    | some (h, l) => if i < l p ∧ v < 256 then some (some (some ({ h with mem := upd h.mem (p + i) v }, l))) else some none

/-- Is the CPU in code that may use the heap? -/
def Pc.uses : Pc R → Bool
  | .boot => true
  | .run _ k => k == 1
  | .idle => false

/-- One step. `t0` boots (rmm_main, init.c:70-126); `attestation_init` ends with the heap unassigned on all
paths (attestation_utils.c:52-118). REC_ENTER checks that the count is 0 and increments it under the lock of the
REC (runtime/rmi/run.c:186-228); the heap is assigned and unassigned in `rec_run_loop` (run.c:280, 365); the reference is
dropped at the end (runtime/rmi/run.c:333). REC_DESTROY needs a count of 0; the granules of a later REC are
zero. -/
def step (B : Hp R → Nat × Nat) (t0 : T) (s : St T R) : Act T R → Out T R
  | .bootAssign t =>
    if t = t0 ∧ s.up = false ∧ s.pc t = .idle then
      match ctxAssign s.ctx t .boot with
      | none => .ok { s with up := true }
      | some c => .ok { s with ctx := c, pc := set s.pc t .boot }
    else .off
  | .bootEnd t ok =>
    if s.pc t = .boot then
      match ctxUnassign s.ctx t with
      | none => .fails
      | some c => .ok { s with ctx := c, pc := set s.pc t .idle, inited := ok, up := true }
    else .off
  | .enter t r =>
    if s.up = true ∧ s.pc t = .idle ∧ s.refc r = 0 then
      .ok { s with refc := set s.refc r (s.refc r + 1), pc := set s.pc t (.run r 0) }
    else .off
  | .assign t =>
    match s.pc t with
    | .run r 0 =>
      match ctxAssign s.ctx t (.ofRec r) with
      | none => .fails
      | some c => .ok { s with ctx := c, pc := set s.pc t (.run r 1) }
    | _ => .off
  | .use t o =>
    if (s.pc t).uses then
      match s.ctx t with
      | none => .fails
      | some p =>
        match opOn (B p) (s.inited || s.pc t = .boot) (s.heap p) o with
        | none => .fails
        | some none => .off
        | some (some x) => .ok { s with heap := set s.heap p x }
    else .off
  | .unassign t =>
    match s.pc t with
    | .run r 1 =>
      match ctxUnassign s.ctx t with
      | none => .fails
      | some c => .ok { s with ctx := c, pc := set s.pc t (.run r 2) }
    | _ => .off
  | .leave t =>
    match s.pc t with
    | .run r 2 => .ok { s with refc := set s.refc r (s.refc r - 1), pc := set s.pc t .idle }
    | _ => .off
  | .destroy r => if s.refc r = 0 then .ok { s with heap := set s.heap (.ofRec r) none } else .off

/-- All states of a system, from reset. -/
inductive Sys (B : Hp R → Nat × Nat) (t0 : T) : St T R → Prop where
  | reset : Sys B t0 ⟨fun _ => .idle, fun _ => none, fun _ => 0, fun _ => none, false, false⟩
  | step {s a s'} : Sys B t0 s → step B t0 s a = .ok s' → Sys B t0 s'

/-! ## The invariant -/

/-- Which heap a CPU at this place has. -/
def Pc.has : Pc R → Option (Hp R)
  | .boot => some .boot
  | .run r k => if k = 1 then some (.ofRec r) else none
  | .idle => none

structure Inv (B : Hp R → Nat × Nat) (t0 : T) (s : St T R) : Prop where
  ctx : ∀ t, s.ctx t = (s.pc t).has
  one : ∀ t r k, s.pc t = .run r k → s.refc r = 1 ∧ s.up = true
  uniq : ∀ t u r k j, s.pc t = .run r k → s.pc u = .run r j → t = u
  back : ∀ r, s.refc r ≠ 0 → ∃ t k, s.pc t = .run r k
  boot : ∀ t, s.pc t = .boot → t = t0 ∧ s.up = false
  reach : ∀ p h l, s.heap p = some (h, l) → Reach (B p).1 (B p).2 h l

theorem opOn_reach {b : Nat × Nat} {al : Bool} {x : Option (Heap × Live)} {o : Op} {y : Option (Heap × Live)}
    (hx : ∀ h l, x = some (h, l) → Reach b.1 b.2 h l) (ho : opOn b al x o = some (some y)) :
    ∀ h l, y = some (h, l) → Reach b.1 b.2 h l := by
  intro h l hy
  subst hy
  cases o with
  | init m =>
    simp only [opOn] at ho
    split at ho
    · cases ho; exact .init m
    · cases ho; exact hx _ _ rfl
  | calloc n size =>
    simp only [opOn] at ho
    split at ho
    · rename_i hw
      split at ho
      · cases ho
      · rename_i h0 l0
        split at ho
        · cases ho
        · rename_i h' p hc
          cases ho
          split
          · rename_i hp; subst hp; exact .null n size (hx _ _ rfl) hw.1 hw.2 hc
          · rename_i hp; exact .calloc n size (hx _ _ rfl) hw.1 hw.2 hc hp
    · cases ho
  | free p =>
    simp only [opOn] at ho
    split at ho
    · cases ho
    · rename_i h0 l0
      split at ho
      · cases ho
      · rename_i hl
        split at ho
        · cases ho
        · rename_i h' hf
          cases ho
          exact .free p (hx _ _ rfl) hl hf
  | write p i v =>
    simp only [opOn] at ho
    split at ho
    · cases ho
    · rename_i h0 l0
      split at ho
      · rename_i hi
        cases ho
        exact .write p i v (hx _ _ rfl) hi.1 hi.2
      · cases ho

/-- An operation on a heap that has been used properly never fails. -/
theorem opOn_ok {b : Nat × Nat} {al : Bool} {x : Option (Heap × Live)} (o : Op) (hb : BufOk b.1 b.2)
    (hx : ∀ h l, x = some (h, l) → Reach b.1 b.2 h l) : opOn b al x o ≠ none := by
  cases o with
  | init m => simp only [opOn]; split <;> simp
  | calloc n size =>
    simp only [opOn]
    split
    · rename_i hw
      cases x with
      | none => simp
      | some v =>
        obtain ⟨h, l⟩ := v
        obtain ⟨h', p, e⟩ := (C38_safe hb (hx h l rfl)).1 n size hw.1 hw.2
        simp [e]
    · simp
  | free p =>
    simp only [opOn]
    cases x with
    | none => simp
    | some v =>
      obtain ⟨h, l⟩ := v
      simp only
      split
      · simp
      · rename_i hl
        obtain ⟨h', e⟩ := (C38_safe hb (hx h l rfl)).2 p hl
        simp [e]
  | write p i v =>
    simp only [opOn]
    cases x with
    | none => simp
    | some v => simp only; split <;> simp

omit [DecidableEq R] in
theorem assign_eq {ctx : T → Option (Hp R)} {t : T} {p : Hp R} (h : ctx t = none) :
    ctxAssign ctx t p = some (set ctx t (some p)) := by simp [ctxAssign, h]

omit [DecidableEq R] in
theorem unassign_eq {ctx : T → Option (Hp R)} {t : T} {p : Hp R} (h : ctx t = some p) :
    ctxUnassign ctx t = some (set ctx t none) := by simp [ctxUnassign, h]

theorem fin3 (k : Fin 3) : k = 0 ∨ k = 1 ∨ k = 2 := by revert k; decide

/-- No step fails an assertion, and every step keeps the invariant. -/
theorem inv_step {B : Hp R → Nat × Nat} {t0 : T} (hB : ∀ p, BufOk (B p).1 (B p).2) {s : St T R} (i : Inv B t0 s)
    (a : Act T R) : step B t0 s a ≠ .fails ∧ ∀ s', step B t0 s a = .ok s' → Inv B t0 s' := by
  obtain ⟨i1, i2, i3, i4, i5, i6⟩ := i
  cases a with
  | bootAssign t =>
    simp only [step]
    split
    · rename_i hc
      obtain ⟨rfl, hu, hp⟩ := hc
      have hn : s.ctx t = none := by rw [i1, hp]; rfl
      rw [assign_eq hn]
      refine ⟨nofun, ?_⟩
      rintro _ ⟨⟩
      have hb := fun u r k (h : s.pc u = .run r k) => (i2 u r k h).2
      constructor <;> simp only [set]
      · intro u; by_cases h : u = t
        · simp [h, Pc.has]
        · simp [h, i1]
      · intro u r k h; by_cases e : u = t <;> simp [e] at h; exact i2 u r k h
      · intro u v r k j h1 h2
        by_cases e : u = t <;> simp [e] at h1
        by_cases e' : v = t <;> simp [e'] at h2
        exact i3 u v r k j h1 h2
      · intro r hr
        obtain ⟨u, k, h⟩ := i4 r hr
        exact ⟨u, k, by rw [if_neg (by rintro rfl; rw [hp] at h; cases h)]; exact h⟩
      · intro u h; by_cases e : u = t
        · exact ⟨e, hu⟩
        · simp [e] at h; exact i5 u h
      · exact i6
    · exact ⟨nofun, nofun⟩
  | bootEnd t ok =>
    simp only [step]
    split
    · rename_i hp
      have hn : s.ctx t = some .boot := by rw [i1, hp]; rfl
      rw [unassign_eq hn]
      refine ⟨nofun, ?_⟩
      rintro _ ⟨⟩
      have hu := (i5 t hp).2
      have hno : ∀ u r k, s.pc u ≠ .run r k := fun u r k h => by
        have := (i2 u r k h).2; rw [hu] at this; cases this
      constructor <;> simp only [set]
      · intro u; by_cases h : u = t
        · simp [h, Pc.has]
        · simp [h, i1]
      · intro u r k h; by_cases e : u = t <;> simp [e] at h; exact absurd h (hno u r k)
      · intro u v r k j h1 h2
        by_cases e : u = t <;> simp [e] at h1
        exact absurd h1 (hno u r k)
      · intro r hr
        obtain ⟨u, k, h⟩ := i4 r hr
        exact absurd h (hno u r k)
      · intro u h; by_cases e : u = t
        · simp [e] at h
        · simp [e] at h
          exact absurd ((i5 u h).1.trans (i5 t hp).1.symm) e
      · exact i6
    · exact ⟨nofun, nofun⟩
  | enter t r =>
    simp only [step]
    split
    · rename_i hc
      obtain ⟨hu, hp, hr⟩ := hc
      refine ⟨nofun, ?_⟩
      rintro _ ⟨⟩
      have hno : ∀ u k, s.pc u ≠ .run r k := fun u k h => by
        have := (i2 u r k h).1; omega
      constructor <;> simp only [set]
      · intro u; by_cases h : u = t
        · simp [h, i1, hp, Pc.has]
        · simp [h, i1]
      · intro u q k h; by_cases e : u = t
        · simp [e] at h; obtain ⟨rfl, -⟩ := h; simp [hr, hu]
        · simp [e] at h
          have hq : q ≠ r := by rintro rfl; exact hno u k h
          simp [hq]; exact i2 u q k h
      · intro u v q k j h1 h2
        by_cases e : u = t <;> simp [e] at h1 <;> by_cases e' : v = t <;> simp [e'] at h2
        · rw [e, e']
        · obtain ⟨rfl, -⟩ := h1; exact absurd h2 (hno v j)
        · obtain ⟨rfl, -⟩ := h2; exact absurd h1 (hno u k)
        · exact i3 u v q k j h1 h2
      · intro q hq
        by_cases e : q = r
        · exact ⟨t, 0, by simp [e]⟩
        · simp [e] at hq
          obtain ⟨u, k, h⟩ := i4 q hq
          exact ⟨u, k, by rw [if_neg (by rintro rfl; rw [hp] at h; cases h)]; exact h⟩
      · intro u h; by_cases e : u = t
        · simp [e] at h
        · simp [e] at h; exact i5 u h
      · exact i6
    · exact ⟨nofun, nofun⟩
  | assign t =>
    simp only [step]
    split
    · rename_i r hp
      have hn : s.ctx t = none := by rw [i1, hp]; rfl
      rw [assign_eq hn]
      refine ⟨nofun, ?_⟩
      rintro _ ⟨⟩
      constructor <;> simp only [set]
      · intro u; by_cases h : u = t
        · simp [h, Pc.has]
        · simp [h, i1]
      · intro u q k h; by_cases e : u = t
        · simp [e] at h; obtain ⟨rfl, -⟩ := h; exact i2 t r 0 hp
        · simp [e] at h; exact i2 u q k h
      · intro u v q k j h1 h2
        by_cases e : u = t <;> simp [e] at h1 <;> by_cases e' : v = t <;> simp [e'] at h2
        · rw [e, e']
        · obtain ⟨rfl, -⟩ := h1; rw [e]; exact i3 t v r 0 j hp h2
        · obtain ⟨rfl, -⟩ := h2; rw [e']; exact i3 u t r k 0 h1 hp
        · exact i3 u v q k j h1 h2
      · intro q hq
        obtain ⟨u, k, h⟩ := i4 q hq
        by_cases e : u = t
        · rw [e, hp] at h; cases h; exact ⟨t, 1, by simp⟩
        · exact ⟨u, k, by simp [e, h]⟩
      · intro u h; by_cases e : u = t
        · simp [e] at h
        · simp [e] at h; exact i5 u h
      · exact i6
    · exact ⟨nofun, nofun⟩
  | use t o =>
    simp only [step]
    split
    · rename_i hus
      obtain ⟨p, hp⟩ : ∃ p, s.ctx t = some p := by
        rw [i1]
        cases hq : s.pc t with
        | idle => rw [hq] at hus; cases hus
        | boot => exact ⟨_, rfl⟩
        | run r k => rw [hq] at hus; simp only [Pc.uses, beq_iff_eq] at hus; exact ⟨.ofRec r, by simp [Pc.has, hus]⟩
      rw [hp]
      simp only
      have hne := opOn_ok (al := s.inited || decide (s.pc t = .boot)) o (hB p) (fun h l => i6 p h l)
      split
      · rename_i h; exact absurd h hne
      · exact ⟨nofun, nofun⟩
      · rename_i x hx
        refine ⟨nofun, ?_⟩
        rintro _ ⟨⟩
        refine ⟨i1, i2, i3, i4, i5, ?_⟩
        intro q h l hq
        simp only [set] at hq
        by_cases e : q = p
        · rw [if_pos e] at hq
          rw [e]
          exact opOn_reach (fun h l => i6 p h l) hx h l hq
        · rw [if_neg e] at hq; exact i6 q h l hq
    · exact ⟨nofun, nofun⟩
  | unassign t =>
    simp only [step]
    split
    · rename_i r hp
      have hn : s.ctx t = some (.ofRec r) := by rw [i1, hp]; rfl
      rw [unassign_eq hn]
      refine ⟨nofun, ?_⟩
      rintro _ ⟨⟩
      constructor <;> simp only [set]
      · intro u; by_cases h : u = t
        · simp [h, Pc.has]
        · simp [h, i1]
      · intro u q k h; by_cases e : u = t
        · simp [e] at h; obtain ⟨rfl, -⟩ := h; exact i2 t r 1 hp
        · simp [e] at h; exact i2 u q k h
      · intro u v q k j h1 h2
        by_cases e : u = t <;> simp [e] at h1 <;> by_cases e' : v = t <;> simp [e'] at h2
        · rw [e, e']
        · obtain ⟨rfl, -⟩ := h1; rw [e]; exact i3 t v r 1 j hp h2
        · obtain ⟨rfl, -⟩ := h2; rw [e']; exact i3 u t r k 1 h1 hp
        · exact i3 u v q k j h1 h2
      · intro q hq
        obtain ⟨u, k, h⟩ := i4 q hq
        by_cases e : u = t
        · rw [e, hp] at h; cases h; exact ⟨t, 2, by simp⟩
        · exact ⟨u, k, by simp [e, h]⟩
      · intro u h; by_cases e : u = t
        · simp [e] at h
        · simp [e] at h; exact i5 u h
      · exact i6
    · exact ⟨nofun, nofun⟩
  | leave t =>
    simp only [step]
    split
    · rename_i r hp
      refine ⟨nofun, ?_⟩
      rintro _ ⟨⟩
      have hr := (i2 t r 2 hp).1
      have hno : ∀ u k, u ≠ t → s.pc u ≠ .run r k := fun u k hu h => hu (i3 u t r k 2 h hp)
      constructor <;> simp only [set]
      · intro u; by_cases h : u = t
        · simp [h, i1, hp, Pc.has]
        · simp [h, i1]
      · intro u q k h; by_cases e : u = t
        · simp [e] at h
        · simp [e] at h
          have hq : q ≠ r := by rintro rfl; exact hno u k e h
          simp [hq]; exact i2 u q k h
      · intro u v q k j h1 h2
        by_cases e : u = t <;> simp [e] at h1 <;> by_cases e' : v = t <;> simp [e'] at h2
        exact i3 u v q k j h1 h2
      · intro q hq
        by_cases e : q = r
        · simp [e, hr] at hq
        · simp [e] at hq
          obtain ⟨u, k, h⟩ := i4 q hq
          exact ⟨u, k, by rw [if_neg (by rintro rfl; rw [hp] at h; cases h; exact e rfl)]; exact h⟩
      · intro u h; by_cases e : u = t
        · simp [e] at h
        · simp [e] at h; exact i5 u h
      · exact i6
    · exact ⟨nofun, nofun⟩
  | destroy r =>
    simp only [step]
    split
    · refine ⟨nofun, ?_⟩
      rintro _ ⟨⟩
      refine ⟨i1, i2, i3, i4, i5, ?_⟩
      intro q h l hq
      simp only [set] at hq
      split at hq
      · cases hq
      · exact i6 q h l hq
    · exact ⟨nofun, nofun⟩

theorem sys_inv {B : Hp R → Nat × Nat} {t0 : T} (hB : ∀ p, BufOk (B p).1 (B p).2) {s : St T R} (h : Sys B t0 s) :
    Inv B t0 s := by
  induction h with
  | reset =>
    constructor <;> simp [Pc.has]
  | step _ h2 ih => exact (inv_step hB ih _).2 _ h2

/-! ## The theorems -/

/-- **C78.** Whatever the CPUs do, no assertion about the assignment of heaps fails, and none in the allocator. -/
theorem C78_no_assert {B : Hp R → Nat × Nat} {t0 : T} (hB : ∀ p, BufOk (B p).1 (B p).2) {s : St T R} (h : Sys B t0 s)
    (a : Act T R) : step B t0 s a ≠ .fails := (inv_step hB (sys_inv hB h) a).1

/-- **C78.** No two CPUs have the same heap, so that the accesses of one operation are not mixed with those of
another on the same heap; a CPU that uses a heap uses that of the REC it runs, and no other CPU runs this REC;
a CPU that does not run a REC has no heap. -/
theorem C78_exclusive {B : Hp R → Nat × Nat} {t0 : T} (hB : ∀ p, BufOk (B p).1 (B p).2) {s : St T R} (h : Sys B t0 s) :
    (∀ t u p, s.ctx t = some p → s.ctx u = some p → t = u) ∧
    (∀ t r, s.ctx t = some (.ofRec r) → s.pc t = .run r 1 ∧ ∀ u k, s.pc u = .run r k → u = t) ∧
    (∀ t, s.pc t = .idle → s.ctx t = none) ∧
    (s.up = true → ∀ t, s.ctx t ≠ some .boot) := by
  have i := sys_inv hB h
  have hr : ∀ t r, s.ctx t = some (.ofRec r) → s.pc t = .run r 1 := by
    intro t r ht
    rw [i.ctx] at ht
    cases hp : s.pc t with
    | idle => rw [hp] at ht; cases ht
    | boot => rw [hp] at ht; cases ht
    | run q k =>
      rw [hp] at ht
      simp only [Pc.has] at ht
      split at ht
      · rename_i hk; cases ht; rw [hk]
      · cases ht
  have hb : ∀ t, s.ctx t = some .boot → s.pc t = .boot := by
    intro t ht
    rw [i.ctx] at ht
    cases hp : s.pc t with
    | idle => rw [hp] at ht; cases ht
    | boot => rfl
    | run q k =>
      rw [hp] at ht
      simp only [Pc.has] at ht
      split at ht <;> cases ht
  refine ⟨?_, ?_, ?_, ?_⟩
  · intro t u p h1 h2
    cases p with
    | boot => exact ((i.boot t (hb t h1)).1).trans ((i.boot u (hb u h2)).1).symm
    | ofRec r => exact i.uniq t u r 1 1 (hr t r h1) (hr u r h2)
  · intro t r ht
    exact ⟨hr t r ht, fun u k hu => i.uniq u t r k 1 hu (hr t r ht)⟩
  · intro t ht; rw [i.ctx, ht]; rfl
  · intro hu t ht
    have := (i.boot t (hb t ht)).2
    rw [hu] at this; cases this

/-- **C78.** Every heap is in a state that one client alone could have brought about (all of C38 applies to it), although the
REC moves from CPU to CPU. -/
theorem C78_sequential {B : Hp R → Nat × Nat} {t0 : T} (hB : ∀ p, BufOk (B p).1 (B p).2) {s : St T R} (h : Sys B t0 s)
    (p : Hp R) (x : Heap) (l : Live) (hx : s.heap p = some (x, l)) : Reach (B p).1 (B p).2 x l :=
  (sys_inv hB h).reach p x l hx

/-- **C78.** A step changes no heap but that of the REC which the CPU runs (or that of a REC that no CPU runs, when it is
destroyed). The heap from boot, which keeps the attestation key and the random number generators, does not
change any more when boot is over. -/
theorem C78_frame {B : Hp R → Nat × Nat} {t0 : T} (hB : ∀ p, BufOk (B p).1 (B p).2) {s s' : St T R} (h : Sys B t0 s)
    {a : Act T R} (hs : step B t0 s a = .ok s') :
    (∀ p, s'.heap p = s.heap p ∨ (∃ t o, a = .use t o ∧ s.ctx t = some p) ∨
      ∃ r, a = .destroy r ∧ p = .ofRec r ∧ ∀ t k, s.pc t ≠ .run r k) ∧
    (s.up = true → s'.heap .boot = s.heap .boot ∧ s'.up = true) := by
  have i := sys_inv hB h
  have hx := (C78_exclusive hB h).2.2.2
  cases a with
  | use t o =>
    simp only [step] at hs
    split at hs
    · split at hs
      · cases hs
      · rename_i p hp
        split at hs <;> cases hs
        refine ⟨fun q => ?_, fun hu => ⟨?_, hu⟩⟩
        · by_cases e : q = p
          · exact .inr (.inl ⟨t, o, rfl, by rw [hp, e]⟩)
          · exact .inl (by simp [set, e])
        · have : Hp.boot ≠ p := by rintro rfl; exact hx hu t hp
          simp [set, this]
    · cases hs
  | destroy r =>
    simp only [step] at hs
    split at hs
    · rename_i hr
      cases hs
      refine ⟨fun q => ?_, fun hu => ⟨by simp [set], hu⟩⟩
      by_cases e : q = .ofRec r
      · refine .inr (.inr ⟨r, rfl, e, fun t k hk => ?_⟩)
        have := (i.one t r k hk).1
        omega
      · exact .inl (by simp [set, e])
    · cases hs
  | bootAssign t =>
    simp only [step] at hs
    split at hs
    · split at hs <;> cases hs <;> exact ⟨fun _ => .inl rfl, fun hu => ⟨rfl, by simp_all⟩⟩
    · cases hs
  | bootEnd t ok =>
    simp only [step] at hs
    split at hs
    · split at hs <;> cases hs; exact ⟨fun _ => .inl rfl, fun hu => ⟨rfl, rfl⟩⟩
    · cases hs
  | enter t r =>
    simp only [step] at hs
    split at hs <;> cases hs; exact ⟨fun _ => .inl rfl, fun hu => ⟨rfl, hu⟩⟩
  | assign t =>
    simp only [step] at hs
    split at hs
    · split at hs <;> cases hs; exact ⟨fun _ => .inl rfl, fun hu => ⟨rfl, hu⟩⟩
    · cases hs
  | unassign t =>
    simp only [step] at hs
    split at hs
    · split at hs <;> cases hs; exact ⟨fun _ => .inl rfl, fun hu => ⟨rfl, hu⟩⟩
    · cases hs
  | leave t =>
    simp only [step] at hs
    split at hs <;> cases hs; exact ⟨fun _ => .inl rfl, fun hu => ⟨rfl, hu⟩⟩

/-! ## A concrete case -/

/-- Run a list of actions. -/
def runs (B : Hp R → Nat × Nat) (t0 : T) (s : St T R) : List (Act T R) → Option (St T R)
  | [] => some s
  | a :: as =>
    match step B t0 s a with
    | .ok s' => runs B t0 s' as
    | _ => none

theorem runs_sys {B : Hp R → Nat × Nat} {t0 : T} {s s' : St T R} {as : List (Act T R)} (h : Sys B t0 s)
    (hr : runs B t0 s as = some s') : Sys B t0 s' := by
  induction as generalizing s with
  | nil => cases hr; exact h
  | cons a as ih =>
    simp only [runs] at hr
    split at hr
    · rename_i s1 h1; exact ih (.step h h1) hr
    · cases hr

def demoB : Hp Bool → Nat × Nat
  | .boot => (0x1000, 0x400)
  | .ofRec _ => (0x8000, 0x400)

/-- Boot; CPU 0 runs the first REC and allocates; then CPU 1 runs it, allocates again, and CPU 0 meanwhile runs the
other REC, whose heap is at the same address of its own granules. -/
def demoActs : List (Act Bool Bool) :=
  [.bootAssign false, .use false (.init fun _ => 0), .use false (.calloc 1 100), .bootEnd false true,
   .enter false false, .assign false, .use false (.init fun _ => 0), .use false (.calloc 1 64), .unassign false, .leave false,
   .enter true false, .enter false true, .assign true, .assign false, .use true (.calloc 1 32),
   .use false (.init fun _ => 0), .use false (.calloc 1 16)]

example : (∀ p, BufOk (demoB p).1 (demoB p).2) ∧
    ((runs demoB false ⟨fun _ => .idle, fun _ => none, fun _ => 0, fun _ => none, false, false⟩ demoActs).map fun s =>
      ([(s.heap (.ofRec false)).map fun x => x.2 0x8040, (s.heap (.ofRec false)).map fun x => x.2 (0x8040 + 128),
        (s.heap (.ofRec true)).map fun x => x.2 0x8040, (s.heap .boot).map fun x => x.2 0x1040, some (s.refc false)],
       [s.ctx true, s.ctx false])) =
      some ([some 64, some 32, some 16, some 100, some 1], [some (.ofRec false), some (.ofRec true)]) := by
  refine ⟨fun p => ?_, by decide +kernel⟩
  rcases p with _ | (_ | _) <;> exact ⟨by decide, by decide, by decide⟩

end Verif.HeapCpu
