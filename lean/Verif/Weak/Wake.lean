import Verif.Weak.SpinProps

/-!
# How a CPU waits for the lock of a granule

granule_lock.h (lib/granule/include/aarch64) with the exclusive monitors and the event registers of
`Verif.Weak.Spin`. What the lock does to the data is in `Verif.Weak.Props`; here it is about waiting:
the descriptor is coherent and its atomics take effect in the order of execution. Any atomic on the
descriptor is a store, also one that changes the state or the reference count (`other`), and so is
the LDSETAH of a CPU that does not get the lock.
-/

namespace Verif.Wake

open Verif.Weak (upd)
open Verif.Conc

/-- The next instruction of a CPU. -/
inductive Pc where
  | idle
  | ldset
  /-- the first `tbz`, with the word that LDSETAH has loaded -/
  | tbz1 (w : Desc)
  | ldxr
  /-- the second `tbz`, with the word that LDXRH has loaded -/
  | tbz2 (w : Desc)
  | wfe
  | held
  deriving DecidableEq

/-- The CPU is in granule_bitlock_acquire. -/
def Pc.waits : Pc → Bool
  | .idle | .held => false
  | _ => true

structure St (T : Type) where
  word : Desc
  /-- the exclusive monitor is armed -/
  mon : T → Bool
  /-- the event register -/
  ev : T → Bool
  pc : T → Pc

variable {T : Type} [DecidableEq T]

/-- CPU `t` stores to the descriptor: the monitors of the others open, which is an event for them. -/
def St.store (s : St T) (t : T) (w : Desc) : St T :=
  { s with word := w, ev := fun u => s.ev u || (u ≠ t && s.mon u), mon := fun _ => false }

inductive Act (T : Type) where
  | call (t : T) | step (t : T) | release (t : T)
  | other (t : T) (w : Desc) | clear (t : T) | event (t : T)

/-- Is this an instruction of granule_bitlock_acquire on CPU `t`? -/
def Act.by (t : T) : Act T → Bool
  | .step u => u = t
  | _ => false

/-- One instruction of granule_bitlock_acquire (granule_lock.h:11-31); `none`: the CPU waits. `excl`:
the load of line 20 is exclusive, as it is in the code. -/
def insn (excl : Bool) (s : St T) (t : T) : Option (St T) :=
  match s.pc t with
  | .idle | .held => none
  /- line 18 -/
  | .ldset => some { s.store t (ldset s.word) with pc := upd s.pc t (.tbz1 s.word) }
  /- line 19 -/
  | .tbz1 w => some { s with pc := upd s.pc t (if locked w = false then .held else .ldxr) }
  /- line 20 -/
  | .ldxr => some { s with mon := if excl then upd s.mon t true else s.mon, pc := upd s.pc t (.tbz2 s.word) }
  /- line 21 -/
  | .tbz2 w => some { s with pc := upd s.pc t (if locked w = false then .ldset else .wfe) }
  /- lines 22 and 23 -/
  | .wfe => if s.ev t = true then some { s with ev := upd s.ev t false, pc := upd s.pc t .ldset } else none

def step (excl : Bool) (s : St T) : Act T → Option (St T)
  | .call t => if s.pc t = .idle then some { s with pc := upd s.pc t .ldset } else none
  | .step t => insn excl s t
  /- granule_bitlock_release (granule_lock.h:33-46) -/
  | .release t => if s.pc t = .held then some { s.store t (stclr s.word) with pc := upd s.pc t .idle } else none
  /- granule_set_state, atomic_granule_get, atomic_granule_put and so on, by any CPU that is not waiting:
  the lock bit stays -/
  | .other t w => if (s.pc t).waits = false ∧ locked w = locked s.word then some (s.store t w) else none
  /- the monitor opens for another reason -/
  | .clear t => some { s with mon := upd s.mon t false, ev := if s.mon t then upd s.ev t true else s.ev }
  /- another event -/
  | .event t => some { s with ev := upd s.ev t true }

def run (excl : Bool) (s : St T) : List (Act T) → Option (St T)
  | [] => some s
  | a :: as => (step excl s a).bind fun r => run excl r as

/-- An unlocked granule; the monitors and the event registers hold anything. -/
def init (w : Desc) (mon ev : T → Bool) : St T := { word := w, mon := mon, ev := ev, pc := fun _ => .idle }

/-- The CPU waits in WFE and nothing has woken it up. -/
def asleep (s : St T) (t : T) : Prop := s.pc t = .wfe ∧ s.ev t = false

/-- The CPU has the lock: it has seen the bit clear when it set it. -/
def Pc.has : Pc → Bool
  | .held => true
  | .tbz1 w => locked w = false
  | _ => false

/-- Who has the lock, and why those that wait will wake up. -/
structure Inv (s : St T) (o : Option T) : Prop where
  holder : ∀ t, (s.pc t).has = true ↔ o = some t
  word : locked s.word = true ↔ o ≠ none
  wfe : ∀ t, s.pc t = .wfe → s.ev t = true ∨ (s.mon t = true ∧ locked s.word = true)
  tbz2 : ∀ t w, s.pc t = .tbz2 w → locked w = true → s.ev t = true ∨ (s.mon t = true ∧ locked s.word = true)

omit [DecidableEq T] in
theorem inv_init (w : Desc) (mon ev : T → Bool) (h : locked w = false) : Inv (init w mon ev) none := by
  constructor <;> simp [init, Pc.has, h]

section
variable {s s' : St T} {o : Option T}

set_option hygiene false in
/-- Every clause of the invariant in turn. -/
macro "wake_crunch" : tactic => `(tactic| (
  constructor <;> (try simp only [St.store, upd] at *) <;>
  first
  | assumption
  | grind [Pc.has, Pc.waits, upd, locked_ldset, locked_stclr]))

theorem step_inv (i : Inv s o) {c : Act T} (h : step true s c = some s') : ∃ o', Inv s' o' := by
  obtain ⟨i1, i2, i3, i4⟩ := i
  cases c with
  | call t =>
    simp only [step] at h
    split at h <;> cases h
    exact ⟨o, by wake_crunch⟩
  | release t =>
    simp only [step] at h
    split at h <;> cases h
    exact ⟨none, by wake_crunch⟩
  | other t w =>
    simp only [step] at h
    split at h <;> cases h
    exact ⟨o, by wake_crunch⟩
  | clear t => simp only [step] at h; cases h; exact ⟨o, by wake_crunch⟩
  | event t => simp only [step] at h; cases h; exact ⟨o, by wake_crunch⟩
  | step t =>
    simp only [step, insn] at h
    split at h
    · cases h
    · cases h
    · cases h
      by_cases hl : locked s.word = true
      · exact ⟨o, by wake_crunch⟩
      · exact ⟨some t, by wake_crunch⟩
    · cases h; exact ⟨o, by wake_crunch⟩
    · cases h; exact ⟨o, by wake_crunch⟩
    · cases h; exact ⟨o, by wake_crunch⟩
    · split at h <;> cases h
      exact ⟨o, by wake_crunch⟩

theorem run_inv {cs : List (Act T)} (i : Inv s o) (h : run true s cs = some s') : ∃ o', Inv s' o' := by
  induction cs generalizing s o with
  | nil => simp only [run] at h; cases h; exact ⟨o, i⟩
  | cons c cs ih =>
    simp only [run, Option.bind_eq_some_iff] at h
    obtain ⟨s1, h1, h2⟩ := h
    obtain ⟨o1, i1⟩ := step_inv i h1
    exact ih i1 h2

/-- How many more instructions a CPU executes, at most, before it sets the lock bit that is clear. -/
def rankOf : Pc → Nat
  | .idle => 0
  | .ldset => 0
  | .tbz1 w => bif locked w then 3 else 0
  | .ldxr => 2
  | .tbz2 w => bif locked w then 2 else 1
  | .wfe => 1
  | .held => 0

theorem rank_step (i : Inv s o) (hw : locked s.word = false) {c : Act T} (h : step true s c = some s')
    (hw' : locked s'.word = false) (t : T) :
    rankOf (s'.pc t) + (if c.by t then 1 else 0) ≤ rankOf (s.pc t) := by
  have hno : ∀ u, (s.pc u).has = false := by
    intro u
    have h1 := i.holder u
    have h2 := i.word
    cases h3 : (s.pc u).has
    · rfl
    · rw [h1.1 h3] at h2
      simp [hw] at h2
  cases c with
  | call u =>
    simp only [step] at h
    split at h <;> cases h
    rename_i hp
    simp only [upd, Act.by]
    by_cases htu : t = u
    · subst htu; simp [hp, rankOf]
    · simp [htu]
  | release u =>
    simp only [step] at h
    split at h <;> cases h
    rename_i hp
    have := hno u
    rw [hp] at this
    cases this
  | other u w =>
    simp only [step] at h
    split at h <;> cases h
    simp [St.store, Act.by]
  | clear u => simp only [step] at h; cases h; simp [Act.by]
  | event u => simp only [step] at h; cases h; simp [Act.by]
  | step u =>
    have hu := hno u
    simp only [step, insn] at h
    split at h
    · cases h
    · cases h
    · cases h
      simp only [St.store, locked_ldset] at hw'
      cases hw'
    · rename_i w hp
      cases h
      rw [hp] at hu
      have hl : locked w = true := by simpa [Pc.has] using hu
      simp only [upd, Act.by]
      by_cases htu : t = u
      · subst htu; simp [hp, rankOf, hl]
      · simp [htu, Ne.symm htu]
    · rename_i hp
      cases h
      simp only [upd, Act.by]
      by_cases htu : t = u
      · subst htu; simp [hp, rankOf, hw]
      · simp [htu, Ne.symm htu]
    · rename_i w hp
      cases h
      simp only [upd, Act.by]
      by_cases htu : t = u
      · subst htu; cases hl : locked w <;> simp [hp, rankOf, hl]
      · simp [htu, Ne.symm htu]
    · rename_i hp
      split at h <;> cases h
      simp only [upd, Act.by]
      by_cases htu : t = u
      · subst htu; simp [hp, rankOf]
      · simp [htu, Ne.symm htu]

end

/-- A state that the machine can be in. -/
def Reach (s : St T) : Prop := ∃ w mon ev cs, locked w = false ∧ run true (init w mon ev) cs = some s

theorem Reach.inv {s : St T} (h : Reach s) : ∃ o, Inv s o := by
  obtain ⟨w, mon, ev, cs, hl, h⟩ := h
  exact run_inv (inv_init w mon ev hl) h

theorem Reach.step {s s' : St T} (h : Reach s) {c : Act T} (hs : step true s c = some s') : Reach s' := by
  obtain ⟨w, mon, ev, cs, hl, h⟩ := h
  refine ⟨w, mon, ev, cs ++ [c], hl, ?_⟩
  have : ∀ (cs : List (Act T)) (s0 : St T), run true s0 cs = some s → run true s0 (cs ++ [c]) = some s' := by
    intro cs
    induction cs with
    | nil => intro s0 h; simp only [run] at h; cases h; simp [run, hs]
    | cons d ds ih =>
      intro s0 h
      simp only [run, Option.bind_eq_some_iff, List.cons_append] at h ⊢
      obtain ⟨s1, h1, h2⟩ := h
      exact ⟨s1, h1, ih s1 h2⟩
  exact this cs _ h

/-- **C74.** The lock of a granule: two CPUs never both have it. -/
theorem C74_granule_mutex (s : St T) (h : Reach s) (t u : T) (ht : s.pc t = .held) (hu : s.pc u = .held) :
    t = u ∧ locked s.word = true := by
  obtain ⟨o, i⟩ := h.inv
  have h1 := (i.holder t).1 (by rw [ht]; rfl)
  have h2 := (i.holder u).1 (by rw [hu]; rfl)
  exact ⟨Option.some.inj (h1.symm.trans h2), i.word.2 (by rw [h1]; simp)⟩

/-- **C74.** The lock of a granule loses no wake-up: a CPU sleeps only while another one has the lock
(or has just set the bit and is at the first `tbz`), and the store that clears the bit wakes up every
CPU. -/
theorem C74_granule_wakeup (s : St T) (h : Reach s) :
    (∀ t, asleep s t → ∃ u, u ≠ t ∧ (s.pc u = .held ∨ ∃ w, s.pc u = .tbz1 w ∧ locked w = false)) ∧
    (∀ u s', step true s (.release u) = some s' → ∀ t, ¬ asleep s' t) := by
  obtain ⟨o, i⟩ := h.inv
  refine ⟨?_, ?_⟩
  · rintro t ⟨h1, h2⟩
    rcases i.wfe t h1 with h3 | ⟨-, h3⟩
    · rw [h2] at h3; cases h3
    · cases ho : o with
      | none => exact absurd ho (i.word.1 h3)
      | some u =>
        have h4 := (i.holder u).2 ho
        refine ⟨u, ?_, ?_⟩
        · rintro rfl
          rw [h1] at h4
          cases h4
        · revert h4
          cases s.pc u with
          | tbz1 w => exact fun hw => Or.inr ⟨w, rfl, by simpa [Pc.has] using hw⟩
          | held => simp
          | _ => simp [Pc.has]
  · rintro u s' h1 t ⟨h2, h3⟩
    obtain ⟨o', j⟩ := step_inv i h1
    simp only [step] at h1
    split at h1 <;> cases h1
    rcases j.wfe t h2 with h5 | ⟨h5, -⟩
    · rw [h3] at h5; cases h5
    · cases h5

/-- The lock bit is clear all the time. -/
def free (s : St T) : List (Act T) → Prop
  | [] => locked s.word = false
  | c :: cs => locked s.word = false ∧ ∀ s', step true s c = some s' → free s' cs

/-- **C74.** The lock of a granule makes progress, whatever else happens to the descriptor: while the
bit is clear a CPU that wants the lock can always go on, and no CPU executes more than three
instructions before one of them sets the bit. -/
theorem C74_granule_progress (s : St T) (h : Reach s) (hw : locked s.word = false) :
    (∀ t, (s.pc t).waits = true → (step true s (.step t)).isSome = true) ∧
    ∀ (cs : List (Act T)) s', run true s cs = some s' → free s cs → ∀ t, cs.countP (Act.by t) ≤ 3 := by
  refine ⟨?_, ?_⟩
  · obtain ⟨o, i⟩ := h.inv
    intro t ht
    simp only [Wake.step, insn]
    cases hp : s.pc t with
    | idle => rw [hp] at ht; cases ht
    | held => rw [hp] at ht; cases ht
    | wfe =>
      rcases i.wfe t hp with h1 | h1
      · simp [h1]
      · rw [hw] at h1; cases h1.2
    | _ => rfl
  · intro cs s' hr hf t
    have key : cs.countP (Act.by t) ≤ rankOf (s.pc t) := by
      clear hw
      induction cs generalizing s with
      | nil => simp
      | cons c cs ih =>
        simp only [run, Option.bind_eq_some_iff] at hr
        obtain ⟨s1, h1, h2⟩ := hr
        obtain ⟨o, i⟩ := h.inv
        have hf1 := hf.2 s1 h1
        have hw1 : locked s1.word = false := by
          cases cs with
          | nil => exact hf1
          | cons d ds => exact hf1.1
        have h3 := rank_step i hf.1 h1 hw1 t
        have h4 := ih s1 (h.step h1) h2 hf1
        rw [List.countP_cons]
        omega
    have : rankOf (s.pc t) ≤ 3 := by
      cases s.pc t with
      | tbz1 w => simp only [rankOf]; cases locked w <;> simp
      | tbz2 w => simp only [rankOf]; cases locked w <;> simp
      | _ => simp [rankOf]
    omega

/-- One CPU has the lock, the other one goes to sleep; the lock is released, and the other one gets it. -/
def relay : List (Act Bool) :=
  [.call false, .step false, .step false, .call true, .step true, .step true, .step true, .step true,
   .release false, .step true, .step true, .step true]

/-- The theorems are about something: the second CPU sleeps before the release and gets the lock after
it; a CPU that has found the lock taken may need three instructions. -/
example : ((run true (init 0x400 (fun _ => false) fun _ => false) (relay.take 8)).map fun s => (s.pc true, s.ev true)) = some (.wfe, false) ∧
    ((run true (init 0x400 (fun _ => false) fun _ => false) relay).map fun s => (s.pc true, s.word)) = some (.held, 0x8400) ∧
    ((run true (init 0x400 (fun _ => false) fun _ => false)
      [.call false, .step false, .step false, .call true, .step true, .release false, .step true, .step true, .step true]).map
        fun s => (s.pc true, s.word)) = some (.ldset, 0x400) := by decide

/-- **C74.** With a load that is not exclusive a CPU sleeps while the lock of the granule is free. -/
theorem C74_granule_needed :
    ∃ cs s, run false (init 0x400 (fun _ => false) fun _ => false : St Bool) cs = some s ∧ asleep s true ∧ locked s.word = false :=
  ⟨relay.take 9, _, rfl, ⟨rfl, rfl⟩, rfl⟩

end Verif.Wake
