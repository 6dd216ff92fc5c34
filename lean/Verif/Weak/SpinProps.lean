import Verif.Weak.SpinProof

/-!
# C74: the spinlock excludes, hands over, and wakes up
-/

namespace Verif.Spin

open Verif.Weak (upd join Ev Sc Kind)

variable {T X V : Type} [DecidableEq T] [DecidableEq X] [DecidableEq V]

/-- A state that the machine can be in. -/
def Reach (s : St T X V) : Prop := ∃ mon ev v cs tr, run {} (init mon ev v) cs = some (s, tr)

theorem Reach.inv {s : St T X V} (h : Reach s) : ∃ a top, Inv s a top := by
  obtain ⟨mon, ev, v, cs, tr, h⟩ := h
  obtain ⟨b, top, -, i⟩ := run_sim (inv_init mon ev v) h
  exact ⟨b, top, i⟩

/-- **C74.** Whatever the memory does, the programs see what they would see if every access happened
at once, one holder of the lock at a time; what a holder reads is what was written last. -/
theorem C74_refines (mon ev : T → Bool) (v : X → V) (cs : List (Act T X V)) (s : St T X V) (tr : List (Ev T X V))
    (h : run {} (init mon ev v) cs = some (s, tr)) :
    (∃ b, (Sc.init 0 v).run (fun _ => Kind.lock) tr = some b) ∧
    ∀ pre post t x u, tr = pre ++ .read t x u :: post → u = Verif.Weak.lastWrite (v x) x pre := by
  obtain ⟨b, top, hb, i⟩ := run_sim (inv_init mon ev v) h
  refine ⟨⟨b, hb⟩, ?_⟩
  rintro pre post t x u rfl
  obtain ⟨c, h1, h2⟩ := Verif.Weak.sc_append _ _ _ _ _ hb
  have := (Verif.Weak.sc_last _ pre _ c h1).1 x
  simp only [Sc.run, Sc.step, Option.bind_eq_some_iff] at h2
  obtain ⟨d, h3, -⟩ := h2
  split at h3
  case isFalse => cases h3
  case isTrue hu => rw [hu.2, this]; rfl

/-- **C74.** Two CPUs never both have the lock, and the word says whether it is taken. -/
theorem C74_mutex (s : St T X V) (h : Reach s) :
    (∀ t u, s.pc t = .held → s.pc u = .held → t = u) ∧ (∀ t, s.pc t = .held → s.word ≠ 0) := by
  obtain ⟨a, top, i⟩ := h.inv
  refine ⟨fun t u ht hu => ?_, fun t ht h0 => ?_⟩
  · have h1 := (i.holder t).1 (by rw [ht]; rfl)
    have h2 := (i.holder u).1 (by rw [hu]; rfl)
    rw [h1] at h2
    exact Option.some.inj h2
  · have h1 := (i.holder t).1 (by rw [ht]; rfl)
    rw [i.word.1 h0] at h1
    cases h1

/-- **C74.** No wake-up is lost: a CPU sleeps only while another one has the lock (or has just stored
the word and is at the last `cbnz`), and the store that frees the lock wakes up every CPU. -/
theorem C74_wakeup (s : St T X V) (h : Reach s) :
    (∀ t, asleep s t → ∃ u, u ≠ t ∧ (s.pc u = .held ∨ s.pc u = .check false)) ∧
    (∀ u s' e, step {} s (.release u) = some (s', e) → ∀ t, ¬ asleep s' t) := by
  obtain ⟨a, top, i⟩ := h.inv
  refine ⟨?_, ?_⟩
  · rintro t ⟨h1, h2⟩
    rcases i.wfe t h1 with h3 | ⟨-, h3⟩
    · rw [h2] at h3; cases h3
    · cases hh : a.holder with
      | none => exact absurd (i.word.2 hh) h3
      | some u =>
        have h4 := (i.holder u).2 hh
        refine ⟨u, ?_, ?_⟩
        · rintro rfl
          rw [h1] at h4
          cases h4
        · revert h4
          cases s.pc u with
          | check b => cases b <;> simp [Pc.has]
          | _ => simp [Pc.has]
  · rintro u s' e h1 t ⟨h2, h3⟩
    obtain ⟨b, top', h4, j⟩ := sim_step i h1
    simp only [step] at h1
    split at h1 <;> cases h1
    rcases j.wfe t h2 with h5 | ⟨h5, -⟩
    · rw [h3] at h5; cases h5
    · cases h5

/-- **C74.** The lock makes progress: while it is free, a CPU that wants it can always go on, and no
CPU executes more than six instructions before one of them gets it, provided that no monitor opens
for another reason in the meantime. -/
theorem C74_progress (s : St T X V) (h : Reach s) (hw : s.word = 0) :
    (∀ t, (s.pc t).waits = true → (step {} s (.step t)).isSome = true) ∧
    ∀ (cs : List (Act T X V)) s' tr, (∀ t, Act.clear t ∉ cs) → run {} s cs = some (s', tr) →
      (∀ u, Ev.lock u ∉ tr) → ∀ t, cs.countP (Act.by t) ≤ 6 := by
  obtain ⟨a, top, i⟩ := h.inv
  refine ⟨?_, ?_⟩
  · intro t ht
    simp only [step, insn]
    cases hp : s.pc t with
    | idle => rw [hp] at ht; cases ht
    | held => rw [hp] at ht; cases ht
    | wfe =>
      rcases i.wfe t hp with h1 | h1
      · simp [h1]
      · exact absurd hw h1.2
    | stxr => dsimp only; split <;> rfl
    | _ => rfl
  · intro cs s' tr hq hr hl t
    have hq' : ∀ c ∈ cs, c.quiet = true := by
      intro c hc
      cases c with
      | clear u => exact absurd hc (hq u)
      | _ => rfl
    have h1 := (rank_run i hw hq' hr (fun e he u h => hl u (h ▸ he)) t).2
    have h2 := rankOf_le (s.pc t) (s.mon t)
    unfold rank at h1
    omega

/-- One CPU takes the lock and changes the datum, the other one waits meanwhile, gets the lock and
reads the message number `i`. -/
def handover (i : Nat) : List (Act Bool Unit Bool) :=
  [.call false, .step false, .step false, .step false, .step false, .step false, .step false,
   .write false () true 1, .call true, .step true, .step true, .step true, .step true,
   .release false, .step true, .step true, .step true, .step true, .step true, .read true () i]

def start : St Bool Unit Bool := init (fun _ => false) (fun _ => false) fun _ => false

/-- The theorems are about something: the handover happens and the old message cannot be read; the
second CPU sleeps before the release, and six instructions are needed when the monitor is opened at
the worst time. -/
example : ((run {} start (handover 0)).map (·.2)) =
      some [.tau, .tau, .tau, .tau, .tau, .lock false, .tau, .write false () true, .tau, .tau, .tau, .tau, .tau,
        .unlock false, .tau, .tau, .tau, .lock true, .tau, .read true () true] ∧
    (run {} start (handover 1)).isNone = true ∧
    ((run {} start ((handover 0).take 13)).map fun r => (r.1.pc true, r.1.ev true)) = some (.wfe, false) ∧
    ((run {} start ([.call true, .step true, .step true, .step true, .clear true] ++ List.replicate 6 (.step true))).map
      fun r => (r.1.pc true, r.1.word)) = some (.stxr, 0) := by decide

/-- **C74.** Each of the four is needed: without the acquire or the release a CPU reads an old value,
without the SEVL or with a load that is not exclusive a CPU sleeps while the lock is free. -/
theorem C74_needed :
    (∃ cs tr, (run { acq := false } start cs).map (·.2) = some tr ∧ ((Sc.init 0 fun _ => false).run (fun _ => Kind.lock) tr).isNone = true) ∧
    (∃ cs tr, (run { rel := false } start cs).map (·.2) = some tr ∧ ((Sc.init 0 fun _ => false).run (fun _ => Kind.lock) tr).isNone = true) ∧
    (∃ cs s tr, run { sevl := false } start cs = some (s, tr) ∧ asleep s false ∧ s.word = 0) ∧
    (∃ cs s tr, run { excl := false } { start with mon := fun _ => true } cs = some (s, tr) ∧ asleep s true ∧ s.word = 0) := by
  refine ⟨⟨handover 1, _, rfl, by decide⟩, ⟨handover 1, _, rfl, by decide⟩,
    ⟨[.call false, .step false], _, _, rfl, ⟨rfl, rfl⟩, rfl⟩,
    ⟨(handover 0).take 14, _, _, rfl, ⟨rfl, rfl⟩, rfl⟩⟩

end Verif.Spin
