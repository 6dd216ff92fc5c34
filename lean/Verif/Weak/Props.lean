import Verif.Weak.Proof

/-!
# C70: the orderings of the lock and of the reference count are enough, and needed
-/

namespace Verif.Weak

open Verif.Conc

variable {T X V : Type} [DecidableEq T] [DecidableEq X] [DecidableEq V]

/-- **C70.** Whatever the memory does, the programs see what they would see if every access happened
at once. -/
theorem C70_refines (k : X → Kind) (w : Desc) (v : X → V) (hl : locked w = false) (hc : countOf w = 0)
    (cs : List (Act T X V)) (s : St T X V) (tr : List (Ev T X V)) (h : run {} k (init w v) cs = some (s, tr)) :
    ∃ b, (Sc.init (stateOf w) v).run k tr = some b ∧ stateOf s.last.val = b.state := by
  obtain ⟨b, top, hb, i⟩ := run_sim (inv_init k w v hl hc) h
  exact ⟨b, hb, i.st⟩

/-- The value written last, `v` if there is none. -/
def lastWrite (v : V) (x : X) : List (Ev T X V) → V
  | [] => v
  | .write _ y u :: es => lastWrite (if y = x then u else v) x es
  | _ :: es => lastWrite v x es

/-- The state stored last. -/
def lastState (st : BitVec 5) : List (Ev T X V) → BitVec 5
  | [] => st
  | .setState _ u :: es => lastState u es
  | _ :: es => lastState st es

theorem sc_last (k : X → Kind) (tr : List (Ev T X V)) (a b : Sc T X V) (h : a.run k tr = some b) :
    (∀ x, b.mem x = lastWrite (a.mem x) x tr) ∧ b.state = lastState a.state tr := by
  induction tr generalizing a with
  | nil => simp only [Sc.run] at h; cases h; exact ⟨fun _ => rfl, rfl⟩
  | cons e es ih =>
    simp only [Sc.run, Option.bind_eq_some_iff] at h
    obtain ⟨c, h1, h2⟩ := h
    obtain ⟨m, st⟩ := ih c h2
    rw [st]
    simp only [m]
    cases e <;> simp only [Sc.step] at h1 <;> (repeat' split at h1) <;> cases h1 <;>
      simp only [lastWrite, lastState, eq_comm, implies_true, and_self]

theorem sc_append (k : X → Kind) (pre post : List (Ev T X V)) (a b : Sc T X V) (h : a.run k (pre ++ post) = some b) :
    ∃ c, a.run k pre = some c ∧ c.run k post = some b := by
  induction pre generalizing a with
  | nil => exact ⟨a, rfl, h⟩
  | cons e es ih =>
    simp only [List.cons_append, Sc.run, Option.bind_eq_some_iff] at h ⊢
    obtain ⟨d, h1, h2⟩ := h
    obtain ⟨c, h3, h4⟩ := ih d h2
    exact ⟨c, ⟨d, h1, h3⟩, h4⟩

/-- **C70.** A CPU that may read a datum reads what was written last, by whichever CPU; the holder of
the lock reads the state of the granule that was stored last. -/
theorem C70_latest (k : X → Kind) (w : Desc) (v : X → V) (hl : locked w = false) (hc : countOf w = 0)
    (cs : List (Act T X V)) (s : St T X V) (tr : List (Ev T X V)) (h : run {} k (init w v) cs = some (s, tr)) :
    (∀ pre post t x u, tr = pre ++ .read t x u :: post → u = lastWrite (v x) x pre) ∧
    (∀ pre post t st, tr = pre ++ .getState t st :: post → st = lastState (stateOf w) pre) ∧
    stateOf s.last.val = lastState (stateOf w) tr := by
  obtain ⟨b, hb, hst⟩ := C70_refines k w v hl hc cs s tr h
  refine ⟨?_, ?_, ?_⟩
  · rintro pre post t x u rfl
    obtain ⟨c, h1, h2⟩ := sc_append k _ _ _ _ hb
    have := (sc_last k pre _ c h1).1 x
    simp only [Sc.run, Sc.step, Option.bind_eq_some_iff] at h2
    obtain ⟨d, h3, -⟩ := h2
    split at h3
    case isFalse => cases h3
    case isTrue hu => rw [hu.2, this]; rfl
  · rintro pre post t st rfl
    obtain ⟨c, h1, h2⟩ := sc_append k _ _ _ _ hb
    simp only [Sc.run, Sc.step, Option.bind_eq_some_iff] at h2
    obtain ⟨d, h3, -⟩ := h2
    split at h3
    case isFalse => cases h3
    case isTrue hu =>
      rw [hu.2]
      exact (sc_last k _ _ _ h1).2
  · rw [hst]
    exact (sc_last k _ _ _ hb).2

/-- **C70.** No two CPUs may touch the same datum, and the assertions about the descriptor hold:
`LOCKED(g)` in any message that the holder of the lock can read (granule.h:54, 138, 148, 238),
`old_refcount + val <= REFCOUNT_MAX` when a reference is taken (granule.h:240), `old_refcount != 0U`
when it is dropped (granule.h:291). -/
theorem C70_asserts (k : X → Kind) (w : Desc) (v : X → V) (hl : locked w = false) (hc : countOf w = 0)
    (cs : List (Act T X V)) (s : St T X V) (tr : List (Ev T X V)) (h : run {} k (init w v) cs = some (s, tr)) :
    (∀ t u x, may k s t x = true → may k s u x = true → t = u) ∧
    (∀ t, (s.mode t).holds = true → ∀ j, s.dv t ≤ j → j ≤ s.n → locked (s.d j).val = true) ∧
    (∀ t, s.mode t = .own → (countOf s.last.val).toNat + 1 ≤ 1023) ∧
    (∀ t, s.mode t = .run → (countOf s.last.val).toNat ≠ 0) := by
  obtain ⟨b, top, hb, i⟩ := run_sim (inv_init k w v hl hc) h
  refine ⟨?_, fun t ht j h1 h2 => (i.hold t ht j h1 h2).2, fun t ht => ?_, fun t ht h0 => ?_⟩
  · intro t u x ht hu
    unfold may at ht hu
    cases hk : k x <;> rw [hk] at ht hu
    · have h1 := (i.holder t).1 ht
      have h2 := (i.holder u).1 hu
      rw [h1] at h2
      exact Option.some.inj h2
    · exact own_unique i u t hu ht
  · have := i.le1; omega
  · have h1 : b.ref = some t := (i.ref t).1 (by rw [ht]; rfl)
    have h2 : isZero s.last.val = true := by
      simp only [isZero, decide_eq_true_eq]
      exact BitVec.eq_of_toNat_eq (by simpa using h0)
    rw [i.cnt.1 h2] at h1
    cases h1

/-- What two CPUs see of one datum that is false at first, in a granule in state REC (3). -/
def seen (o : Order) (k : Kind) (cs : List (Act Bool Unit Bool)) : Option (List (Ev Bool Unit Bool)) :=
  (run o (fun _ => k) (init (3 <<< 10) fun _ => false) cs).map (·.2)

/-- Could that be? -/
def sane (k : Kind) (tr : List (Ev Bool Unit Bool)) : Bool :=
  ((Sc.init 3 fun _ => false).run (fun _ => k) tr).isSome

/-- One CPU changes the datum under the lock, the other one then takes the lock and reads the
message number `i`. -/
def handover (i : Nat) : List (Act Bool Unit Bool) :=
  [.lock false, .write false () true 1, .spin true, .unlock false, .lock true, .read true () i]

/-- One CPU runs the REC and changes the datum, the other one takes the lock meanwhile, sees that the
REC has been left and reads the message number `i`. -/
def leave (i : Nat) : List (Act Bool Unit Bool) :=
  [.lock false, .count false 1, .get false, .unlock false, .lock true, .write false () true 1, .put false, .count true 5, .read true () i]

/-- The theorems are about something: with all orderings both scenarios happen, and the old message
cannot be read. -/
example : (seen {} .lock (handover 0)).isSome = true ∧ seen {} .lock (handover 1) = none ∧
    (seen {} .ref (leave 0)).isSome = true ∧ seen {} .ref (leave 1) = none := by decide

/-- The CPU that waits may also see the count before it drops, and then it does not get the REC. -/
example : seen {} .ref [.lock false, .count false 1, .get false, .unlock false, .lock true, .put false, .count true 4, .unlock true] =
    some [.lock false, .count false true, .get false, .unlock false, .lock true, .put false, .count true false, .unlock true] := by
  decide

/-- A change of state while another CPU drops its reference: nothing is lost. -/
example : ((run {} (fun _ => Kind.ref) (init (3 <<< 10) fun _ => false)
    [.lock false, .count false 1, .get false, .unlock false, .lock true, .peek true 4, .put false, .setState true 4 1, .unlock true] :
      Option (St Bool Unit Bool × _)).map fun r => (r.1.last.val, r.2.length)) = some ((1 : Desc) <<< 10, 9) := by decide

/-- **C70.** Each of the four orderings is needed: without it a CPU reads an old value. -/
theorem C70_needed :
    (∃ cs tr, seen { lockAcq := false } .lock cs = some tr ∧ sane .lock tr = false) ∧
    (∃ cs tr, seen { unlockRel := false } .lock cs = some tr ∧ sane .lock tr = false) ∧
    (∃ cs tr, seen { countAcq := false } .ref cs = some tr ∧ sane .ref tr = false) ∧
    (∃ cs tr, seen { putRel := false } .ref cs = some tr ∧ sane .ref tr = false) := by
  refine ⟨⟨handover 1, _, rfl, ?_⟩, ⟨handover 1, _, rfl, ?_⟩, ⟨leave 1, _, rfl, ?_⟩, ⟨leave 1, _, rfl, ?_⟩⟩ <;> decide

end Verif.Weak
