import Verif.Run.PropErr

/-!
# C85: the virtual SError

An SError that is left pending is given to the CPU in HCR_EL2.VSE when the realm runs next.  The CPU delivers it when the
realm does not mask SErrors, and clears the bit.  The code never reads the bit back.
-/

namespace Verif.Run

open Spec

/-- HCR_EL2.VSE after one turn of the loop and the number of SErrors the realm took in it: `activate_events`
(core/run.c:220-230) sets the bit if an SError is to be injected and leaves the register alone otherwise; nothing else in
the loop writes it (core/run.c:292-334).  `take` says whether the realm unmasks SErrors while it runs: then the CPU delivers a
pending one and clears the bit.  If a timer ends the loop (core/run.c:301-304) the realm does not run. -/
def serve (w : World) (vse : Bool) (e : Ev) (take : Bool) : Bool × Nat :=
  if (checkTimers w.rc e.ctlV e.ctlP).2 then (vse, 0)
  else if take && (vse || w.rc.serror) then (false, 1)
  else (vse || w.rc.serror, 0)

/-- The loop of core/run.c:292-334 (`loop`) with the bit: the world, the bit and the number of SErrors the realm took. -/
def loopV : List (Ev × Bool) → World → Bool → Option (World × Bool × Nat)
  | [], _, _ => none
  | (e, t) :: es, w, v =>
    (iter w e).bind fun p =>
      if p.2 then (loopV es p.1 (serve w v e t).1).map fun r => (r.1, r.2.1, (serve w v e t).2 + r.2.2)
      else some (p.1, serve w v e t)

/-- A run of a REC, from `reset_last_run_info` on: `restore_realm_state` writes `rec->sysregs.hcr_el2` (core/run.c:161), and with it
the bit; rmi/run.c:305-319. -/
def runV (c : Call) (ts : List Bool) (w : World) : Option (World × Bool × Nat) :=
  loopV (c.evs.zip ts) (startRun c w) ((startRun c w).rc.hcr.getLsbD 8)

/-- The entry `c` ran the REC from `w1` on with the result `o`; in the events the realm could take an SError as `ts` says, and it
took `n`. -/
structure Spec.Took (c : Call) (ts : List Bool) (w w1 : World) (o : Out) (n : Nat) : Prop where
  out : recEnter c w = some o
  all : c.evs.length ≤ ts.length
  path : ∃ r1 r2 r3, Path c w r1 r2 r3 (w1, true)
  run : ∃ w2 v, runV c ts w1 = some (w2, v, n) ∧ o = leave c (finish c.feat w2 c.fin) true

/-- The loop comes to an event in which the realm runs and does not mask SErrors. -/
inductive Spec.Unmasks : World → List (Ev × Bool) → Prop
  | here {w : World} {e : Ev} {es : List (Ev × Bool)} (h : Tim.SameOutputs e.ctlV e.ctlP w.rc.cntvCtl w.rc.cntpCtl) :
      Unmasks w ((e, true) :: es)
  | next {w w' : World} {e : Ev} {t : Bool} {es : List (Ev × Bool)} (h : iter w e = some (w', true)) (k : Unmasks w' es) :
      Unmasks w ((e, t) :: es)

/-- The loop with the bit is the loop. -/
theorem loopV_loop : ∀ {es : List Ev} {ts : List Bool} {w : World} (v : Bool), es.length ≤ ts.length →
    (∀ {w' v' n}, loopV (es.zip ts) w v = some (w', v', n) → loop es w = some (w', true)) ∧
    (∀ {w'}, loop es w = some (w', true) → ∃ v' n, loopV (es.zip ts) w v = some (w', v', n))
  | [], _, _, _, _ => by
    constructor
    · intro _ _ _ h; cases h
    · intro _ h; cases h
  | e :: es, [], _, _, hl => by simp at hl
  | e :: es, t :: ts, w, v, hl => by
    have hl' : es.length ≤ ts.length := by simpa using hl
    constructor
    · intro w' v' n h
      obtain ⟨⟨w1, b⟩, h1, h2⟩ := bind_some h
      show (iter w e).bind _ = _
      rw [h1]
      cases b
      · obtain rfl := (Prod.mk.inj (Option.some.inj h2)).1
        rfl
      · obtain ⟨⟨a1, a2, a3⟩, h3, h4⟩ := map_some h2
        obtain rfl := (Prod.mk.inj h4).1
        exact (loopV_loop _ hl').1 h3
    · intro w' h
      obtain ⟨⟨w1, b⟩, h1, h2⟩ := bind_some h
      show ∃ v' n, (iter w e).bind _ = _
      rw [h1]
      cases b
      · obtain rfl := (Prod.mk.inj (Option.some.inj h2)).1
        exact ⟨_, _, rfl⟩
      · obtain ⟨v', n, h3⟩ := (loopV_loop (serve w v e t).1 hl').2 h2
        refine ⟨v', (serve w v e t).2 + n, ?_⟩
        show Option.map _ (loopV (es.zip ts) w1 _) = _
        rw [h3]
        rfl

theorem iter_true_err {w w1 : World} {e : Ev} (h : iter w e = some (w1, true)) :
    w1.rc.serror = false ∧ (checkTimers w.rc e.ctlV e.ctlP).2 = false := by
  constructor
  · rcases iter_err h with ⟨hb, _⟩ | a
    · cases hb
    · cases hs : w1.rc.serror
      · rfl
      · exact absurd (a hs).1 (by decide)
  · cases ht : (checkTimers w.rc e.ctlV e.ctlP).2
    · rfl
    · unfold iter at h
      dsimp only at h
      rw [ht] at h
      exact absurd (Prod.mk.inj (Option.some.inj h)).2 (by decide)

theorem loopV_count : ∀ {es : List (Ev × Bool)} {w w' : World} {v v' : Bool} {n : Nat}, loopV es w v = some (w', v', n) →
    n ≤ 1 ∧ ((v || w.rc.serror) = false → n = 0) ∧
    ((v || w.rc.serror) = true → Unmasks w es → n = 1) ∧
    ((∀ e ∈ es, e.2 = false) → n = 0)
  | [], _, _, _, _, _, h => by cases h
  | (e, t) :: es, w, w', v, v', n, h => by
    obtain ⟨⟨w1, b⟩, h1, h2⟩ := bind_some h
    have hserve : ∀ q, q = serve w v e t → q.2 ≤ 1 ∧ (q.2 = 1 → q.1 = false) ∧
        ((v || w.rc.serror) = false → q.1 = false ∧ q.2 = 0) ∧
        ((v || w.rc.serror) = true → (checkTimers w.rc e.ctlV e.ctlP).2 = false → t = true → q.2 = 1) ∧
        ((v || w.rc.serror) = true → (checkTimers w.rc e.ctlV e.ctlP).2 = false → q.2 = 1 ∨ q.1 = true) ∧
        (t = false → q.2 = 0) := by
      intro q hq
      unfold serve at hq
      clear h h2
      subst hq
      generalize (checkTimers w.rc e.ctlV e.ctlP).2 = x
      generalize w.rc.serror = y
      revert x y v t
      decide
    obtain ⟨q1, q2, q3, q4, q6, q5⟩ := hserve _ rfl
    cases b
    · obtain ⟨rfl, h3⟩ := Prod.mk.inj (Option.some.inj h2)
      rw [h3] at q1 q2 q3 q4 q5 q6
      refine ⟨q1, fun hp => (q3 hp).2, fun hp hh => ?_, fun hh => q5 (hh (e, t) List.mem_cons_self)⟩
      cases hh with
      | here hs => exact q4 hp ((checkTimers_same _ _ _).mpr hs) rfl
      | next hn _ => rw [h1] at hn; exact absurd (Prod.mk.inj (Option.some.inj hn)).2 (by decide)
    · obtain ⟨⟨a1, a2, a3⟩, h3, h4⟩ := map_some h2
      obtain ⟨_, h4⟩ := Prod.mk.inj h4
      obtain ⟨_, rfl⟩ := Prod.mk.inj h4
      obtain ⟨k1, k2, k3, k4⟩ := loopV_count h3
      rw [(iter_true_err h1).1, Bool.or_false] at k2 k3
      have hsum : (serve w v e t).2 = 1 → a3 = 0 := fun hq => k2 (q2 hq)
      refine ⟨?_, fun hp => ?_, fun hp hh => ?_, fun hh => ?_⟩
      · show (serve w v e t).2 + a3 ≤ 1
        omega
      · show (serve w v e t).2 + a3 = 0
        rw [(q3 hp).2, k2 (q3 hp).1]
      · show (serve w v e t).2 + a3 = 1
        cases hh with
        | here hs =>
          have hq := q4 hp ((checkTimers_same _ _ _).mpr hs) rfl
          rw [hq, hsum hq]
        | next hn hu =>
          rw [h1] at hn
          obtain rfl := (Prod.mk.inj (Option.some.inj hn)).1
          rcases q6 hp (iter_true_err h1).2 with hq | hq
          · rw [hq, hsum hq]
          · have h3 := k3 hq hu
            have : (serve w v e t).2 ≠ 1 := fun hc => by rw [q2 hc] at hq; cases hq
            omega
      · show (serve w v e t).2 + a3 = 0
        rw [q5 (hh (e, t) List.mem_cons_self), k4 fun x hx => hh x (List.mem_cons_of_mem _ hx)]

theorem entryHcr_vse (r : Rec) (e : Enter) : (entryHcr r e).getLsbD 8 = r.commonHcr.getLsbD 8 := by
  unfold entryHcr
  dsimp only
  split <;> split <;> simp

/-- Every run of a REC is one of these, whatever the realm masks. -/
theorem took_of_ran {c : Call} {w : World} {o : Out} {ts : List Bool} (h : recEnter c w = some o) (hran : o.ran = true)
    (hl : c.evs.length ≤ ts.length) : ∃ w1 n, Spec.Took c ts w w1 o n := by
  obtain ⟨r1, r2, r3, ⟨w1, b⟩, hp, hb, hrun⟩ := recEnter_ran h hran
  simp only at hb
  subst hb
  obtain ⟨w2, hlp, ho⟩ := runRec_some hrun
  obtain ⟨v, n, hv⟩ := (loopV_loop ((startRun c w1).rc.hcr.getLsbD 8) hl).2 hlp
  exact ⟨w1, n, h, hl, ⟨r1, r2, r3, hp⟩, w2, v, hv, ho⟩

/-- **C85, in part.**  In a run the realm takes at most one SError, and none unless one was pending; it takes the pending one
if it runs at all without masking SErrors.  What is missing: if the realm masks them until the run ends, the SError is lost
(`C85_lost`). -/
theorem C85_delivery_partial {c : Call} {w w1 : World} {o : Out} {ts : List Bool} {n : Nat} (hi : Inv w.rc)
    (hv : w.rc.commonHcr.getLsbD 8 = false) (h : Took c ts w w1 o n) :
    n ≤ 1 ∧ (w.rc.serror = false → n = 0) ∧
    (w.rc.serror = true → Unmasks (startRun c w1) (c.evs.zip ts) → n = 1) := by
  obtain ⟨r1, r2, r3, hp⟩ := h.path
  obtain ⟨w2, v, hrun, _⟩ := h.run
  have hk := continues_of_path hi hp
  unfold runV at hrun
  have h8 : (startRun c w1).rc.hcr.getLsbD 8 = false := by
    show (entryHcr w1.rc c.enter).getLsbD 8 = false
    rw [entryHcr_vse, hk.who.2.2.2, hv]
  rw [h8] at hrun
  obtain ⟨k1, k2, k3, _⟩ := loopV_count hrun
  have hs : (startRun c w1).rc.serror = w.rc.serror := hk.serror.1
  rw [Bool.false_or, hs] at k2 k3
  exact ⟨k1, k2, k3⟩

/-- **C85, in part.**  The same without the state of the loop: the first time the realm runs, if no timer comes before. -/
theorem C85_unmasked_partial {c : Call} {w w1 : World} {o : Out} {t : Bool} {ts : List Bool} {n : Nat} (hi : Inv w.rc)
    (hv : w.rc.commonHcr.getLsbD 8 = false) (h : Took c (t :: ts) w w1 o n) (hs : w.rc.serror = true) (ht : t = true)
    (hc : ∀ e ∈ c.evs.head?, Tim.SameOutputs e.ctlV e.ctlP w.rc.cntvCtl w.rc.cntpCtl) : n = 1 := by
  refine (C85_delivery_partial hi hv h).2.2 hs ?_
  obtain ⟨r1, r2, r3, hp⟩ := h.path
  obtain ⟨w2, v, hrun, _⟩ := h.run
  have hk := continues_of_path hi hp
  cases he : c.evs with
  | nil => unfold runV at hrun; rw [he] at hrun; cases hrun
  | cons e es =>
    subst ht
    have := hc e (by rw [he]; rfl)
    refine .here ?_
    show Tim.SameOutputs _ _ w1.rc.cntvCtl w1.rc.cntpCtl
    rw [hk.timers.1, hk.timers.2.1]
    exact this

/-- The REC of the example with an SError pending, which the realm masks (PSTATE.A, bit 8). -/
def Demo.errWorld : World := { Demo.world with rc := { Demo.rc with serror := true, vsesr := 0x601, pstate := 0x3c5 } }

/-- It is interrupted and has SErrors masked still. -/
def Demo.errCall : Call := Demo.call 0 0 [{ Demo.ev .irq ⟨0, 0, 0⟩ (fun _ => 0) with pstate := 0x3c5 }]

/-- **C85, finding.**  An SError that was pending is lost: the realm has it masked for the length of a run and does not take it,
and the next run starts with nothing pending, so that it takes none (by `C85_once` only a new SError makes one pending again). -/
theorem C85_lost : ∃ c w w1 o, Inv w.rc ∧ w.rc.commonHcr.getLsbD 8 = false ∧ w.rc.serror = true ∧ w.rc.pstate.getLsbD 8 = true ∧
    Took c [false] w w1 o 0 ∧ o.w.rc.pstate.getLsbD 8 = true ∧ o.w.rc.serror = false ∧
    ∀ c' ts w1' o' n, Inv o.w.rc → Took c' ts o.w w1' o' n → n = 0 := by
  have hi : Inv Demo.errWorld.rc :=
    inv_of_idle ⟨by decide, rfl, rfl, rfl, rfl⟩ (fun h => absurd h (by decide)) (fun h => absurd h (by decide))
  have hd : ((recEnter Demo.errCall Demo.errWorld).any fun o =>
      o.ran && !o.w.rc.serror && o.w.rc.pstate.getLsbD 8 && !o.w.rc.commonHcr.getLsbD 8) = true := by
    decide +kernel
  cases ho : recEnter Demo.errCall Demo.errWorld with
  | none => rw [ho] at hd; simp at hd
  | some o =>
    rw [ho, Option.any_some] at hd
    simp only [Bool.and_eq_true, Bool.not_eq_true'] at hd
    obtain ⟨⟨⟨h1, h2⟩, h3⟩, h4⟩ := hd
    obtain ⟨w1, n, hn⟩ := took_of_ran (ts := [false]) ho h1 (by decide)
    obtain ⟨w2, v, hrun, _⟩ := hn.run
    obtain rfl : n = 0 := (loopV_count hrun).2.2.2 (by
      intro e he
      have : e.2 ∈ [false] := (List.of_mem_zip he).2
      simpa using this)
    exact ⟨_, _, w1, o, hi, by decide, rfl, by decide, hn, h3, h2, fun c' ts w1' o' n hi' ht =>
      (C85_delivery_partial hi' h4 ht).2.1 h2⟩

/-- A realm that does not mask SErrors takes it. -/
example : ∃ w1 o, Took Demo.errCall [true] Demo.errWorld w1 o 1 := by
  have hi : Inv Demo.errWorld.rc :=
    inv_of_idle ⟨by decide, rfl, rfl, rfl, rfl⟩ (fun h => absurd h (by decide)) (fun h => absurd h (by decide))
  have hd : ((recEnter Demo.errCall Demo.errWorld).any fun o => o.ran) = true := by decide +kernel
  cases ho : recEnter Demo.errCall Demo.errWorld with
  | none => rw [ho] at hd; simp at hd
  | some o =>
    rw [ho, Option.any_some] at hd
    obtain ⟨w1, n, hn⟩ := took_of_ran (ts := [true]) ho hd (by decide)
    obtain rfl : n = 1 := C85_unmasked_partial hi (by decide) hn rfl rfl
      (fun e he => by
        obtain rfl : _ = e := Option.some.inj he
        unfold Tim.SameOutputs Tim.Output
        decide)
    exact ⟨w1, o, hn⟩

end Verif.Run
