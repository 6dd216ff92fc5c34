import Verif.Sign.Own
import Verif.Sign.Lock
import Verif.Sign.Demo

/-!
# C66: who signs what

Whichever CPUs pull the responses, a response is accepted only for the request it answers.  But the signature is copied to
the wrong REC when the CPU runs another one, and a realm that starts a new token at the wrong moment makes RMM crash or
completes a token without a signature.

# C67: the locks

No CPU waits for ever, unless EL3 reports an error for a response: then the lock of the buffer shared with EL3 is never
released.
-/

namespace Verif.Sign

/-- The response a CPU writes passes the check of the ticket only if it answers the request for the token
which the REC is having signed: its signature is of the contents of this token.  This holds even though requests are
abandoned, RECs are destroyed and created at the same address, and other CPUs do all this between any two steps. -/
theorem C66_ticket {s s' : State} {c a b : Nat} {r : Resp} {e : El3} {flag : Bool} (hr : Reach s)
    (hp : s.pc c = .write2 a b r) (hs : step s (.cpu c e flag) = .ok s') (hp' : s'.pc c = .write3 a b r) :
    ∃ t, s.recs b = some t ∧ r.cookie = b ∧ t.ctx.ticket = r.ticket ∧ r.hash = t.want ∧ t.ctx.queued = true := by
  have hi := inv_reach hr
  have hck := hi.cook c a b r (.inr (.inl hp))
  simp only [step] at hs
  unfold cpuStep at hs
  rw [hp] at hs
  dsimp only at hs
  split at hs
  · cases hs
  · rename_i t ht
    unfold write2 at hs
    split at hs
    · split at hs <;> cases hs
      simp [State.go, upd] at hp'
    · rename_i htk
      have htk := Decidable.not_not.mp htk
      have hm : s.msg b r.ticket r.hash := .inr (.inr ⟨c, r.len, by rw [hp, ← hck]; rfl⟩)
      have hsame := hi.same b _ _ t hm ht htk
      exact ⟨t, ht, hck, htk, hsame.1, hsame.2⟩

/-- Here REC 10 has its token with hash 7 signed, and CPU 1 has the response. -/
example : ∃ s, Reach s ∧ (s.pc 1 == .write2 20 10 ⟨10, 1, 7, 96⟩ &&
    match step s (.cpu 1 .ok false) with
    | .ok s' => s'.pc 1 == .write3 20 10 ⟨10, 1, 7, 96⟩
    | _ => false) = true :=
  check_demo other (by decide +kernel)

/-- The assertion about tickets that do not match (attestation_el3_token_sign.c:169-170) never fails. -/
theorem C66_assert {s : State} {c a b : Nat} {r : Resp} {e : El3} {flag : Bool} (hr : Reach s)
    (hp : s.pc c = .write2 a b r) : step s (.cpu c e flag) ≠ .crash := by
  have hi := inv_reach hr
  have hck := hi.cook c a b r (.inr (.inl hp))
  have hm : s.msg b r.ticket r.hash := .inr (.inr ⟨c, r.len, by rw [hp, ← hck]; rfl⟩)
  intro hs
  simp only [step] at hs
  unfold cpuStep at hs
  rw [hp] at hs
  dsimp only at hs
  split at hs
  · cases hs
  · rename_i t ht
    unfold write2 at hs
    split at hs
    · split at hs
      · cases hs
      · rename_i h; exact h (hi.last b _ _ t hm ht)
    · split at hs <;> cases hs

/-- The realm of REC 10 has abandoned the request with ticket 1: the response is dropped. -/
example : ∃ s, Reach s ∧ (s.pc 1 == .write2 20 10 ⟨10, 1, 7, 96⟩ && (s.recs 10).map (·.ctx.ticket) == some 3 &&
    match step s (.cpu 1 .ok false) with
    | .ok s' => s'.pc 1 == .write5 20 10
    | _ => false) = true :=
  check_demo (boot ++ request0 ++ request1 ++ .el3 0 96 :: .tokenInit 0 9 :: steps 0 3 ++ .tokenContinue 0 :: steps 0 5 ++ steps 1 4)
    (by decide +kernel)

/-- If no CPU writes a response to a REC other than the one it runs, every completed token carries the signature of
its own contents, and no assertion fails and nothing is written to address 0.  Missing: executions in which
a CPU pulls a response for another REC, for which this is false (`C66_wrong_buffer`, `C66_race_crash`,
`C66_race_stale`, `C66_race_assert`). -/
theorem C66_own_partial {s : State} (hr : ReachP Own start s) :
    (∀ e ∈ s.out, e.2.2 = some e.2.1) ∧ ∀ o, step s o ≠ .crash := by
  have hi := inv_reach hr
  have h2 := inv2_reach hr
  refine ⟨h2.out, ?_⟩
  intro o hs
  cases o with
  | cpu c e flag =>
    simp only [step] at hs
    unfold cpuStep at hs
    split at hs
    · cases hs
    · cases hs
    · unfold acquire at hs; split at hs
      · cases hs
      split at hs <;> cases hs
    · unfold init2 at hs; cases hs
    · unfold init3 at hs; split at hs <;> cases hs
    · unfold acquire at hs; split at hs
      · cases hs
      split at hs <;> cases hs
    · split at hs
      · cases hs
      · unfold sign2 at hs; cases hs
    · split at hs <;> cases hs
    · split at hs
      · cases hs
      · unfold sign4 at hs; dsimp only at hs; split at hs <;> cases hs
    · split at hs
      · cases hs
      · rename_i t ht
        unfold sign5 at hs
        split at hs
        · cases hs
        split at hs
        · rename_i hv
          split at hs
          · cases hs
          · rename_i hn
            have h := h2.att _ t ht
            have h3 := (h.valid hv).2
            have h4 := h.len
            simp [h3, h4] at hn
        · cases hs
    · split at hs <;> cases hs
    · unfold pull2 at hs
      split at hs
      · cases hs
      · cases hs
      · split at hs <;> cases hs
    · unfold findRec at hs
      split at hs
      · cases hs
      split at hs
      · cases hs
      · split at hs <;> cases hs
    · unfold acquire at hs; split at hs
      · cases hs
      split at hs <;> cases hs
    · rename_i a b r hp
      have hck := hi.cook c a b r (.inr (.inl hp))
      have hm : s.msg b r.ticket r.hash := .inr (.inr ⟨c, r.len, by rw [hp, ← hck]; rfl⟩)
      split at hs
      · cases hs
      · rename_i t ht
        unfold write2 at hs
        split at hs
        · split at hs
          · cases hs
          · rename_i h; exact h (hi.last b _ _ t hm ht)
        · split at hs <;> cases hs
    · rename_i a b r hp
      have hb := foreign_none h2 (.inr (.inr (.inl hp)))
      subst hb
      split at hs
      · cases hs
      · rename_i t ht
        have h := h2.own c b t (by rw [hp]; rfl) ht
        rw [hp] at h
        unfold write3 at hs
        split at hs
        · rename_i h3; rw [h.2.2.2.1] at h3; cases h3.1
        · cases hs
    · cases hs
    · dsimp only at hs; cases hs
  | create a => simp only [step] at hs; split at hs <;> cases hs
  | destroy a => simp only [step] at hs; split at hs <;> cases hs
  | enter c a =>
    simp only [step] at hs
    split at hs
    · split at hs <;> cases hs
    · cases hs
  | exit c => simp only [step] at hs; split at hs <;> cases hs
  | tokenInit c h =>
    simp only [step] at hs
    split at hs
    · split at hs
      · cases hs
      · unfold tokenInit at hs; split at hs <;> cases hs
    · cases hs
  | tokenContinue c =>
    simp only [step] at hs
    split at hs
    · split at hs
      · cases hs
      · split at hs <;> cases hs
    · cases hs
  | el3 i len => simp only [step] at hs; split at hs <;> cases hs

/-- The signature is written to the wrong REC: CPU 1, which runs REC 20, pulls the response for REC 10.  The token of REC
10 is completed without a signature, and its signature is in the token buffer of REC 20. -/
theorem C66_wrong_buffer :
    ∃ s, Reach s ∧ (s.out == [(10, 7, none)] && (s.recs 20).map (·.buf) == some (some 7)) = true :=
  check_demo (other ++ steps 1 4 ++ .tokenContinue 0 :: steps 0 3) (by decide +kernel)

/-- A realm makes RMM write to address 0: CPU 1 has checked the ticket of REC 10 when the realm of REC 10 asks for
a new token, whose context is cleared without its lock. -/
theorem C66_race_crash :
    ∃ s, Reach s ∧ (match step s (.cpu 1 .ok false) with | .crash => true | _ => false) = true :=
  check_demo (passed ++ [.tokenInit 0 9]) (by decide +kernel)

/-- A realm gets a token without a signature of its contents even if the response were written to the right buffer: here
the response is for the abandoned token with hash 7, and the token with hash 9 is completed. -/
theorem C66_race_stale :
    ∃ s, Reach s ∧ (s.out.map (fun e => (e.1, e.2.1)) == [(10, 9)] && s.resps == [] && s.reqs.map (·.hash) == [8, 9]) =
      true :=
  check_demo (passed ++ steps 1 1 ++ .tokenInit 0 9 :: steps 0 3 ++ steps 1 1 ++ .tokenContinue 0 :: steps 0 5)
    (by decide +kernel)

/-- A realm makes an assertion fail (t_cose_el3_token_sign.c:135): the response for the abandoned token makes
the signature of the new one valid before its request is queued. -/
theorem C66_race_assert :
    ∃ s, Reach s ∧ (match step s (.cpu 0 .ok false) with | .crash => true | _ => false) = true :=
  check_demo (passed ++ steps 1 1 ++ .tokenInit 0 9 :: steps 0 3 ++ steps 1 1 ++ .tokenContinue 0 :: steps 0 3 ++
    [.cpu 0 .again false]) (by decide +kernel)

/-- A test for `Own`. -/
def ownB (s : State) : Op → Bool
  | .cpu c _ _ => match s.pc c with | .find a r => r.cookie == a | _ => true
  | _ => true

theorem ownB_own (s : State) (o : Op) (h : ownB s o = true) : Own s o := by
  rintro c e flag a r rfl hp _
  simpa [ownB, hp] using h

/-- CPU 0 alone, as in the hypothesis of `C66_own_partial`, completes the token with its signature. -/
example : ∃ s, ReachP Own start s ∧ (s.out == [(10, 7, some 7)]) = true :=
  checkW_demo ownB_own alone (by decide +kernel)

/-! ## C67 -/

/-- The CPU is in one of the operations on tokens. -/
def Pc.busy : Pc → Bool
  | .host | .run _ => false
  | _ => true

/-- Some CPU can take a step. -/
def Live (s : State) : Prop := ∃ d e, step s (.cpu d e false) ≠ .blocked

theorem live_sh {s : State} (hi : Inv s) {d : Nat} (h : (s.pc d).sh = true) : Live s := by
  refine ⟨d, .again, ?_⟩
  cases hp : s.pc d <;> rw [hp] at h <;> simp [Pc.sh] at h
  · rename_i a
    obtain ⟨_, t, ht, _⟩ := hi.run d a (by rw [hp]; rfl)
    simp [step, cpuStep, hp, ht, sign4]
  · simp [step, cpuStep, hp, pull2]

theorem live_shared {s : State} (hi : Inv s) (h3 : Inv3 s) {d a : Nat} (h : s.pc d = .sign3 a ∨ s.pc d = .pull1 a) :
    Live s := by
  cases hs : s.shared with
  | true => obtain ⟨c, hc⟩ := h3.sh hs; exact live_sh hi hc
  | false =>
    refine ⟨d, .again, ?_⟩
    rcases h with hp | hp <;> simp [step, cpuStep, hp, hs]

theorem run_some {s : State} (hi : Inv s) {d a b : Nat} {r : Resp} (h : (s.pc d).rec? = some a)
    (hp : s.pc d = .write1 a b r ∨ s.pc d = .write2 a b r ∨ s.pc d = .write3 a b r) : ∃ t, s.recs b = some t := by
  by_cases e : b = a
  · subst e; obtain ⟨_, t, ht, _⟩ := hi.run d b h; exact ⟨t, ht⟩
  · refine (hi.foreign d b ?_).2
    rcases hp with hp | hp | hp <;> rw [hp] <;> simp [Pc.foreign, e]

theorem live_locks {s : State} (hi : Inv s) (h3 : Inv3 s) {d b : Nat} (h : (s.pc d).locks = some b) : Live s := by
  cases hp : s.pc d <;> rw [hp] at h <;> simp [Pc.locks] at h
  · exact ⟨d, .again, by simp [step, cpuStep, hp, init2]⟩
  · rename_i a
    obtain ⟨_, t, ht, _⟩ := hi.run d a (by rw [hp]; rfl)
    exact ⟨d, .again, by simp [step, cpuStep, hp, ht, sign2]⟩
  · exact live_shared hi h3 (.inl hp)
  · exact live_sh hi (d := d) (by rw [hp]; rfl)
  · rename_i a
    obtain ⟨_, t, ht, _⟩ := hi.run d a (by rw [hp]; rfl)
    refine ⟨d, .again, ?_⟩
    simp only [step, cpuStep, hp, ht, sign5]
    repeat' split
    all_goals simp
  · rename_i a b' r
    obtain ⟨t, ht⟩ := run_some hi (by rw [hp]; rfl) (.inr (.inl hp))
    refine ⟨d, .again, ?_⟩
    simp only [step, cpuStep, hp, ht, write2]
    repeat' split
    all_goals simp
  · rename_i a b' r
    obtain ⟨t, ht⟩ := run_some hi (by rw [hp]; rfl) (.inr (.inr hp))
    refine ⟨d, .again, ?_⟩
    simp only [step, cpuStep, hp, ht, write3]
    split <;> simp
  · exact ⟨d, .again, by simp [step, cpuStep, hp]⟩
  · exact ⟨d, .again, by simp [step, cpuStep, hp]⟩

theorem live_acquire {s : State} (hi : Inv s) (h3 : Inv3 s) {d b : Nat} {p : Pc} {t : Att} (ht : s.recs b = some t)
    (h : ∀ e, step s (.cpu d e false) = acquire s b fun s => .ok (s.go d p)) : Live s := by
  by_cases hl : t.ctx.lock = true
  · obtain ⟨c, hc⟩ := h3.lock b t ht hl
    exact live_locks hi h3 hc
  · refine ⟨d, .again, ?_⟩
    rw [h]
    simp [acquire, ht, hl]

theorem live_write1 {s : State} (hi : Inv s) (h3 : Inv3 s) {d a b : Nat} {r : Resp} (hp : s.pc d = .write1 a b r) :
    Live s := by
  obtain ⟨t, ht⟩ := run_some hi (by rw [hp]; rfl) (.inl hp)
  exact live_acquire (p := .write2 a b r) (d := d) hi h3 ht (fun e => by simp [step, cpuStep, hp])

/-- As long as EL3 reports no error when it is asked for a response, the CPUs are never all stuck: if one of
them is in an operation on a token, then some CPU can take its next step (the locks, among them those of RECs
cleared by `memset` while they are held, cannot deadlock).  Missing: what happens after such an error, see
`C67_lock_leak`. -/
theorem C67_progress_partial {s : State} {c : Nat} (hr : ReachP NoErr start s) (hc : (s.pc c).busy = true) :
    ∃ d e, step s (.cpu d e false) ≠ .blocked := by
  have hi := inv_reach hr
  have h3 := inv3_reach hr
  change Live s
  cases hp : s.pc c
  case host => rw [hp] at hc; cases hc
  case run a => rw [hp] at hc; cases hc
  case init1 a h =>
    obtain ⟨_, t, ht, _⟩ := hi.run c a (by rw [hp]; rfl)
    exact live_acquire (p := .init2 a h) (d := c) hi h3 ht (fun e => by simp [step, cpuStep, hp])
  case init3 a h => exact ⟨c, .again, by simp [step, cpuStep, hp, init3]⟩
  case sign1 a =>
    obtain ⟨_, t, ht, _⟩ := hi.run c a (by rw [hp]; rfl)
    exact live_acquire (p := .sign2 a) (d := c) hi h3 ht (fun e => by simp [step, cpuStep, hp])
  case pull1 a => exact live_shared hi h3 (.inr hp)
  case pull2 a => exact live_sh hi (d := c) (by rw [hp]; rfl)
  case find a r =>
    by_cases hca : r.cookie = a
    · exact ⟨c, .again, by simp [step, cpuStep, hp, findRec, hca]⟩
    · cases hx : s.recs r.cookie with
      | none => exact ⟨c, .again, by simp [step, cpuStep, hp, findRec, hca, hx]⟩
      | some t =>
        cases hg : s.glock r.cookie with
        | false => exact ⟨c, .again, by simp [step, cpuStep, hp, findRec, hca, hx, hg]⟩
        | true =>
          obtain ⟨d, hd⟩ := h3.gl _ hg
          cases hq : s.pc d <;> rw [hq] at hd <;> simp only [Pc.foreign, reduceCtorEq] at hd
          · exact live_write1 hi h3 hq
          all_goals exact live_locks hi h3 (d := d) (by rw [hq]; rfl)
  case write1 a b r => exact live_write1 hi h3 hp
  all_goals exact live_locks hi h3 (d := c) (by rw [hp]; rfl)

/-- A test for `NoErr`. -/
def noErrB (_ : State) : Op → Bool
  | .cpu _ e _ => e != .error
  | _ => true

theorem noErrB_noErr (s : State) (o : Op) (h : noErrB s o = true) : NoErr s o := by
  rintro c e flag a rfl _
  simpa [noErrB] using h

/-- CPU 0 waits for the lock of the context of REC 10, which CPU 1 holds. -/
example : ∃ s, ReachP NoErr start s ∧ (s.pc 0 == .sign1 10 && s.pc 1 == .write3 20 10 ⟨10, 1, 7, 96⟩ &&
    match step s (.cpu 0 .ok false) with | .blocked => true | _ => false) = true :=
  checkW_demo noErrB_noErr (passed ++ [.tokenContinue 0]) (by decide +kernel)

/-- Once EL3 has reported an error for a response, the lock of the buffer shared with EL3 stays taken in every further
execution: no CPU ever gets past the point where it waits for this lock, and no request reaches EL3 any more. -/
theorem C67_lock_leak {s s' s'' : State} {c a : Nat} {flag : Bool} (hr : Reach s) (hp : s.pc c = .pull2 a)
    (hs : step s (.cpu c .error flag) = .ok s') (hr' : ReachP (fun _ _ => True) s' s'') :
    s''.shared = true ∧ (∀ q ∈ s''.reqs, q ∈ s'.reqs) ∧
    ∀ d b e f, (s''.pc d = .sign3 b ∨ s''.pc d = .pull1 b) → step s'' (.cpu d e f) = .blocked := by
  have h4 := inv4_reach hr
  have key : s''.shared = true ∧ (∀ d, (s''.pc d).sh = false) ∧ ∀ q ∈ s''.reqs, q ∈ s'.reqs := by
    induction hr' with
    | start =>
      simp only [step, cpuStep, hp, pull2] at hs
      cases hs
      refine ⟨h4.sh c (by rw [hp]; rfl), ?_, fun _ h => h⟩
      intro d
      simp only [State.go, upd]
      split
      · rfl
      · rename_i hd
        cases hx : (s.pc d).sh with
        | false => rfl
        | true => exact absurd (h4.uniq d c hx (by rw [hp]; rfl)) hd
    | step _ _ hs' ih =>
      obtain ⟨i1, i2, i3⟩ := ih
      rcases sh_step hs' with ⟨h1, h2, h5⟩ | ⟨d, p, h1, h2, h3, h5⟩
      · exact ⟨by rw [h2]; exact i1, fun d => by rw [h1]; exact i2 d, fun q hq => i3 q (h5 q hq)⟩
      · rw [i2 d] at h3 h5
        refine ⟨?_, ?_, fun q hq => i3 q (by rcases h5 with h5 | h5; · cases h5
                                             · exact h5 q hq)⟩
        · rcases h3 with h3 | h3 | h3
          · rw [h3]; exact i1
          · exact h3
          · cases h3
        · intro d'
          rw [h1]; simp only [upd]; split
          · cases hx : p.sh with
            | false => rfl
            | true => have := (h2 hx).1; rw [i1] at this; cases this
          · exact i2 d'
  refine ⟨key.1, key.2.2, ?_⟩
  intro d b e f hd
  rcases hd with hd | hd <;> simp [step, cpuStep, hd, key.1]

/-- CPU 1 is asking for a response, and EL3 reports an error; CPU 0 then waits for ever. -/
example : ∃ s, Reach s ∧ (s.pc 1 == .pull2 20) = true :=
  check_demo (boot ++ request0 ++ request1 ++ steps 1 1) (by decide +kernel)
example : ∃ s, Reach s ∧ (s.shared && s.pc 1 == .run 20 && s.pc 0 == .pull1 10) = true :=
  check_demo (boot ++ request0 ++ request1 ++ steps 1 1 ++ [.cpu 1 .error false, .tokenContinue 0] ++ steps 0 3)
    (by decide +kernel)

end Verif.Sign
