import Verif.Rmm.PropHist

/-!
# Properties of granules (C01, C02, C52)

For every reachable state and every operation: how the state RMM records for a granule,
the physical address space EL3 has it in and its contents go together.
-/

namespace Verif.Rmm

section
variable {P : Plat} {s s' : State} {ret : Ret}
open Demo

/-! ## C01 -/

/-- C01: a tracked granule is in the Realm address space exactly when RMM has it in a
state other than NS. -/
theorem C01_agree (hP : PlatOk P) (hr : Reach P s) {x : Nat} (hx : P.tracked x = true) :
    s.pas x = .realm ↔ s.st x ≠ .ns := by
  obtain ⟨ti, di, rl, h⟩ := hr.inv hP
  exact (h.gpt x hx).symm

/-- C01: an address that RMM does not track is never in a state other than NS. -/
theorem C01_untracked (hP : PlatOk P) (hr : Reach P s) {x : Nat} (hx : P.tracked x = false) : s.st x = .ns := by
  obtain ⟨ti, di, rl, h⟩ := hr.inv hP
  by_contra hn
  have := h.trk x hn
  rw [hx] at this; cases this

/-- C01: GRANULE_DELEGATE always completes.  It succeeds exactly when the granule is tracked,
RMM has it as NS and EL3 has it as Non-secure; then the granule is DELEGATED, Realm and
zero, and nothing else changed.  Otherwise nothing changed at all. -/
theorem C01_delegate (P : Plat) (s : State) (x : Nat) :
    ∃ s' ret, step P s (.granuleDelegate x) = some (s', ret) ∧
      (ret.status = 0 ↔ P.tracked x = true ∧ s.st x = .ns ∧ s.pas x = .ns) ∧
      (ret.status ≠ 0 → s' = s) ∧
      (ret.status = 0 → s'.st x = .delegated ∧ s'.pas x = .realm ∧ s'.mem x = .page 0 ∧
        s'.rc = s.rc ∧ s'.vmid = s.vmid ∧
        ∀ y, y ≠ x → s'.st y = s.st y ∧ s'.pas y = s.pas y ∧ s'.mem y = s.mem y) := by
  show ∃ s' ret, granuleDelegate P s x = some (s', ret) ∧ _
  unfold granuleDelegate
  by_cases h1 : lk P s x .ns = true
  · rw [if_pos h1]
    have h1' := (lk_iff ..).mp h1
    by_cases h2 : s.pas x = .ns
    · rw [if_pos h2]
      refine ⟨_, _, rfl, ⟨fun _ => ⟨h1'.1, h1'.2, h2⟩, fun _ => rfl⟩, fun hn => absurd rfl hn, fun _ => ?_⟩
      refine ⟨upd_same _ _ _, upd_same _ _ _, upd_same _ _ _, rfl, rfl, fun y hy => ?_⟩
      exact ⟨upd_ne _ _ _ hy, upd_ne _ _ _ hy, upd_ne _ _ _ hy⟩
    · rw [if_neg h2]
      refine ⟨_, _, rfl, ⟨fun h => ?_, fun h => absurd h.2.2 h2⟩, fun _ => rfl, fun h => ?_⟩
      · exact absurd h (by decide)
      · exact absurd h (by decide)
  · rw [if_neg h1]
    refine ⟨_, _, rfl, ⟨fun h => ?_, fun h => absurd ((lk_iff ..).mpr ⟨h.1, h.2.1⟩) h1⟩, fun _ => rfl, fun h => ?_⟩
    · exact absurd h (by decide)
    · exact absurd h (by decide)

/-- C01: GRANULE_UNDELEGATE always completes.  It succeeds exactly when the granule is tracked and
DELEGATED; then the granule is NS for RMM and Non-secure for EL3 with its (zero) contents
untouched, and nothing else changed.  Otherwise nothing changed at all. -/
theorem C01_undelegate (hP : PlatOk P) (hr : Reach P s) (x : Nat) :
    ∃ s' ret, step P s (.granuleUndelegate x) = some (s', ret) ∧
      (ret.status = 0 ↔ P.tracked x = true ∧ s.st x = .delegated) ∧
      (ret.status ≠ 0 → s' = s) ∧
      (ret.status = 0 → s'.st x = .ns ∧ s'.pas x = .ns ∧ s'.rc = s.rc ∧ s'.vmid = s.vmid ∧ s'.mem = s.mem ∧
        ∀ y, y ≠ x → s'.st y = s.st y ∧ s'.pas y = s.pas y) := by
  obtain ⟨ti, di, rl, h⟩ := hr.inv hP
  show ∃ s' ret, granuleUndelegate P s x = some (s', ret) ∧ _
  unfold granuleUndelegate
  by_cases h1 : lk P s x .delegated = true
  · rw [if_pos h1]
    have h1' := (lk_iff ..).mp h1
    rw [if_pos ((h.gpt x h1'.1).mp (by rw [h1'.2]; decide))]
    refine ⟨_, _, rfl, ⟨fun _ => h1', fun _ => rfl⟩, fun hn => absurd rfl hn, fun _ => ?_⟩
    refine ⟨upd_same _ _ _, upd_same _ _ _, rfl, rfl, rfl, fun y hy => ?_⟩
    exact ⟨upd_ne _ _ _ hy, upd_ne _ _ _ hy⟩
  · rw [if_neg h1]
    refine ⟨_, _, rfl, ⟨fun h => ?_, fun h => absurd ((lk_iff ..).mpr h) h1⟩, fun _ => rfl, fun h => ?_⟩
    · exact absurd h (by decide)
    · exact absurd h (by decide)

/-- C01: a granule enters or leaves the Realm address space only by a GRANULE_DELEGATE /
GRANULE_UNDELEGATE of that granule that returns success. -/
theorem C01_moves (hP : PlatOk P) (hr : Reach P s) {op : Op} (e : step P s op = some (s', ret)) (x : Nat) :
    (s'.pas x = .realm ↔ s.pas x = .realm) ∨
    (ret.status = 0 ∧ op = .granuleDelegate x ∧ s.pas x = .ns ∧ s'.pas x = .realm) ∨
    (ret.status = 0 ∧ op = .granuleUndelegate x ∧ s.pas x = .realm ∧ s'.pas x = .ns) := by
  obtain ⟨ti, di, rl, h⟩ := hr.inv hP
  rcases step_eff hP h e with ⟨rfl, _⟩ | hh
  · exact Or.inl Iff.rfl
  · have hst := hh.status
    rcases hh.pas_step x with h1 | ⟨rfl, h1, h2⟩ | ⟨rfl, h2⟩ | ⟨b, rfl, h1, h2⟩
    · rw [h1]; exact Or.inl Iff.rfl
    · rcases hst with h0 | ⟨_, _, _, h0⟩
      · exact Or.inr (Or.inl ⟨h0, rfl, h1, h2⟩)
      · cases h0
    · rcases hst with h0 | ⟨_, _, _, h0⟩
      · obtain ⟨k1, k2, _⟩ := hh
        exact Or.inr (Or.inr ⟨h0, rfl, (h.gpt x k1).mp (by rw [k2]; decide), h2⟩)
      · cases h0
    · exact Or.inl ⟨fun h => absurd h h2, fun h => absurd h h1⟩

/-- A state with granules of every kind, and one that EL3 refuses to delegate. -/
example : ∃ s, Reach plat s ∧ (s.st (G 16) == .rd && s.pas (G 16) == .realm && s.st (G 5) == .ns &&
    s.pas (G 5) == .ns && s.st (G 6) == .ns && s.pas (G 6) == .other &&
    (step plat s (.granuleDelegate (G 6))).any (fun x => x.2.status == 1)) = true :=
  Demo.ex (all ++ [.el3Move (G 6) false]) _ (by decide +kernel)

/-! ## C02 -/

/-- C02: a DELEGATED granule holds only zeros. -/
theorem C02_delegated_zero (hP : PlatOk P) (hr : Reach P s) {x : Nat} (hx : s.st x = .delegated) :
    s.mem x = .page 0 := by
  obtain ⟨ti, di, rl, h⟩ := hr.inv hP
  exact h.delPage x hx

/-- C02: a granule that leaves the Realm address space does so with only zeros in it,
whatever it was used for before. -/
theorem C02_handed_back_zero (hP : PlatOk P) (hr : Reach P s) {op : Op} (e : step P s op = some (s', ret)) {x : Nat}
    (hx : P.tracked x = true) (h0 : s.pas x = .realm) (h1 : s'.pas x ≠ .realm) :
    s.mem x = .page 0 ∧ s'.mem x = .page 0 := by
  rcases C01_moves hP hr e x with hh | ⟨_, _, hh, _⟩ | ⟨hs, rfl, _, _⟩
  · exact absurd (hh.mpr h0) h1
  · rw [h0] at hh; cases hh
  · obtain ⟨s2, r2, e2, k1, _, k3⟩ := C01_undelegate hP hr x
    rw [e2] at e; cases e
    have hz := C02_delegated_zero hP hr (k1.mp hs).2
    exact ⟨hz, by rw [(k3 hs).2.2.2.2.1]; exact hz⟩

/-- C02: whenever a granule takes on a use (any state other than NS and DELEGATED), it was
DELEGATED and zero just before; and unless the host supplied the contents of a measured data
page for a realm that is still NEW, pages for the realm or the REC start as zero. -/
theorem C02_fresh_zero (hP : PlatOk P) (hr : Reach P s) {op : Op} (e : step P s op = some (s', ret)) {x : Nat}
    (hne : s'.st x ≠ s.st x) (h1 : s'.st x ≠ .ns) (h2 : s'.st x ≠ .delegated) :
    s.st x = .delegated ∧ s.mem x = .page 0 ∧
    (s'.st x = .recAux → s'.mem x = .page 0) ∧
    (s'.st x = .data → s'.mem x = .page 0 ∨
      ∃ rd a src fl, op = .dataCreate rd x a src fl ∧ (rdOf s rd).state = .new ∧ s.st src = .ns ∧
        s'.mem x = s.mem src) := by
  have key : s.st x = .delegated ∧ (s'.st x = .recAux → s'.mem x = .page 0) ∧
    (s'.st x = .data → s'.mem x = .page 0 ∨
      ∃ rd a src fl, op = .dataCreate rd x a src fl ∧ (rdOf s rd).state = .new ∧ s.st src = .ns ∧
        s'.mem x = s.mem src) := by
    obtain ⟨ti, di, rl, h⟩ := hr.inv hP
    rcases step_eff hP h e with ⟨rfl, _⟩ | hh
    · exact absurd rfl hne
    rcases hh.st_step h x with hs | hs
    · exact absurd hs hne
    cases hs with
    | delegate _ k _ | rttFold _ k _ | rttDestroy _ k _ | dataDestroy _ k _ | realmDestroy _ k _
    | recDestroy _ k _ => exact absurd k h2
    | undelegate _ k _ => exact absurd k h1
    | rttCreate k k' | rd k k' | root k k' | recd k k' =>
      exact ⟨k, fun hk => (by rw [k'] at hk; cases hk), fun hk => (by rw [k'] at hk; cases hk)⟩
    | dataUnknown k k' k'' => exact ⟨k, fun _ => k'', fun _ => Or.inl k''⟩
    | data k k' k1 k2 k3 =>
      exact ⟨k, fun hk => (by rw [k'] at hk; cases hk), fun _ => Or.inr ⟨_, _, _, _, rfl, k3, k1, k2⟩⟩
    | aux k k' k'' => exact ⟨k, fun _ => k'', fun _ => Or.inl k''⟩
  exact ⟨key.1, C02_delegated_zero hP hr key.1, key.2.1, key.2.2⟩

/-- A data page with realm contents is destroyed and handed back: the page the host gets is zero. -/
example : ∃ s s' ret, Reach plat s ∧ step plat s (.granuleUndelegate (G 22)) = some (s', ret) ∧
    (ret.status == 0 && s.st (G 22) == .delegated && (s'.mem (G 22) matches .page 0)) = true :=
  Demo.ex_step (all ++ [.dataDestroy (G 16) 0]) _ (fun s s' ret => ret.status == 0 && s.st (G 22) == .delegated &&
    (s'.mem (G 22) matches .page 0)) (by decide +kernel)

/-- The page held other contents before. -/
example : ∃ s, Reach plat s ∧ (s.st (G 22) == .data && (s.mem (G 22) matches .page 20480)) = true :=
  Demo.ex all _ (by decide +kernel)

/-! ## C52 -/

/-- C52: the granule state machine.  A granule changes state only by one of these commands, issued
by the host, returning success, and only in these ways; in particular every use of a granule
starts from DELEGATED and ends in DELEGATED. -/
theorem C52_transitions (hP : PlatOk P) (hr : Reach P s) {op : Op} (e : step P s op = some (s', ret)) {x : Nat}
    (hne : s'.st x ≠ s.st x) :
    ret.status = 0 ∧
    ((s.st x = .ns ∧ s'.st x = .delegated ∧ op = .granuleDelegate x) ∨
     (s.st x = .delegated ∧ s'.st x = .ns ∧ op = .granuleUndelegate x) ∨
     (s.st x = .delegated ∧ s'.st x = .rd ∧ ∃ p q, op = .realmCreate x p q) ∨
     (s.st x = .delegated ∧ s'.st x = .rtt ∧
       ((∃ rd a lvl, op = .rttCreate rd x a lvl) ∨ ∃ rd p q, op = .realmCreate rd p q)) ∨
     (s.st x = .delegated ∧ s'.st x = .recd ∧ ∃ rd p q, op = .recCreate rd x p q) ∨
     (s.st x = .delegated ∧ s'.st x = .recAux ∧ ∃ rd r p q, op = .recCreate rd r p q) ∨
     (s.st x = .delegated ∧ s'.st x = .data ∧
       ((∃ rd a src fl, op = .dataCreate rd x a src fl) ∨ ∃ rd a, op = .dataCreateUnknown rd x a)) ∨
     (s.st x = .rd ∧ s'.st x = .delegated ∧ op = .realmDestroy x) ∨
     (s.st x = .rtt ∧ s'.st x = .delegated ∧
       ((∃ rd a lvl, op = .rttDestroy rd a lvl) ∨ (∃ rd a lvl, op = .rttFold rd a lvl) ∨
         ∃ rd, op = .realmDestroy rd)) ∨
     (s.st x = .recd ∧ s'.st x = .delegated ∧ op = .recDestroy x) ∨
     (s.st x = .recAux ∧ s'.st x = .delegated ∧ ∃ r, op = .recDestroy r ∧ x ∈ (recOf s r).aux) ∨
     (s.st x = .data ∧ s'.st x = .delegated ∧ ∃ rd a, op = .dataDestroy rd a)) := by
  obtain ⟨ti, di, rl, h⟩ := hr.inv hP
  rcases step_eff hP h e with ⟨rfl, _⟩ | hh
  · exact absurd rfl hne
  have hst := hh.status
  rcases hh.st_step h x with hs | hs
  · exact absurd hs hne
  have h0 : ret.status = 0 := by
    rcases hst with h0 | ⟨c, t, st, rfl⟩
    · exact h0
    · cases hs
  refine ⟨h0, ?_⟩
  cases hs with
  | delegate k k' _ => exact Or.inl ⟨k, k', rfl⟩
  | undelegate k k' _ => exact Or.inr (Or.inl ⟨k, k', rfl⟩)
  | rd k k' => exact Or.inr (Or.inr (Or.inl ⟨k, k', _, _, rfl⟩))
  | rttCreate k k' => exact Or.inr (Or.inr (Or.inr (Or.inl ⟨k, k', Or.inl ⟨_, _, _, rfl⟩⟩)))
  | root k k' => exact Or.inr (Or.inr (Or.inr (Or.inl ⟨k, k', Or.inr ⟨_, _, _, rfl⟩⟩)))
  | recd k k' => exact Or.inr (Or.inr (Or.inr (Or.inr (Or.inl ⟨k, k', _, _, _, rfl⟩))))
  | aux k k' _ => exact Or.inr (Or.inr (Or.inr (Or.inr (Or.inr (Or.inl ⟨k, k', _, _, _, _, rfl⟩)))))
  | dataUnknown k k' _ =>
    exact Or.inr (Or.inr (Or.inr (Or.inr (Or.inr (Or.inr (Or.inl ⟨k, k', Or.inr ⟨_, _, rfl⟩⟩))))))
  | data k k' _ _ _ =>
    exact Or.inr (Or.inr (Or.inr (Or.inr (Or.inr (Or.inr (Or.inl ⟨k, k', Or.inl ⟨_, _, _, _, rfl⟩⟩))))))
  | rttFold k k' _ =>
    refine Or.inr (Or.inr (Or.inr (Or.inr (Or.inr (Or.inr (Or.inr (Or.inr (Or.inl ⟨k, k', ?_⟩))))))))
    exact Or.inr (Or.inl ⟨_, _, _, rfl⟩)
  | rttDestroy k k' _ =>
    refine Or.inr (Or.inr (Or.inr (Or.inr (Or.inr (Or.inr (Or.inr (Or.inr (Or.inl ⟨k, k', ?_⟩))))))))
    exact Or.inl ⟨_, _, _, rfl⟩
  | dataDestroy k k' _ =>
    exact Or.inr (Or.inr (Or.inr (Or.inr (Or.inr (Or.inr (Or.inr (Or.inr (Or.inr (Or.inr (Or.inr
      ⟨k, k', _, _, rfl⟩))))))))))
  | @realmDestroy rd k k' _ =>
    have kk : RealmDestroyOk s rd s' ret := hh
    rcases k with k | k
    · refine Or.inr (Or.inr (Or.inr (Or.inr (Or.inr (Or.inr (Or.inr (Or.inl ⟨k, k', ?_⟩)))))))
      by_contra hx
      replace hx : x ≠ rd := fun h => hx (by rw [h])
      apply hne
      rw [kk.st]; simp only [realmDestroySt]
      rw [upd_ne _ _ _ hx, if_neg]
      intro hin
      obtain ⟨j, hj, rfl⟩ := (inRange_iff ..).mp hin
      have := ((h.rds rd kk.rd).roots j hj).1
      rw [k] at this; cases this
    · refine Or.inr (Or.inr (Or.inr (Or.inr (Or.inr (Or.inr (Or.inr (Or.inr (Or.inl ⟨k, k', ?_⟩))))))))
      exact Or.inr (Or.inr ⟨_, rfl⟩)
  | @recDestroy r k k' _ =>
    have kk : RecDestroyOk s r s' ret := hh
    rcases k with k | k
    · refine Or.inr (Or.inr (Or.inr (Or.inr (Or.inr (Or.inr (Or.inr (Or.inr (Or.inr (Or.inl ⟨k, k', ?_⟩)))))))))
      by_contra hx
      replace hx : x ≠ r := fun h => hx (by rw [h])
      apply hne
      rw [kk.st]; simp only [recDestroySt]
      rw [upd_ne _ _ _ hx, if_neg]
      intro hin
      have := (h.recs r kk.recd).auxSt x hin
      rw [k] at this; cases this
    · refine Or.inr (Or.inr (Or.inr (Or.inr (Or.inr (Or.inr (Or.inr (Or.inr (Or.inr (Or.inr (Or.inl
        ⟨k, k', r, rfl, ?_⟩))))))))))
      by_contra hx
      apply hne
      rw [kk.st]; simp only [recDestroySt]
      rw [upd_ne _ _ _ (ne_of_st k kk.recd (by simp)), if_neg hx]

/-- C52: so every use of a granule begins and ends in DELEGATED. -/
theorem C52_through_delegated (hP : PlatOk P) (hr : Reach P s) {op : Op} (e : step P s op = some (s', ret)) {x : Nat}
    (hne : s'.st x ≠ s.st x) : s.st x = .delegated ∨ s'.st x = .delegated := by
  rcases (C52_transitions hP hr e hne).2 with h | h | h | h | h | h | h | h | h | h | h | h
  all_goals first | exact Or.inl h.1 | exact Or.inr h.2.1

/-- Each kind of transition happens. -/
example : ∃ s s' ret, Reach plat s ∧ step plat s (.recDestroy (G 32)) = some (s', ret) ∧
    (ret.status == 0 && s.st (G 33) == .recAux && s'.st (G 33) == .delegated && s.st (G 32) == .recd &&
     s'.st (G 32) == .delegated) = true :=
  Demo.ex_step all _ (fun s s' ret => ret.status == 0 && s.st (G 33) == .recAux && s'.st (G 33) == .delegated &&
    s.st (G 32) == .recd && s'.st (G 32) == .delegated) (by decide +kernel)

example : ∃ s s' ret, Reach plat s ∧ step plat s (.realmDestroy (G 16)) = some (s', ret) ∧
    (ret.status == 0 && s.st (G 17) == .rtt && s'.st (G 17) == .delegated && s.st (G 16) == .rd &&
     s'.st (G 16) == .delegated) = true :=
  Demo.ex_step (mkRealm.take 7) _ (fun s s' ret => ret.status == 0 && s.st (G 17) == .rtt &&
    s'.st (G 17) == .delegated && s.st (G 16) == .rd && s'.st (G 16) == .delegated) (by decide +kernel)

end
end Verif.Rmm
