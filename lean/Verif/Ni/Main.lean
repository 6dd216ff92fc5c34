import Verif.Ni.Label

/-!
# Hidden steps change nothing visible, visible steps depend on nothing hidden
-/

namespace Verif.Ni

open Rmm

section
variable {P : Plat} {V : Nat → Bool} {o : Obs} {s t s' t' : State} {ret ret' : Ret}
  {ti : Nat → TabInfo} {di : Nat → Nat × Nat} {rl : Nat → List Nat}

/-- A running REC has no PSCI request pending. -/
theorem not_pending (hP : PlatOk P) (hr : Reach P s) {q : Nat} (hq : s.st q = .recd) (h1 : s.rc q = 1) :
    (recOf s q).psciPending = false := by
  induction hr generalizing q with
  | init h => rw [h.st] at hq; cases hq
  | @step s0 s1 op ret hr e ih =>
    obtain ⟨ti, di, rl, h⟩ := hr.inv hP
    rcases step_eff hP h e with ⟨rfl, _⟩ | hh
    · exact ih hq h1
    rcases hh.rec_step h hq with ⟨k1, k2, k3⟩ | k
    · rw [k2]; exact ih k1 (by rw [← k3]; exact h1)
    have hc : ∀ c : Rec, (completeSetRipas c).psciPending = c.psciPending := by
      intro c; unfold completeSetRipas; split <;> rfl
    cases k with
    | create _ _ k3 => rw [h1] at k3; cases k3
    | setRipas _ _ k3 => rw [h1] at k3; cases k3
    | psciCall _ _ k3 => rw [h1] at k3; cases k3
    | psciTarget _ _ k3 => rw [h1] at k3; cases k3
    | enter _ _ _ _ k4 _ k5 => rw [k5, hc]; exact k4
    | run k1 k2 _ k4 => rw [k4]; exact ih k1 k2
    | psciReq _ _ k3 => rw [h1] at k3; cases k3
    | ipaStateSet _ _ k3 => rw [h1] at k3; cases k3
    | ipaStateSetErr k1 k2 _ k4 => rw [k4]; exact ih k1 k2
    | systemOff _ _ k3 => rw [h1] at k3; cases k3

/-- Nothing is visible of the registers of a hidden REC that runs. -/
theorem lowRec_hidden {c c' : Rec} (h : bare c = bare c') (hp : c.psciPending = false) :
    lowRec false c = lowRec false c' := by
  have hp' : c'.psciPending = false := by rw [← hp]; exact (congrArg Rec.psciPending h).symm
  unfold lowRec
  rw [hp, hp']
  unfold bare at h
  rw [Rec.mk.injEq] at h ⊢
  exact ⟨h.1, h.2.1, h.2.2.1, h.2.2.2.1, rfl, rfl, h.2.2.2.2.2.2.1, rfl⟩

/-- A change of one granule. -/
theorem low_one {x : Nat} {c c' : Content} {st : Nat → GSt} {rc : Nat → Nat} {pas : Nat → Pas} {vm : Nat → Bool}
    {m : Nat → Content} (h : lowC o x (st x) c' = lowC o x (st x) c) (hc : m x = c) :
    low o ⟨st, rc, upd m x c', pas, vm⟩ = low o ⟨st, rc, m, pas, vm⟩ := by
  refine low_of fun a => ?_
  unfold upd
  split
  · rename_i ha; rw [ha, hc]; exact h
  · rfl

theorem lowC_recd {x : Nat} {e : GSt} {c c' : Rec} (hr : c'.rd = c.rd)
    (h : lowRec (o c.rd) c' = lowRec (o c.rd) c) : lowC o x e (.recd c') = lowC o x e (.recd c) := by
  simp only [lowC, hr, h]

/-- A hidden write to memory. -/
theorem low_write {x p : Nat} (hx : s.st x = .data ∨ s.st x = .recAux) (hp : ∃ q, s.mem x = .page q)
    (hd : Vis V s x → upd s.mem x (.page p) x = s.mem x) :
    low (obs V s) { s with mem := upd s.mem x (.page p) } = low (obs V s) s := by
  obtain ⟨q, hq⟩ := hp
  refine low_one ?_ hq
  simp only [lowC]
  by_cases hv : Vis V s x
  · have := hd hv
    rw [upd_same, hq] at this
    rw [Content.page.inj this]
  · have : (obs V s).D x = false := by simpa [obs] using hv
    rw [this]
    simp only [hx, and_self, if_true]

theorem leaves_eq {op : Op} {r : Nat} (e : step P s op = some (s', ret)) :
    leaves P s op r = (s.rc r == 1 && s'.rc r == 0) := by
  unfold leaves; rw [e]

/-- A step that is hidden from the coalition changes nothing that it can see. -/
theorem hidden (hP : PlatOk P) (hr : Reach P s) {op : Op} (e : step P s op = some (s', ret))
    (hl : label P V s op = none) : L V s s' := by
  obtain ⟨ti, di, rl, h⟩ := hr.inv hP
  rcases step_eff hP h e with ⟨rfl, _⟩ | hh
  · exact L.refl _
  have sm : ∀ {q}, addressed s op = some q → V q = false → ∀ x, Vis V s x → s'.mem x = s.mem x := by
    intro q ha hq x hx
    rcases hx with ⟨r, a, rp, h1, h2⟩ | ⟨y, h1, h2, h3⟩
    · refine (C05_step hP hr e (r := r) ?_).data a rp x h2
      rintro h3; rw [ha] at h3; cases h3; rw [hq] at h1; cases h1
    · refine ((C05_step hP hr e (r := (recOf s y).rd) ?_).aux y x h1 rfl h3).2
      rintro h4; rw [ha] at h4; cases h4; rw [hq] at h2; cases h2
  cases op with
  | recRun r stop off regs pc =>
    dsimp only [label] at hl
    split at hl
    · cases hl
    rename_i hm
    split at hl
    · cases hl
    rename_i hs
    have hV : V (recOf s r).rd = false := by simpa [mine] using hm
    have hs : stop = false := by simpa using hs
    obtain ⟨h0, h1, _, rfl⟩ := hh
    subst hs
    have hp := not_pending hP hr h0 h1
    have hu : upd s.rc r (if false = true then 0 else 1) = s.rc := by
      funext y; unfold upd; split
      · rename_i hy; rw [hy, h1]
      · rfl
    rw [hu]
    refine low_one (lowC_recd (c := recOf s r) rfl ?_) (h.recs r h0).mem
    rw [show (obs V s) (recOf s r).rd = false from hV]
    exact lowRec_hidden (by simp [bare]) hp
  | psciRequest r =>
    dsimp only [label] at hl
    split at hl
    · cases hl
    split at hl
    · cases hl
    rename_i hs
    obtain ⟨h0, h1, _, h2, rfl⟩ := hh
    rw [leaves_eq e] at hs
    simp [h1, upd] at hs
  | rsiIpaStateSet r b t v c =>
    dsimp only [label] at hl
    split at hl
    · cases hl
    rename_i hm
    rw [leaves_eq e] at hm
    simp only [Bool.or_eq_true, not_or, Bool.not_eq_true] at hm
    have hV : V (recOf s r).rd = false := by simpa [mine] using hm.1
    obtain ⟨h0, h1, _, h5⟩ := hh
    rcases h5 with rfl | ⟨_, _, _, _, _, rfl⟩
    · have hp := not_pending hP hr h0 h1
      refine low_one (lowC_recd (c := recOf s r) rfl ?_) (h.recs r h0).mem
      rw [show (obs V s) (recOf s r).rd = false from hV]
      exact lowRec_hidden rfl hp
    · have := hm.2
      simp [h1, upd] at this
  | rsiExtend r i v =>
    dsimp only [label] at hl
    split at hl
    · cases hl
    rename_i hm
    have hV : V (recOf s r).rd = false := by simpa [mine] using hm
    obtain ⟨h0, h1, _, hi, hj, rfl⟩ := hh
    refine low_one (lowC_rd (r' := rdOf s (recOf s r).rd) ?_) (h.rds _ (h.recs r h0).rd).mem
    rw [show (obs V s) (recOf s r).rd = false from hV]
    rfl
  | realmWrite r a p =>
    dsimp only [label] at hl
    split at hl
    · cases hl
    rename_i hm
    have hV : V (recOf s r).rd = false := by simpa [mine] using hm
    obtain ⟨h0, h1, _, x, rfl, h5⟩ := hh
    rcases h5 with ⟨h6, _⟩ | ⟨h6, h7, _, at_, h8⟩
    · exact low_write (Or.inl h6) (h.dataPage x h6) (fun hx => sm (q := (recOf s r).rd) rfl hV x hx)
    · rw [hostPage, if_pos ⟨h0, h1⟩, h8] at hl
      simp [h7] at hl
  | auxWrite r a p =>
    dsimp only [label] at hl
    split at hl
    · cases hl
    rename_i hm
    have hV : V (recOf s r).rd = false := by simpa [mine] using hm
    obtain ⟨_, _, _, _, h7, rfl⟩ := hh
    exact low_write (Or.inr h7) (h.auxPage a h7) (fun hx => sm (q := (recOf s r).rd) rfl hV a hx)
  | _ => cases hl

/-- What an operation puts in a page that becomes memory of a realm. -/
def fill (s : State) : Op → Content
  | .dataCreate _ _ _ src _ => s.mem src
  | _ => .page 0

/-- Memory that comes into the coalition's sight holds what `fill` says. -/
theorem new_vis (hP : PlatOk P) (hr : Reach P s) {op : Op} (e : step P s op = some (s', ret)) {x : Nat}
    (hn : ¬ Vis V s x) (hv : Vis V s' x) :
    s'.mem x = fill s op ∧ (∀ rd d a src fl, op = .dataCreate rd d a src fl → s.st src = .ns) := by
  obtain ⟨ti, di, rl, h⟩ := hr.inv hP
  rcases hv with ⟨r, a, rp, h1, h2⟩ | ⟨q, h1, h2, h3⟩
  · rcases view_step hP hr e r a with h3 | ⟨h0, h3⟩
    · rw [h3] at h2
      exact absurd (Or.inl ⟨r, a, rp, h1, h2⟩) hn
    cases h3 with
    | dataUnknown _ _ _ h6 _ h8 =>
      rw [h2] at h8; cases h8
      exact ⟨h6, fun _ _ _ _ _ h => by cases h⟩
    | @data b y src fl rp' _ _ _ h6 _ _ h8 =>
      rw [h2] at h8; cases h8
      refine ⟨h6, fun rd d a src fl h => ?_⟩
      cases h
      exact (C10_data_create hP hr e h0).2.2.2.2.2.1
    | setAssigned _ _ _ _ _ _ h7 h8 =>
      rw [h2] at h8; cases h8
      exact absurd (Or.inl ⟨r, a, _, h1, h7⟩) hn
    | map _ _ _ _ h5 => rw [h2] at h5; cases h5
    | unmap _ _ _ _ h5 => rw [h2] at h5; cases h5
    | rttDestroy _ _ _ _ h5 => rw [h2] at h5; cases h5
    | rttDestroyNs _ _ _ h5 => rw [h2] at h5; cases h5
    | dataDestroy _ _ _ h5 => rw [h2] at h5; cases h5
    | init _ _ _ _ h5 => rw [h2] at h5; cases h5
    | set _ _ _ _ _ _ _ h5 => rw [h2] at h5; cases h5
    | create _ _ h5 => rw [h2] at h5; rcases h5 with h5 | h5 <;> cases h5
    | destroy h5 => rw [h2] at h5; cases h5
  · rcases step_eff hP h e with ⟨rfl, _⟩ | hh
    · exact absurd (Or.inr ⟨q, h1, h2, h3⟩) hn
    rcases hh.rec_step h h1 with ⟨k1, k2, _⟩ | k
    · rw [k2] at h2 h3
      exact absurd (Or.inr ⟨q, k1, h2, h3⟩) hn
    have old : ∀ {c : Rec}, s.st q = .recd → recOf s' q = c → c.aux = (recOf s q).aux → c.rd = (recOf s q).rd → False := by
      intro c k1 k4 k2 k3
      rw [k4] at h2 h3
      rw [k2] at h3
      rw [k3] at h2
      exact hn (Or.inr ⟨q, k1, h2, h3⟩)
    have hc : ∀ c : Rec, (completeSetRipas c).rd = c.rd ∧ (completeSetRipas c).aux = c.aux := by
      intro c; unfold completeSetRipas; split <;> exact ⟨rfl, rfl⟩
    cases k with
    | create k1 k2 k3 =>
      refine ⟨?_, fun _ _ _ _ _ h => by cases h⟩
      rename_i rd p q'
      have k : RecCreateOk P s rd q q' s' ret := hh
      rw [k2] at h3
      have hd := (k.aux x h3).2
      rw [k.st]
      simp only [recCreateSt, markAux, fill]
      rw [upd_ne _ _ _ (ne_of_st hd k.rd (by simp)), upd_ne _ _ _ (by rintro rfl; exact k.recNot h3)]
      exact h.delPage x hd
    | setRipas k1 _ _ k4 => exact (old k1 k4 rfl rfl).elim
    | psciCall k1 _ _ _ k4 => exact (old k1 k4 rfl rfl).elim
    | psciTarget k1 _ _ _ _ k4 => exact (old k1 k4 rfl rfl).elim
    | enter k1 _ _ _ _ _ k5 => exact (old k1 k5 (hc _).2 (hc _).1).elim
    | run k1 _ _ k4 => exact (old k1 k4 rfl rfl).elim
    | psciReq k1 _ _ _ k4 => exact (old k1 k4 rfl rfl).elim
    | ipaStateSet k1 _ _ _ _ _ _ _ k4 => exact (old k1 k4 rfl rfl).elim
    | ipaStateSetErr k1 _ _ k4 => exact (old k1 k4 rfl rfl).elim
    | systemOff k1 _ _ k4 => exact (old k1 k4 rfl rfl).elim

/-- Pages that come into sight are alike when they are filled alike. -/
theorem L_step (hP : PlatOk P) (hs : Reach P s) (ht : Reach P t) (hL : L V s t) {op op' : Op}
    (es : step P s op = some (s', ret)) (et : step P t op' = some (t', ret'))
    (hf : (∀ rd d a src fl, op = .dataCreate rd d a src fl → s.st src = .ns) → fill t op' = fill s op)
    (h : low (obs V s) t' = low (obs V s) s') : L V s' t' := by
  refine L_of (o := obs V s) rfl h fun x hx => ?_
  by_cases hv : Vis V s x
  · exact Or.inl (by simpa [obs] using hv)
  right
  obtain ⟨h1, h2⟩ := new_vis hP hs es hv hx
  obtain ⟨h3, _⟩ := new_vis hP ht et (fun k => hv ((vis_of hL x).mp k)) ((vis_of h x).mpr hx)
  rw [h1, h3, hf h2]

/-- Memory of the host is visible. -/
theorem ns_of (hL : low o t = low o s) {x : Nat} (hx : s.st x = .ns) (hp : ∃ p, s.mem x = .page p) :
    t.mem x = s.mem x := by
  have := mem_of hL x
  obtain ⟨p, hp⟩ := hp
  rw [hx, hp] at this
  rw [hp]
  cases h1 : t.mem x <;> rw [h1] at this
  · simpa [lowC] using this
  all_goals cases this

/-- Both states get a REC that looks the same, and that does not run any more. -/
theorem low_rec (hL : low o t = low o s) {r : Nat} {c c' : Rec} (hr : c'.rd = c.rd)
    (h : lowRec (o c.rd) c' = lowRec (o c.rd) c) :
    low o { t with mem := upd t.mem r (.recd c'), rc := upd t.rc r 0 } =
      low o { s with mem := upd s.mem r (.recd c), rc := upd s.rc r 0 } := by
  rw [show t.rc = s.rc from rc_of hL, show t.st = s.st from st_of hL, show t.pas = s.pas from pas_of hL,
    show t.vmid = s.vmid from (congrArg State.vmid hL :)]
  refine low_of fun a => ?_
  unfold upd
  split
  · exact lowC_recd hr h
  · exact mem_of hL a

/-- The same operation in two states that look the same. -/
theorem same_op (hP : PlatOk P) (hs : Reach P s) (ht : Reach P t) (hL : L V s t) {op : Op}
    (ho : ∀ r, op = .psciRequest r → mine V s r = true)
    (es : step P s op = some (s', ret)) (et : step P t op = some (t', ret')) : ret' = ret ∧ L V s' t' := by
  have own : ∀ {u : State}, (∀ r, mine V u r = mine V s r) → ∀ r, op = .psciRequest r → Owned (obs V s) u r := by
    intro u hu r hr c hc
    have := ho r hr
    rw [← hu] at this
    unfold mine recOf at this
    rw [hc] at this
    exact this
  have e1 := step_low (V := obs V s) (P := P) (s := s) op (own fun _ => rfl)
  have e2 := step_low (V := obs V s) (P := P) (s := t) op (own (mine_of hL))
  rw [show low (obs V s) t = low (obs V s) s from hL, e1, es, et] at e2
  unfold lowOut at e2
  simp only [Option.map_some, Option.some.injEq, Prod.mk.injEq] at e2
  refine ⟨e2.2.symm, L_step hP hs ht hL es et ?_ e2.1.symm⟩
  intro hsrc
  cases op with
  | dataCreate rd d a src fl => 
    obtain ⟨_, _, _, h⟩ := hs.inv hP
    exact ns_of hL (hsrc _ _ _ _ _ rfl) (h.nsPage _ (hsrc _ _ _ _ _ rfl))
  | _ => rfl

/-- Whether an operation fails an assertion depends on nothing hidden. -/
theorem same_none (hL : L V s t) {op : Op} (ho : ∀ r, op ≠ .psciRequest r) :
    step P t op = none ↔ step P s op = none := by
  have e1 := step_low (V := obs V s) (P := P) (s := s) op (fun r h => absurd h (ho r))
  have e2 := step_low (V := obs V s) (P := P) (s := t) op (fun r h => absurd h (ho r))
  rw [show low (obs V s) t = low (obs V s) s from hL, e1] at e2
  unfold lowOut at e2
  rw [← Option.map_eq_none_iff, ← e2, Option.map_eq_none_iff]

theorem label_op {op q : Op} (h : label P V s op = some (.op q)) :
    op = q ∧ ∀ r, op = .psciRequest r → mine V s r = true := by
  cases op with
  | recRun r stop off regs pc =>
    dsimp only [label] at h
    split at h
    · cases h; exact ⟨rfl, fun _ h => by cases h⟩
    · split at h <;> cases h
  | psciRequest r =>
    dsimp only [label] at h
    split at h
    · rename_i hm; cases h; exact ⟨rfl, fun _ h => by cases h; exact hm⟩
    · split at h <;> cases h
  | rsiIpaStateSet r b t v c =>
    dsimp only [label] at h
    split at h <;> cases h
    exact ⟨rfl, fun _ h => by cases h⟩
  | rsiExtend r i v =>
    dsimp only [label] at h
    split at h <;> cases h
    exact ⟨rfl, fun _ h => by cases h⟩
  | realmWrite r a p =>
    dsimp only [label] at h
    split at h
    · cases h; exact ⟨rfl, fun _ h => by cases h⟩
    · cases hh : hostPage s r a <;> rw [hh] at h <;> cases h
  | auxWrite r a p =>
    dsimp only [label] at h
    split at h <;> cases h
    exact ⟨rfl, fun _ h => by cases h⟩
  | _ => cases h; exact ⟨rfl, fun _ h => by cases h⟩

theorem label_exit {op : Op} {r : Nat} {off : Bool} (h : label P V s op = some (.exit r off)) :
    ∃ regs pc, op = .recRun r true off regs pc ∧ V (recOf s r).rd = false := by
  cases op with
  | recRun r stop off regs pc =>
    dsimp only [label] at h
    split at h
    · cases h
    · rename_i hm
      split at h
      · rename_i hs; cases h
        exact ⟨regs, pc, by rw [hs], by simpa [mine] using hm⟩
      · cases h
  | realmWrite r a p =>
    dsimp only [label] at h
    split at h
    · cases h
    · cases hh : hostPage s r a <;> rw [hh] at h <;> cases h
  | psciRequest r => dsimp only [label] at h; split at h <;> [cases h; (split at h <;> cases h)]
  | rsiIpaStateSet r b t v c => dsimp only [label] at h; split at h <;> cases h
  | rsiExtend r i v => dsimp only [label] at h; split at h <;> cases h
  | auxWrite r a p => dsimp only [label] at h; split at h <;> cases h
  | _ => cases h

theorem label_psci {op : Op} {r : Nat} {x0 x1 x2 x3 : BitVec 64} (h : label P V s op = some (.psci r x0 x1 x2 x3)) :
    op = .psciRequest r ∧ V (recOf s r).rd = false ∧ leaves P s op r = true ∧
      (recOf s r).regs 0 = x0 ∧ (recOf s r).regs 1 = x1 ∧ (recOf s r).regs 2 = x2 ∧ (recOf s r).regs 3 = x3 := by
  cases op with
  | recRun r stop off regs pc => dsimp only [label] at h; split at h <;> [cases h; (split at h <;> cases h)]
  | realmWrite r a p =>
    dsimp only [label] at h
    split at h
    · cases h
    · cases hh : hostPage s r a <;> rw [hh] at h <;> cases h
  | psciRequest r =>
    dsimp only [label] at h
    split at h
    · cases h
    · rename_i hm
      split at h
      · rename_i hl
        cases h
        exact ⟨rfl, by simpa [mine] using hm, hl, rfl, rfl, rfl, rfl⟩
      · cases h
  | rsiIpaStateSet r b t v c => dsimp only [label] at h; split at h <;> cases h
  | rsiExtend r i v => dsimp only [label] at h; split at h <;> cases h
  | auxWrite r a p => dsimp only [label] at h; split at h <;> cases h
  | _ => cases h

theorem label_store {op : Op} {x p : Nat} (h : label P V s op = some (.store x p)) :
    ∃ r a, op = .realmWrite r a p ∧ hostPage s r a = some x := by
  cases op with
  | recRun r stop off regs pc => dsimp only [label] at h; split at h <;> [cases h; (split at h <;> cases h)]
  | realmWrite r a p =>
    dsimp only [label] at h
    split at h
    · cases h
    · cases hh : hostPage s r a <;> rw [hh] at h <;> cases h
      exact ⟨r, a, rfl, hh⟩
  | psciRequest r => dsimp only [label] at h; split at h <;> [cases h; (split at h <;> cases h)]
  | rsiIpaStateSet r b t v c => dsimp only [label] at h; split at h <;> cases h
  | rsiExtend r i v => dsimp only [label] at h; split at h <;> cases h
  | auxWrite r a p => dsimp only [label] at h; split at h <;> cases h
  | _ => cases h

/-- A store of a realm to a page of the host's memory. -/
theorem store_eq (hP : PlatOk P) (hr : Reach P s) {r a x p : Nat} (hx : hostPage s r a = some x)
    (e : step P s (.realmWrite r a p) = some (s', ret)) :
    s.pas x = .ns ∧ ret = {} ∧ s' = { s with mem := upd s.mem x (.page p) } := by
  obtain ⟨ti, di, rl, h⟩ := hr.inv hP
  unfold hostPage at hx
  split at hx
  swap
  · cases hx
  rename_i h1
  have hrd := (h.recs r h1.1).rd
  cases hv : view s (recOf s r).rd a with
  | none => rw [hv] at hx; cases hx
  | some v =>
    rw [hv] at hx
    cases v with
    | assignedNs at_ y =>
      dsimp only at hx
      split at hx <;> cases hx
      rename_i hp
      refine ⟨hp, ?_⟩
      obtain ⟨pa, ht⟩ : ∃ pa, translate s (rdOf s (recOf s r).rd) a = some (pa, true) := by
        unfold view leaf at hv
        rw [getRd_eq h hrd] at hv
        dsimp only at hv
        by_cases ha : a < (rdOf s (recOf s r).rd).ipaSize
        · rw [if_pos ha] at hv
          unfold translate
          rw [if_pos ha]
          cases hw : hwWalk s a (rdOf s (recOf s r).rd).d0 (rootFor (rdOf s (recOf s r).rd) a).2 with
          | none => rw [hw] at hv; cases hv
          | some w =>
            obtain ⟨e, d⟩ := w
            rw [hw] at hv
            dsimp only at hv
            cases e <;> simp [pageView] at hv
            exact ⟨_, rfl⟩
        · rw [if_neg ha] at hv; cases hv
      obtain ⟨_, h2⟩ := translate_spec h hrd ht
      rcases h2 with ⟨h2, _⟩ | ⟨_, _, at', h3⟩
      · cases h2
      rw [hv] at h3
      have hxy : x = pa / 4096 * 4096 := by cases h3; rfl
      change realmWrite s r a p = _ at e
      unfold realmWrite at e
      rw [if_pos h1, getRec_eq h h1.1] at e
      dsimp only at e
      rw [getRd_eq h hrd] at e
      dsimp only at e
      rw [ht] at e
      dsimp only at e
      rw [if_pos (by rw [← hxy]; exact hp), ← hxy] at e
      cases e
      exact ⟨rfl, rfl⟩
    | _ => cases hx

/-- Visible steps with the same label, in two states that look the same, give the same answer and lead to states that look
the same. -/
theorem visible (hP : PlatOk P) (hs : Reach P s) (ht : Reach P t) (hL : L V s t) {op op' : Op} {l : Lab}
    (es : step P s op = some (s', ret)) (et : step P t op' = some (t', ret'))
    (ls : label P V s op = some l) (lt : label P V t op' = some l) : ret' = ret ∧ L V s' t' := by
  obtain ⟨ti, di, rl, h⟩ := hs.inv hP
  obtain ⟨tj, dj, rj, h'⟩ := ht.inv hP
  cases l with
  | op q =>
    obtain ⟨rfl, h1⟩ := label_op ls
    obtain ⟨rfl, h2⟩ := label_op lt
    exact same_op hP hs ht hL h1 es et
  | exit r off =>
    obtain ⟨regs, pc, rfl, hV⟩ := label_exit ls
    obtain ⟨regs', pc', rfl, hV'⟩ := label_exit lt
    have es0 := es
    have et0 := et
    change recRun s r true off regs pc = _ at es
    change recRun t r true off regs' pc' = _ at et
    unfold recRun at es et
    by_cases h1 : s.st r = .recd ∧ s.rc r = 1
    · have h2 : t.st r = .recd ∧ t.rc r = 1 := by rw [st_of hL, rc_of hL]; exact h1
      rw [if_pos h1, getRec_eq h h1.1] at es
      rw [if_pos h2, getRec_eq h' h2.1] at et
      cases es
      cases et
      refine ⟨rfl, L_step hP hs ht hL es0 et0 (fun _ => rfl) (low_rec hL (recRd_of hL r) ?_)⟩
      rw [show (obs V s) (recOf s r).rd = false from hV]
      have hb := bare_of hL r
      unfold bare at hb
      rw [Rec.mk.injEq] at hb
      refine lowRec_hidden ?_ (not_pending hP ht h2.1 h2.2)
      unfold bare
      rw [Rec.mk.injEq]
      exact ⟨hb.1, hb.2.1, by rw [hb.2.2.1], hb.2.2.2.1, rfl, rfl, hb.2.2.2.2.2.2.1, hb.2.2.2.2.2.2.2⟩
    · have h2 : ¬ (t.st r = .recd ∧ t.rc r = 1) := by rw [st_of hL, rc_of hL]; exact h1
      rw [if_neg h1] at es
      rw [if_neg h2] at et
      cases es; cases et
      exact ⟨rfl, hL⟩
  | psci r x0 x1 x2 x3 =>
    obtain ⟨rfl, hV, hl, e0, e1, e2, e3⟩ := label_psci ls
    obtain ⟨rfl, hV', hl', f0, f1, f2, f3⟩ := label_psci lt
    rw [leaves_eq es] at hl
    rw [leaves_eq et] at hl'
    simp only [Bool.and_eq_true, beq_iff_eq] at hl hl'
    rcases step_eff hP h es with ⟨rfl, _⟩ | hh
    · omega
    rcases step_eff hP h' et with ⟨rfl, _⟩ | hh'
    · omega
    obtain ⟨a0, a1, a2, _, a3⟩ := hh
    obtain ⟨b0, b1, b2, _, b3⟩ := hh'
    refine ⟨by rw [a2, b2], L_step hP hs ht hL es et (fun _ => rfl) ?_⟩
    rw [a3, b3]
    refine low_rec hL (recRd_of hL r) ?_
    rw [show (obs V s) (recOf s r).rd = false from hV]
    have hb := bare_of hL r
    unfold bare at hb
    rw [Rec.mk.injEq] at hb
    unfold lowRec
    dsimp only
    rw [Rec.mk.injEq]
    refine ⟨hb.1, hb.2.1, hb.2.2.1, hb.2.2.2.1, ?_, rfl, hb.2.2.2.2.2.2.1, rfl⟩
    simp only [Bool.false_eq_true, if_false, if_true]
    funext i
    split
    · rename_i hi
      have : i = 0 ∨ i = 1 ∨ i = 2 ∨ i = 3 := by omega
      rcases this with rfl | rfl | rfl | rfl
      · rw [e0, f0]
      · rw [e1, f1]
      · rw [e2, f2]
      · rw [e3, f3]
    · rfl
  | store x p =>
    obtain ⟨r, a, rfl, hx⟩ := label_store ls
    obtain ⟨r', a', rfl, hx'⟩ := label_store lt
    obtain ⟨hp, rfl, h1⟩ := store_eq hP hs hx es
    obtain ⟨_, rfl, h2⟩ := store_eq hP ht hx' et
    refine ⟨rfl, L_step hP hs ht hL es et (fun _ => rfl) ?_⟩
    rw [h1, h2]
    have := hostWrite_low (V := obs V s) (s := s) x p
    have h3 := hostWrite_low (V := obs V s) (s := t) x p
    rw [show low (obs V s) t = low (obs V s) s from hL, this] at h3
    unfold hostWrite at h3
    rw [pas_of hL, if_pos hp, if_pos hp] at h3
    simp only [lowOut, Option.map_some, Option.some.injEq, Prod.mk.injEq, and_true] at h3
    rw [show t.pas = s.pas from pas_of hL]
    exact h3.symm

end

end Verif.Ni
