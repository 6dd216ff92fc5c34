import Verif.Life.Lift

/-!
# The steps of the four commands keep the invariant
-/

namespace Verif.Life

open Rmm
open Atom (MInv PcOk Keeps isWalk foot two rdA user)

theorem state_ext {a b : State} (h1 : ∀ x, a.st x = b.st x) (h2 : ∀ x, a.rc x = b.rc x) (h3 : ∀ x, a.mem x = b.mem x)
    (h4 : ∀ x, a.pas x = b.pas x) (h5 : ∀ x, a.vmid x = b.vmid x) : a = b := by
  cases a; cases b
  simp only [State.mk.injEq]
  exact ⟨funext h1, funext h2, funext h3, funext h4, funext h5⟩

section
variable {P : Plat} {n : Nat} {m : M} {s : State} {T : Ov}

/-- A granule that is seen to be delegated. -/
theorem Sep.del (S : Sep T s) {x : Nat} (h : (ov T s).st x = .delegated) : T.g x = Option.none ∧ s.st x = .delegated := by
  cases hg : T.g x with
  | none => exact ⟨rfl, by simpa [ov, ovSt_none _ hg] using h⟩
  | some y =>
    obtain ⟨e, c⟩ := y
    obtain ⟨_, h2⟩ := S.g hg
    simp only [ov, ovSt, hg] at h
    rcases h2 with rfl | rfl | rfl | rfl <;> cases h

theorem Sep.ndel (S : Sep T s) {x : Nat} (h : (ov T s).st x ≠ .delegated) : s.st x ≠ .delegated ∨ T.g x ≠ Option.none := by
  cases hg : T.g x with
  | none => left; simpa [ov, ovSt_none _ hg] using h
  | some y => right; simp

theorem inv_of (I : LInv P n m s T) : ∃ ti di rl, InvG P s ti di rl := by
  obtain ⟨ti, di, rl, h, _, _⟩ := I.low
  exact ⟨ti, di, rl, h⟩

/-- The states of locked granules. -/
theorem LInv.heldSt (I : LInv P n m s T) {j x : Nat} (hj : j < n) (hx : x ∈ held (m.pc j)) :
    s.st x = .rd ∨ s.st x = .delegated ∨ s.st x = .recd ∨ s.st x = .rtt := by
  have ht : ∀ e, (x, e) ∈ tr (m.pc j) → s.st x = .delegated := by
    intro e h
    obtain ⟨c, hc⟩ := I.trk.has hj h
    exact (I.sep.g hc).1
  have o := I.ok j hj
  cases hp : m.pc j with
  | walk p =>
    obtain ⟨ti, di, rl, h, hpc, _⟩ := I.low
    have := (hpc j hj).held x
    simp only [Life.low, hp, base] at this
    rw [hp] at hx
    exact this hx
  | cLock rd pA q todo done =>
    rw [hp] at hx o
    exact Or.inr (Or.inl (o.2.2.2.2 x hx).2)
  | dSum rd r k acc =>
    rw [hp] at hx o
    simp only [held, List.mem_singleton] at hx
    subst hx; exact Or.inl o.2.1
  | dFree rd r k =>
    rw [hp] at hx ht
    simp only [held, List.mem_singleton] at hx
    exact Or.inr (Or.inl (ht .rd (by simp [tr, hx])))
  | nLock rd recA pA q todo done =>
    rw [hp] at hx o
    obtain ⟨p, h1, rfl⟩ := List.mem_map.mp hx
    have h2 : p ∈ two (recA, .delegated) (rd, GSt.rd) := by rw [o.2.2.1]; exact List.mem_append_left _ h1
    rw [(o.2.2.2 p h1).2.1]
    rw [Atom.mem_two] at h2
    rcases h2 with rfl | rfl <;> simp
  | kFree recA rd todo =>
    rw [hp] at hx ht
    simp only [held, List.mem_singleton] at hx
    exact Or.inr (Or.inl (ht .recd (by simp [tr, hx])))
  | _ => rw [hp] at hx; cases hx

/-- One of the four commands takes effect. -/
theorem LInv.eff (I : LInv P n m s T) {ti : Nat → TabInfo} {di : Nat → Nat × Nat} {rl : Nat → List Nat}
    (h : InvG P s ti di rl) (hpc : ∀ j < n, PcOk P s ti (base (m.pc j))) {i : Nat} {p : Pc} (hb : base p = .idle)
    {op : Op} {s2 s' : State} {ret : Ret} (k : Eff P s ti di s' ret op)
    {ti' : Nat → TabInfo} {di' : Nat → Nat × Nat} {rl' : Nat → List Nat} (h' : InvG P s' ti' di' rl')
    (ht : ∀ g, s.st g = .rtt → ti' g = ti g)
    (hX : ∀ j < n, j ≠ i → ∀ x ∈ held (m.pc j),
      s.st x = .rd ∨ s.st x = .delegated ∨ s.st x = .recd ∨ s.st x = .rtt → Keeps s s' x)
    (hD : ∀ rd, op = .realmDestroy rd → ∀ j < n, j ≠ i → user (base (m.pc j)) ≠ some rd) :
    MInv P n (Life.low ⟨s2, upd m.pc i p⟩ s') := by
  refine ⟨ti', di', rl', h', fun j hj => ?_, fun j hj l hl hne x hx hx' => ?_⟩
  · simp only [Life.low]
    by_cases hji : j = i
    · rw [hji, upd_same, hb]; trivial
    · rw [upd_ne _ _ _ hji]
      refine (hpc j hj).stable (fun x hx => ?_) ht (fun r hu hr => ?_) (fun r h0 h1 => Rmm.Eff.geo h k h0 h1)
      · exact hX j hj hji x (held_base hx) ((hpc j hj).held x hx)
      · exact Rmm.Eff.rd_stays h k hr (fun he => hD r he j hj hji hu)
  · simp only [Life.low] at hx hx'
    by_cases hji : j = i
    · rw [hji, upd_same, hb] at hx; cases hx
    · by_cases hli : l = i
      · rw [hli, upd_same, hb] at hx'; cases hx'
      · rw [upd_ne _ _ _ hji] at hx
        rw [upd_ne _ _ _ hli] at hx'
        exact I.excl j hj l hl hne x (held_base hx) (held_base hx')

/-- The changes become others, the memory without them stays. -/
theorem LInv.turn (I : LInv P n m s T) {i : Nat} (hi : i < n) {p : Pc} {s2 : State} {T' : Ov} (hmem : s2 = ov T' s)
    (hb : base p = .idle) (hsep : Sep T' s) (U : TrUpd n m.pc T i p T')
    (hheld : ∀ x ∈ held p, x ∈ held (m.pc i)) (hmine : ∀ x ∈ held p, ∀ {e c}, T'.g x = some (e, c) → (x, e) ∈ tr p)
    (hnew : ∀ j < n, j ≠ i → ∀ x ∈ held (m.pc j), ∀ e, (x, e) ∈ tr p → ∃ e', (x, e') ∈ tr (m.pc i))
    (hrc : ∀ a, T'.rc a ≤ T.rc a) (hr : ∀ op c, p ≠ .walk (.root op c))
    (hok : LOk P n (upd m.pc i p) s T' i p) : LInv P n ⟨s2, upd m.pc i p⟩ s T' := by
  obtain ⟨ti, di, rl, h, hp, hd⟩ := I.low
  refine I.step hi hmem ?_ hsep U (fun x hx => Or.inl (hheld x hx)) hmine hnew (fun _ _ _ _ _ _ => .refl _ _) ?_ hok
  · refine ⟨ti, di, rl, h, fun j hj => ?_, fun j hj l hl hne x hx hx' => ?_⟩
    · have := hp j hj
      simp only [Life.low] at this ⊢
      by_cases hji : j = i
      · rw [hji, upd_same, hb]; trivial
      · rw [upd_ne _ _ _ hji]; exact this
    · simp only [Life.low] at hx hx'
      by_cases hji : j = i
      · rw [hji, upd_same, hb] at hx; cases hx
      · by_cases hli : l = i
        · rw [hli, upd_same, hb] at hx'; cases hx'
        · rw [upd_ne _ _ _ hji] at hx
          rw [upd_ne _ _ _ hli] at hx'
          exact hd j hj l hl hne x hx hx'
  · intro j hj hne rd r k acc hpj
    have o := I.ok j hj
    rw [hpj] at o
    obtain ⟨o1, o2, o3, o4, o5, o6, o7, o8⟩ := o
    refine ⟨by have := hrc rd; omega, fun l hl => ⟨?_, rfl⟩, fun _ op c hh => absurd hh (hr op c)⟩
    exact fun hx => (o8 i hi (Ne.symm hne)).1 l hl (hheld _ hx)

/-- One of the four commands takes effect: everything about the position of its CPU. -/
theorem LInv.commit (I : LInv P n m s T) {ti : Nat → TabInfo} {di : Nat → Nat × Nat} {rl : Nat → List Nat}
    (h : InvG P s ti di rl) (hpc : ∀ j < n, PcOk P s ti (base (m.pc j))) {i : Nat} (hi : i < n) {p : Pc}
    (hb : base p = .idle) {op : Op} {s2 s' : State} {ret : Ret} {T' : Ov} (k : Eff P s ti di s' ret op)
    (hw : isWalk op = false)
    {ti' : Nat → TabInfo} {di' : Nat → Nat × Nat} {rl' : Nat → List Nat} (h' : InvG P s' ti' di' rl')
    (ht : ∀ g, s.st g = .rtt → ti' g = ti g)
    (hfoot : ∀ j < n, j ≠ i → ∀ x ∈ held (m.pc j), x ∉ foot s op)
    (hD : ∀ rd, op = .realmDestroy rd → ∀ j < n, j ≠ i → user (base (m.pc j)) ≠ some rd)
    (hmem : s2 = ov T' s') (hsep : Sep T' s') (U : TrUpd n m.pc T i p T')
    (hheld : ∀ x ∈ held p, x ∈ held (m.pc i) ∨ (Life.free n m x = true ∧ s.st x ≠ .rtt))
    (hmine : ∀ x ∈ held p, ∀ {e c}, T'.g x = some (e, c) → (x, e) ∈ tr p)
    (hnew : ∀ j < n, j ≠ i → ∀ x ∈ held (m.pc j), ∀ e, (x, e) ∈ tr p → ∃ e', (x, e') ∈ tr (m.pc i))
    (hsum : ∀ j < n, j ≠ i → ∀ {rd r k acc}, m.pc j = .dSum rd r k acc → T'.rc rd = 0)
    (hrc : ∀ x, s.st x = .rtt → s'.rc x = s.rc x)
    (hr : ∀ op c, p ≠ .walk (.root op c))
    (hok : LOk P n (upd m.pc i p) s' T' i p) : LInv P n ⟨s2, upd m.pc i p⟩ s' T' := by
  have hX : ∀ j < n, j ≠ i → ∀ x ∈ held (m.pc j),
      s.st x = .rd ∨ s.st x = .delegated ∨ s.st x = .recd ∨ s.st x = .rtt → Keeps s s' x :=
    fun j hj hne x hx hst => Atom.Eff.keeps k hw hst (hfoot j hj hne x hx)
  refine I.step hi hmem (I.eff h hpc hb k h' ht hX hD) hsep U (fun x hx => (hheld x hx).imp id (fun h => h.1)) hmine
    hnew hX ?_ hok
  intro j hj hne rd r k acc hpj
  have o := I.ok j hj
  rw [hpj] at o
  obtain ⟨o1, o2, o3, o4, o5, o6, o7, o8⟩ := o
  have hroot : ∀ l < k, s.st (r.root + 4096 * l) = .rtt := by
    intro l hl
    have := ((h.rds rd o2).roots l (by rw [o3]; omega)).1
    rwa [o3] at this
  refine ⟨hsum j hj hne hpj, fun l hl => ⟨?_, hrc _ (hroot l hl)⟩, fun _ op c hh => absurd hh (hr op c)⟩
  intro hx
  rcases hheld _ hx with h4 | h4
  · exact (o8 i hi (Ne.symm hne)).1 l hl h4
  · exact h4.2 (hroot l hl)

/-! ## REALM_CREATE -/

/-- The VMID is reserved. -/
theorem LInv.vmTake (I : LInv P n m s T) {i : Nat} (hi : i < n) {v : Nat} {p : Pc} (h1 : tr (m.pc i) = [])
    (h2 : vmOf (m.pc i) = none) (h3 : putOf (m.pc i) = none) (hv : m.s.vmid v = false) (hb : base p = .idle)
    (hr : ∀ op c, p ≠ .walk (.root op c)) (q1 : tr p = []) (q2 : vmOf p = some v) (q3 : putOf p = none)
    (q4 : held p = []) (hok : ∀ T', LOk P n (upd m.pc i p) s T' i p) :
    LInv P n ⟨{ m.s with vmid := upd m.s.vmid v true }, upd m.pc i p⟩ s { T with vm := upd T.vm v true } := by
  have hv' : s.vmid v = false ∧ T.vm v = false := by
    rw [I.mem] at hv
    simpa [ov, ovVm] using hv
  refine I.turn hi ?_ hb ⟨I.sep.g, I.sep.rc, ?_, I.sep.cap⟩ ?_ (by rw [q4]; exact fun x hx => (by cases hx))
    (by rw [q4]; exact fun x hx => (by cases hx)) (by rw [q1]; exact fun _ _ _ _ _ _ hh => (by cases hh))
    (fun _ => le_refl _) hr (hok _)
  · rw [I.mem]
    refine state_ext (fun _ => rfl) (fun _ => rfl) (fun _ => rfl) (fun _ => rfl) (fun x => ?_)
    simp only [ov, ovVm, upd]
    split
    · simp
    · rfl
  · intro w hw
    dsimp only [upd] at hw
    split at hw
    · rename_i he; rw [he]; exact hv'.1
    · exact I.sep.vm hw
  · refine ⟨fun _ _ _ => rfl, ?_, ?_, ?_, by rw [q1]; exact List.nodup_nil, ?_, ?_, ?_⟩
    · rw [q1]; exact fun _ _ hh => by cases hh
    · rw [h1]; exact fun _ _ hh => by cases hh
    · rw [q1]; exact fun _ _ hh => by cases hh
    · intro w
      rw [q2, h2]
      dsimp only [upd]
      split
      · rename_i he; simp [he]
      · rename_i he; simp [Ne.symm he]
    · intro w hw; rw [q2] at hw; cases hw; exact Or.inr hv'.2
    · intro a; rw [q3, h3]

theorem cReserve_ok (hP : PlatOk P) (I : LInv P n m s T) {i : Nat} (hi : i < n) {rd pA : Nat} {q : RealmParams}
    (hp : m.pc i = .cReserve rd pA q) : LOut P n m s i (go P n m i) := by
  have h1 : tr (m.pc i) = [] := by rw [hp]; rfl
  have h2 : vmOf (m.pc i) = none := by rw [hp]; rfl
  have h3 : putOf (m.pc i) = none := by rw [hp]; rfl
  have o := I.ok i hi
  rw [hp] at o
  unfold go
  rw [hp]
  dsimp only
  by_cases hc : q.vmid < P.vmidCount ∧ m.s.vmid q.vmid = false
  · rw [if_pos hc]
    by_cases ha : q.rttBase ≤ rd ∧ rd < q.rttBase + q.p.rttNumStart * 4096
    · rw [if_pos ha]
      refine ⟨s, _, I.vmTake hi h1 h2 h3 hc.2 (p := .cUndo rd pA q) rfl (fun _ _ h => (by cases h)) rfl rfl rfl rfl
        (fun _ => trivial), Or.inr ⟨_, _, rfl, Or.inr (Or.inr ⟨rfl, by decide, Or.inr ?_⟩)⟩⟩
      intro s' ret k
      have a1 := hP.aligned _ k.rd.1
      by_cases h0 : q.p.rttNumStart = 0
      · rw [h0] at ha; omega
      have a2 := hP.aligned _ (k.roots 0 (by omega)).1
      exact k.disj ((rd - q.rttBase) / 4096) (by omega) (by omega)
    · rw [if_neg ha]
      refine ⟨s, _, I.vmTake hi h1 h2 h3 hc.2 (p := .cLock rd pA q (order rd q) []) rfl (fun _ _ h => (by cases h))
        rfl rfl rfl rfl (fun _ => ⟨o, hc.1, ha, rfl, fun x hx => by cases hx⟩), Or.inl ⟨rfl, rfl⟩⟩
  · rw [if_neg hc]
    refine ⟨s, T, I.idle hi h1 h2 h3, Or.inr ⟨_, _, rfl, Or.inr (Or.inr ⟨rfl, by decide, ?_⟩)⟩⟩
    by_cases hv : T.vm q.vmid = true
    · exact Or.inl (I.busyVm hv (by rw [h2]; simp))
    · right
      intro s' ret k
      apply hc
      refine ⟨k.vmid.1, ?_⟩
      rw [I.mem]
      simpa [ov, ovVm, hv] using k.vmid.2

theorem cUndo_ok (I : LInv P n m s T) {i : Nat} (hi : i < n) {rd pA : Nat} {q : RealmParams}
    (hp : m.pc i = .cUndo rd pA q) : LOut P n m s i (go P n m i) := by
  have h1 : tr (m.pc i) = [] := by rw [hp]; rfl
  have h2 : vmOf (m.pc i) = some q.vmid := by rw [hp]; rfl
  have h3 : putOf (m.pc i) = none := by rw [hp]; rfl
  have hv : T.vm q.vmid = true := (I.trk.vm _).mpr ⟨i, hi, h2⟩
  unfold go
  rw [hp]
  refine ⟨s, { T with vm := upd T.vm q.vmid false }, I.turn hi ?_ rfl ⟨I.sep.g, I.sep.rc, ?_, I.sep.cap⟩ ?_
    (fun x hx => by cases hx) (fun x hx => by cases hx) (fun _ _ _ _ _ _ hh => (by cases hh))
    (fun _ => le_refl _) (fun _ _ h => (by cases h)) trivial, Or.inl ⟨rfl, rfl⟩⟩
  · rw [I.mem]
    refine state_ext (fun _ => rfl) (fun _ => rfl) (fun _ => rfl) (fun _ => rfl) (fun x => ?_)
    simp only [ov, ovVm, upd]
    split
    · rename_i he; rw [he, I.sep.vm hv]; rfl
    · rfl
  · intro w hw
    dsimp only [upd] at hw
    split at hw
    · cases hw
    · exact I.sep.vm hw
  · refine ⟨fun _ _ _ => rfl, fun _ _ hh => (by cases hh), ?_, fun _ _ hh => (by cases hh), List.nodup_nil, ?_,
      fun _ hh => (by cases hh), ?_⟩
    · rw [h1]; exact fun _ _ hh => by cases hh
    · intro w
      rw [h2]
      dsimp only [upd, vmOf]
      split
      · rename_i he; simp [he]
      · rename_i he; simp [Ne.symm he]
    · intro a; rw [h3]; rfl

theorem mem_roots {q : RealmParams} {x : Nat} : x ∈ roots q ↔ ∃ j < q.p.rttNumStart, x = q.rttBase + 4096 * j := by
  simp only [roots, List.mem_map, List.mem_range]
  exact ⟨fun ⟨j, h1, h2⟩ => ⟨j, h1, h2.symm⟩, fun ⟨j, h1, h2⟩ => ⟨j, h1, h2.symm⟩⟩

theorem mem_order {rd x : Nat} {q : RealmParams} : x ∈ order rd q ↔ x = rd ∨ x ∈ roots q := by
  unfold order
  split <;> simp [or_comm]

theorem cLock_ok (hP : PlatOk P) (I : LInv P n m s T) {i : Nat} (hi : i < n) {rd pA : Nat} {q : RealmParams}
    {todo done : List Nat} (hp : m.pc i = .cLock rd pA q todo done) : LOut P n m s i (go P n m i) := by
  have h1 : tr (m.pc i) = [] := by rw [hp]; rfl
  have h2 : vmOf (m.pc i) = some q.vmid := by rw [hp]; rfl
  have h3 : putOf (m.pc i) = none := by rw [hp]; rfl
  have o := I.ok i hi
  rw [hp] at o
  obtain ⟨o1, o2, o3, o4, o5⟩ := o
  -- giving up
  have bad : (others n m i = true ∨ Refused P s (.realmCreate rd pA q)) →
      LOut P n m s i (m.to i m.s (.cUndo rd pA q) [.point i (.realmCreate rd pA q) errInput]) := by
    intro hb
    exact ⟨s, T, I.move hi (Or.inr rfl) (by rw [h1]; rfl) (by rw [h2]; rfl) (by rw [h3]; rfl)
      (fun x hx => (by cases hx)) (fun _ _ h => (by cases h)) trivial,
      Or.inr ⟨_, _, rfl, Or.inr (Or.inr ⟨rfl, by decide, hb⟩)⟩⟩
  unfold go
  rw [hp]
  cases todo with
  | cons x todo =>
    dsimp only
    have hx : x = rd ∨ x ∈ roots q := by rw [← mem_order, o4]; simp
    have need : ∀ s' ret, RealmCreateOk P s rd q s' ret → P.tracked x = true ∧ s.st x = .delegated := by
      intro s' ret k
      rcases hx with rfl | hx
      · exact k.rd
      · obtain ⟨j, hj, rfl⟩ := mem_roots.mp hx
        exact k.roots j hj
    by_cases ht : P.tracked x = false
    · rw [if_pos ht]
      exact bad (Or.inr fun s' ret k => (by rw [(need s' ret k).1] at ht; cases ht))
    rw [if_neg ht]
    by_cases hf : free n m x = true
    swap
    · rw [if_neg hf]; trivial
    rw [if_pos hf]
    by_cases hd : m.s.st x = .delegated
    · rw [if_pos hd]
      rw [I.mem] at hd
      obtain ⟨g1, g2⟩ := I.sep.del hd
      refine ⟨s, T, I.move hi (Or.inr rfl) (by rw [h1]; rfl) (by rw [h2]; rfl) (by rw [h3]; rfl) ?_
        (fun _ _ h => (by cases h)) ⟨o1, o2, o3, by rw [o4]; simp, ?_⟩, Or.inl ⟨rfl, rfl⟩⟩
      · intro y hy
        rw [hp]
        simp only [held, List.mem_append, List.mem_singleton] at hy ⊢
        rcases hy with hy | rfl
        · exact Or.inl hy
        · exact Or.inr ⟨hf, g1, by rw [g2]; simp⟩
      · intro y hy
        simp only [List.mem_append, List.mem_singleton] at hy
        rcases hy with hy | rfl
        · exact o5 y hy
        · exact ⟨by simpa using ht, g2⟩
    · rw [if_neg hd]
      rw [I.mem] at hd
      rcases I.sep.ndel hd with g | g
      · exact bad (Or.inr fun s' ret k => g (need s' ret k).2)
      · exact bad (Or.inl (I.busy g (fun e => (by rw [h1]; simp))))
  | nil =>
    dsimp only
    obtain ⟨ti, di, rl, h, hpc, hd⟩ := I.low
    change InvG P s ti di rl at h
    obtain ⟨b, c1, c2⟩ := Features.C21_params_accepted_iff P.hw hP.hw q.p
    rw [o1] at c1
    have hok := c2.mp (Option.some.inj c1).symm
    have hg := hok.geometry
    rw [← Features.lpa2Requested_eq] at hg
    obtain ⟨_, ts, hts, _⟩ := legal_geo hg (r := newRd q) rfl rfl rfl rfl
    rw [hts]
    dsimp only
    have hv : T.vm q.vmid = true := (I.trk.vm _).mpr ⟨i, hi, h2⟩
    have hall : ∀ x, x = rd ∨ x ∈ roots q → P.tracked x = true ∧ s.st x = .delegated ∧ T.g x = none := by
      intro x hx
      have hx : x ∈ done := by rw [← mem_order, o4] at hx; simpa using hx
      refine ⟨(o5 x hx).1, (o5 x hx).2, ?_⟩
      cases hgx : T.g x with
      | none => rfl
      | some y =>
        obtain ⟨e, c⟩ := y
        have := I.mine i hi x (by rw [hp]; exact hx) hgx
        rw [h1] at this; cases this
    have hin : ∀ x, inRange q.rttBase q.p.rttNumStart x = true ↔ x ∈ roots q := by
      intro x; rw [inRange_iff, mem_roots]
    have hdj : ∀ x, x ∈ roots q → x ≠ rd := by
      rintro x hx rfl
      obtain ⟨j, hj, e⟩ := mem_roots.mp hx
      apply o3; omega
    have k : RealmCreateOk P s rd q (realmCreateSt s rd q ts) {} :=
      ⟨⟨(hall rd (Or.inl rfl)).1, (hall rd (Or.inl rfl)).2.1⟩,
        fun j hj => ⟨(hall _ (Or.inr (mem_roots.mpr ⟨j, hj, rfl⟩))).1, (hall _ (Or.inr (mem_roots.mpr ⟨j, hj, rfl⟩))).2.1⟩,
        fun j hj e => hdj _ (mem_roots.mpr ⟨j, hj, rfl⟩) e.symm, hok, ⟨o2, I.sep.vm hv⟩, ⟨ts, hts, rfl⟩, rfl⟩
    have hst : ∀ x, s.st x ≠ .delegated → (realmCreateSt s rd q ts).st x = s.st x := by
      intro x hx
      have n1 : x ≠ rd := by rintro rfl; exact hx (hall x (Or.inl rfl)).2.1
      have n2 : ¬ inRange q.rttBase q.p.rttNumStart x = true := by
        rw [hin]; intro hh; exact hx (hall x (Or.inr hh)).2.1
      simp only [realmCreateSt]
      rw [upd_ne _ _ _ n1, if_neg n2]
    refine ⟨_, { T with vm := upd T.vm q.vmid false }, I.commit h hpc hi (p := .idle) rfl
      (op := .realmCreate rd pA q) k rfl (k.inv h) ?_ ?_ (fun _ hh => (by cases hh)) ?_ ⟨?_, ?_, ?_, ?_⟩
      ⟨fun _ _ _ => rfl, fun _ _ hh => (by cases hh), ?_, fun _ _ hh => (by cases hh), List.nodup_nil, ?_,
        fun _ hh => (by cases hh), ?_⟩ (fun x hx => (by cases hx)) (fun x hx => (by cases hx))
      (fun _ _ _ _ _ _ hh => (by cases hh)) ?_ (fun _ _ => rfl) (fun _ _ h => (by cases h)) trivial,
      Or.inr ⟨_, _, rfl, Or.inr (Or.inl k)⟩⟩
    · intro g hg
      unfold realmTi
      rw [if_neg]
      rw [hin]; intro hh
      have := (hall g (Or.inr hh)).2.1
      rw [hg] at this; cases this
    · intro j hj hne x hx hxf
      refine I.excl i hi j hj (Ne.symm hne) x ?_ hx
      rw [hp]
      have : x ∈ order rd q := by
        rw [mem_order]
        simpa [foot, roots] using hxf
      rw [o4] at this; simpa [held] using this
    · rw [I.mem]
      refine state_ext (fun x => ?_) (fun _ => rfl) (fun x => ?_) (fun _ => rfl) (fun x => ?_)
      · simp only [realmCreateSt, ov, ovSt]
        by_cases hx : x = rd
        · rw [hx, upd_same, upd_same, (hall rd (Or.inl rfl)).2.2]
        · rw [upd_ne _ _ _ hx, upd_ne _ _ _ hx]
          by_cases hx2 : inRange q.rttBase q.p.rttNumStart x = true
          · rw [if_pos hx2, if_pos hx2, (hall x (Or.inr ((hin x).mp hx2))).2.2]
          · rw [if_neg hx2, if_neg hx2]
      · simp only [realmCreateSt, ov, ovMem]
        by_cases hx : x = rd
        · rw [hx, upd_same, upd_same, (hall rd (Or.inl rfl)).2.2]
        · rw [upd_ne _ _ _ hx, upd_ne _ _ _ hx]
          by_cases hx2 : inRange q.rttBase q.p.rttNumStart x = true
          · rw [if_pos hx2, if_pos hx2, (hall x (Or.inr ((hin x).mp hx2))).2.2]
          · rw [if_neg hx2, if_neg hx2]
      · simp only [realmCreateSt, ov, ovVm, upd]
        split <;> simp
    · intro a e c hg
      have hg : T.g a = some (e, c) := hg
      refine ⟨?_, (I.sep.g hg).2⟩
      have n1 : a ≠ rd := by rintro rfl; rw [(hall a (Or.inl rfl)).2.2] at hg; cases hg
      have n2 : ¬ inRange q.rttBase q.p.rttNumStart a = true := by
        rw [hin]; intro hh; rw [(hall a (Or.inr hh)).2.2] at hg; cases hg
      simp only [realmCreateSt]
      rw [upd_ne _ _ _ n1, if_neg n2, (I.sep.g hg).1]
    · intro a ha
      have := I.sep.rc ha
      rw [hst a (by rw [this]; simp), this]
    · intro v hv
      simp only [upd, realmCreateSt] at hv ⊢
      split
      · rename_i he; simp [he] at hv
      · rename_i he; rw [if_neg he] at hv; exact I.sep.vm hv
    · intro a ha
      show s.rc a + T.rc a ≤ 1023
      by_cases ha2 : a = rd
      · have := (hall a (Or.inl ha2)).2.1
        rw [h.rc0 a (by rw [this]; simp), I.sep.rc0 (a := a) (by rw [this]; simp)]; omega
      · apply I.sep.cap
        simp only [realmCreateSt] at ha
        rw [upd_ne _ _ _ ha2] at ha
        split at ha
        · cases ha
        · exact ha
    · rw [h1]; exact fun _ _ hh => (by cases hh)
    · intro w
      rw [h2]
      dsimp only [upd, vmOf]
      split
      · rename_i he; simp [he]
      · rename_i he; simp [Ne.symm he]
    · intro a; rw [h3]; rfl
    · intro j hj hne rd' r k acc hpj
      have o := I.ok j hj
      rw [hpj] at o
      exact o.2.2.2.2.1

end

end Verif.Life
