import Verif.Atom.Keep

/-!
# The invariant of the concurrent machine
-/

namespace Verif.Atom

open Rmm

/-- The checks of `early` that do not depend on the state. -/
def static (P : Plat) : Op → Prop
  | .rttMapUnprotected _ _ lvl _ | .rttUnmapUnprotected _ _ lvl => 1 ≤ lvl ∧ lvl ≤ 3
  | .dataCreate _ _ _ src flags => (flags = 0 ∨ flags = 1) ∧ P.tracked src = true
  | .rttInitRipas _ base top | .rttSetRipas _ _ base top => base < top
  | _ => True

/-- The source granule of a DATA_CREATE has been taken by another CPU. -/
def Taken (s : State) : Op → Prop
  | .dataCreate _ _ _ src _ => s.st src ≠ .ns
  | _ => False

theorem early_static {P : Plat} {s : State} {op : Op} (h : early P s op = none) : static P op := by
  cases op with
  | rttMapUnprotected | rttUnmapUnprotected =>
    simp only [early] at h; split at h
    · assumption
    · cases h
  | dataCreate rd data a src flags =>
    simp only [early] at h
    split at h
    · cases h
    split at h
    · rename_i h1 h2; exact ⟨by omega, ((lk_iff ..).mp h2).1⟩
    · cases h
  | rttInitRipas | rttSetRipas =>
    simp only [early] at h; split at h
    · cases h
    · simp only [static]; omega
  | _ => exact trivial

theorem static_early {P : Plat} {s : State} {op : Op} (h : static P op) :
    early P s op = none ∨ (Taken s op ∧ early P s op = some errInput) := by
  cases op with
  | rttMapUnprotected | rttUnmapUnprotected => simp only [static] at h; simp [early, h]
  | dataCreate rd data a src flags =>
    obtain ⟨h1, h2⟩ := h
    simp only [early]
    rw [if_neg (by omega)]
    by_cases h3 : s.st src = .ns
    · left; rw [if_pos ((lk_iff ..).mpr ⟨h2, h3⟩)]
    · right; exact ⟨h3, by rw [if_neg (fun hh => h3 ((lk_iff ..).mp hh).2)]⟩
  | rttInitRipas | rttSetRipas => simp only [static] at h; left; simp only [early]; rw [if_neg (by omega)]
  | _ => exact Or.inl rfl

/-- What stays true of a command from its checks on, whatever the others do. -/
structure Base (P : Plat) (s : State) (op : Op) (c : Ctx) : Prop where
  walk : isWalk op = true
  stat : static P op
  trk : P.tracked (rdA op) = true
  rd : s.st (rdA op) = .rd
  geo : SameGeo c.r (rdOf s (rdA op))
  keep : ∀ p ∈ first op, p.1 ∈ kept op → P.tracked p.1 = true ∧ s.st p.1 = p.2
  same : rdA op ∈ kept op → rdOf s (rdA op) = c.r
  pre : pre s c.r op = .go c.q

/-- A CPU's position fits the state. -/
def PcOk (P : Plat) (s : State) (ti : Nat → TabInfo) : Pc → Prop
  | .idle => True
  | .locking op todo done => isWalk op = true ∧ static P op ∧ first op = done ++ todo ∧
      ∀ p ∈ done, P.tracked p.1 = true ∧ s.st p.1 = p.2
  | .checked op c => Base P s op c ∧ (∀ p ∈ first op, P.tracked p.1 = true ∧ s.st p.1 = p.2) ∧
      rdOf s (rdA op) = c.r
  | .root op c => Base P s op c ∧ s.st c.r.root = .rtt ∧ (ti c.r.root).rd = rdA op
  | .walking op c d g => Base P s op c ∧ At s ti (rdA op) (ipa op) d g ∧ tgt op ≤ d

/-- The invariant of the machine with `n` CPUs. -/
def MInv (P : Plat) (n : Nat) (m : M) : Prop :=
  ∃ ti di rl, InvG P m.s ti di rl ∧ (∀ i < n, PcOk P m.s ti (m.pc i)) ∧
    ∀ i < n, ∀ j < n, i ≠ j → ∀ x ∈ held (m.pc i), x ∉ held (m.pc j)

section
variable {P : Plat} {s s' : State} {ti ti' : Nat → TabInfo} {di : Nat → Nat × Nat} {rl : Nat → List Nat}

theorem Base.held (b : Base P s op c) : ∀ x ∈ kept op, s.st x = .rd ∨ s.st x = .delegated ∨ s.st x = .recd := by
  intro x hx
  obtain ⟨e, he⟩ := kept_first op b.walk x hx
  have := first_st op _ he
  have h2 := (b.keep _ he hx).2
  dsimp only at this h2
  rw [h2]; exact this

/-- Locked granules are in one of four states. -/
theorem PcOk.held {pc : Pc} (k : PcOk P s ti pc) : ∀ x ∈ held pc,
    s.st x = .rd ∨ s.st x = .delegated ∨ s.st x = .recd ∨ s.st x = .rtt := by
  intro x hx
  cases pc with
  | idle => cases hx
  | locking op todo done =>
    obtain ⟨_, _, h1, h2⟩ := k
    simp only [Atom.held, List.mem_map] at hx
    obtain ⟨p, hp, rfl⟩ := hx
    have := first_st op p (by rw [h1]; exact List.mem_append_left _ hp)
    rw [(h2 p hp).2]; tauto
  | checked op c =>
    obtain ⟨_, h2, _⟩ := k
    simp only [Atom.held, List.mem_map] at hx
    obtain ⟨p, hp, rfl⟩ := hx
    have := first_st op p hp
    rw [(h2 p hp).2]; tauto
  | root op c =>
    obtain ⟨b, h1, _⟩ := k
    simp only [Atom.held, List.mem_cons] at hx
    rcases hx with rfl | hx
    · tauto
    · have := b.held x hx; tauto
  | walking op c d g =>
    obtain ⟨b, h1, _⟩ := k
    simp only [Atom.held, List.mem_cons] at hx
    rcases hx with rfl | hx
    · have := h1.st; tauto
    · have := b.held x hx; tauto

/-- The realm whose tables a CPU is walking. -/
def user : Pc → Option Nat
  | .root op _ | .walking op _ _ _ => some (rdA op)
  | _ => none

/-- The realm descriptor stays what it is for the CPUs that have it locked. -/
theorem rdOf_keeps {x : Nat} (k : Keeps s s' x) (hx : s.st x = .rd) : rdOf s' x = rdOf s x := by
  rcases k.mem with ⟨h1, _⟩ | ⟨h1, _⟩
  · rw [hx] at h1; cases h1
  · unfold rdOf getRd; rw [h1]

theorem Base.stable {op : Op} {c : Ctx} (b : Base P s op c) (hk : ∀ x ∈ kept op, Keeps s s' x)
    (hrd : s'.st (rdA op) = .rd) (hgeo : SameGeo (rdOf s (rdA op)) (rdOf s' (rdA op))) : Base P s' op c where
  walk := b.walk
  stat := b.stat
  trk := b.trk
  rd := hrd
  geo := ⟨by rw [hgeo.d0, b.geo.d0], by rw [hgeo.bits, b.geo.bits], by rw [hgeo.nroots, b.geo.nroots],
    by rw [hgeo.root, b.geo.root], by rw [hgeo.vmid, b.geo.vmid], by rw [hgeo.lpa2, b.geo.lpa2],
    by rw [hgeo.numAux, b.geo.numAux]⟩
  keep := fun p hp hx => ⟨(b.keep p hp hx).1, by rw [(hk _ hx).st, (b.keep p hp hx).2]⟩
  same := fun hx => by rw [rdOf_keeps (hk _ hx) b.rd, b.same hx]
  pre := pre_stable b.pre hk

/-- Whatever a step of another CPU does, a CPU's position still fits. -/
theorem PcOk.stable {pc : Pc} (k : PcOk P s ti pc) (hk : ∀ x ∈ Atom.held pc, Keeps s s' x)
    (hti : ∀ g, s.st g = .rtt → ti' g = ti g) (hu : ∀ r, user pc = some r → s.st r = .rd → s'.st r = .rd)
    (hgeo : ∀ r, s.st r = .rd → s'.st r = .rd → SameGeo (rdOf s r) (rdOf s' r)) : PcOk P s' ti' pc := by
  cases pc with
  | idle => trivial
  | locking op todo done =>
    obtain ⟨h1, h2, h3, h4⟩ := k
    refine ⟨h1, h2, h3, fun p hp => ⟨(h4 p hp).1, ?_⟩⟩
    rw [(hk p.1 (List.mem_map_of_mem hp)).st, (h4 p hp).2]
  | checked op c =>
    obtain ⟨b, h2, h3⟩ := k
    have hrd := hk (rdA op) (List.mem_map_of_mem (f := (·.1)) (rd_first op b.walk))
    have e1 : s'.st (rdA op) = .rd := by rw [hrd.st, b.rd]
    refine ⟨b.stable (fun x hx => ?_) e1 (hgeo _ b.rd e1), fun p hp => ⟨(h2 p hp).1, ?_⟩, ?_⟩
    · obtain ⟨e, he⟩ := kept_first op b.walk x hx
      exact hk x (List.mem_map_of_mem (f := (·.1)) he)
    · rw [(hk p.1 (List.mem_map_of_mem (f := (·.1)) hp)).st, (h2 p hp).2]
    · rw [rdOf_keeps hrd b.rd, h3]
  | root op c =>
    obtain ⟨b, h1, h2⟩ := k
    have e1 := hu _ rfl b.rd
    refine ⟨b.stable (fun x hx => hk x (List.mem_cons_of_mem _ hx)) e1 (hgeo _ b.rd e1), ?_, ?_⟩
    · rw [(hk _ List.mem_cons_self).st, h1]
    · rw [hti _ h1, h2]
  | walking op c d g =>
    obtain ⟨b, h1, h2⟩ := k
    have e1 := hu _ rfl b.rd
    refine ⟨b.stable (fun x hx => hk x (List.mem_cons_of_mem _ hx)) e1 (hgeo _ b.rd e1), ⟨e1, ?_, ?_, ?_⟩, h2⟩
    · rw [(hgeo _ b.rd e1).ipa]; exact h1.lt
    · rw [(hk _ List.mem_cons_self).st, h1.st]
    · rw [hti _ h1.st, h1.ti]

/-- A walking CPU holds a table of its realm. -/
theorem PcOk.table {pc : Pc} {r : Nat} (k : PcOk P s ti pc) (hu : user pc = some r) :
    ∃ g ∈ Atom.held pc, s.st g = .rtt ∧ (ti g).rd = r := by
  cases pc with
  | root op c =>
    obtain ⟨b, h1, h2⟩ := k
    cases hu
    exact ⟨_, List.mem_cons_self, h1, h2⟩
  | walking op c d g =>
    obtain ⟨b, h1, h2⟩ := k
    cases hu
    exact ⟨_, List.mem_cons_self, h1.st, by rw [h1.ti]⟩
  | _ => cases hu

/-- One operation, seen from a CPU that has other granules locked. -/
theorem PcOk.step (hP : PlatOk P) (h : InvG P s ti di rl) {op : Op} {ret : Ret}
    (e : Rmm.step P s op = some (s', ret)) {X : List Nat}
    (hX : ∀ x, x ∉ X → s.st x = .rd ∨ s.st x = .delegated ∨ s.st x = .recd ∨ s.st x = .rtt → Keeps s s' x)
    (hD : ∀ rd, op = .realmDestroy rd → X = foot s op) :
    ∃ ti' di' rl', InvG P s' ti' di' rl' ∧ ∀ pc, PcOk P s ti pc → (∀ x ∈ Atom.held pc, x ∉ X) → PcOk P s' ti' pc := by
  rcases step_eff hP h e with ⟨rfl, _⟩ | k
  · exact ⟨ti, di, rl, h, fun _ k _ => k⟩
  obtain ⟨ti', di', rl', h', ht, _⟩ := Eff.inv hP h e k
  refine ⟨ti', di', rl', h', fun pc kp hd => ?_⟩
  refine kp.stable (fun x hx => hX x (hd x hx) (kp.held x hx)) ht (fun r hu hr => ?_)
    (fun r h0 h1 => Rmm.Eff.geo h k h0 h1)
  refine Rmm.Eff.rd_stays h k hr ?_
  rintro rfl
  have kd : RealmDestroyOk s r s' ret := k
  obtain ⟨g, hg, hg1, hg2⟩ := kp.table hu
  obtain ⟨j, hj, he⟩ := only_roots h kd.rd kd.roots g hg1 hg2
  refine hd g hg ?_
  rw [hD r rfl]
  simp only [foot, List.mem_cons, List.mem_map, List.mem_range]
  exact Or.inr ⟨j, hj, he.symm⟩

end

end Verif.Atom
