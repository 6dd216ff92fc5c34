import Verif.Ni.Main

/-!
# The states a coalition cannot tell apart, spelled out (C53)
-/

namespace Verif.Ni

open Rmm

/-- What the host and the realms in `V` (descriptor addresses) are entitled to know is the same in `s` and `t`.
Nothing is said about the data pages, REC registers, auxiliary granules and extensible measurements of the other
realms, except for the registers of a PSCI request that the host has yet to answer. -/
structure Same (V : Nat → Bool) (s t : State) : Prop where
  /-- granule states, reference counts, the physical address space of every granule, VMIDs in use -/
  st : t.st = s.st
  rc : t.rc = s.rc
  pas : t.pas = s.pas
  vmid : t.vmid = s.vmid
  /-- the host's memory -/
  ns : ∀ x, s.st x = .ns → t.mem x = s.mem x
  /-- the stage-2 tables of all realms -/
  tables : ∀ x, s.st x = .rtt → t.mem x = s.mem x
  /-- realm descriptors: all but the extensible measurements, and these for the realms in `V` -/
  rd : ∀ r, s.st r = .rd → ∃ m, rdOf t r = { rdOf s r with rem := m }
  rem : ∀ r, s.st r = .rd → V r = true → rdOf t r = rdOf s r
  /-- RECs: all but registers and program counter, and these for the realms in `V` -/
  recs : ∀ q, s.st q = .recd → ∃ g pc, recOf t q = { recOf s q with regs := g, pc := pc }
  regs : ∀ q, s.st q = .recd → V (recOf s q).rd = true → recOf t q = recOf s q
  /-- the registers that carry a PSCI request to the host -/
  request : ∀ q i, s.st q = .recd → (recOf s q).psciPending = true → i < 4 → (recOf t q).regs i = (recOf s q).regs i
  /-- the data of the realms in `V` -/
  data : ∀ r a rp x, V r = true → view s r a = some (.assigned rp x) → t.mem x = s.mem x
  /-- the auxiliary granules of their RECs -/
  aux : ∀ q x, s.st q = .recd → V (recOf s q).rd = true → x ∈ (recOf s q).aux → t.mem x = s.mem x

section
variable {P : Plat} {V : Nat → Bool} {s t : State}

theorem same_of_L (hP : PlatOk P) (hs : Reach P s) (ht : Reach P t) (h : L V s t) : Same V s t := by
  obtain ⟨_, _, _, hi⟩ := hs.inv hP
  obtain ⟨_, _, _, hi'⟩ := ht.inv hP
  have est := st_of h
  have vis : ∀ x, (s.st x = .data ∨ s.st x = .recAux) → Vis V s x → t.mem x = s.mem x := by
    intro x hx hv
    have hD : (obs V s).D x = true := by simpa [obs] using hv
    have hm := mem_of h x
    have hp : ∃ p, s.mem x = .page p := hx.elim (hi.dataPage x) (hi.auxPage x)
    have hp' : ∃ p, t.mem x = .page p := hx.elim (fun k => hi'.dataPage x (by rw [est]; exact k))
      (fun k => hi'.auxPage x (by rw [est]; exact k))
    obtain ⟨p, hp⟩ := hp
    obtain ⟨p', hp'⟩ := hp'
    rw [hp, hp'] at hm ⊢
    simpa [lowC, hD] using hm
  have erd : ∀ r, s.st r = .rd → lowRd (V r) (rdOf t r) = lowRd (V r) (rdOf s r) := by
    intro r hr
    have hm := mem_of h r
    rw [(hi.rds r hr).mem, (hi'.rds r (by rw [est]; exact hr)).mem] at hm
    exact Content.rd.inj hm
  have erec : ∀ q, s.st q = .recd → lowRec (V (recOf s q).rd) (recOf t q) = lowRec (V (recOf s q).rd) (recOf s q) := by
    intro q hq
    have hm := mem_of h q
    rw [(hi.recs q hq).mem, (hi'.recs q (by rw [est]; exact hq)).mem] at hm
    have := Content.recd.inj hm
    rw [recRd_of h] at this
    exact this
  refine ⟨est, rc_of h, pas_of h, (congrArg State.vmid h :), ?_, ?_, ?_, ?_, ?_, ?_, ?_, ?_, ?_⟩
  · intro x hx
    exact ns_of h hx (hi.nsPage x hx)
  · intro x hx
    have hm := mem_of h x
    rw [(hi.tab x hx).mem, (hi'.tab x (by rw [est]; exact hx)).mem] at hm ⊢
    exact hm
  · intro r hr
    have e := erd r hr
    refine ⟨(rdOf t r).rem, ?_⟩
    unfold lowRd at e
    rw [Rd.mk.injEq] at e
    obtain ⟨e1, e2, e3, e4, e5, e6, e7, e8, e9, e10, e11, _⟩ := e
    dsimp only
    rw [← e1, ← e2, ← e3, ← e4, ← e5, ← e6, ← e7, ← e8, ← e9, ← e10, ← e11]
  · intro r hr hV
    have e := erd r hr
    rw [hV] at e
    exact e
  · intro q hq
    have hb := bare_of h q
    refine ⟨(recOf t q).regs, (recOf t q).pc, ?_⟩
    unfold bare at hb
    rw [Rec.mk.injEq] at hb
    obtain ⟨e1, e2, e3, e4, _, _, e7, e8⟩ := hb
    dsimp only
    rw [← e1, ← e2, ← e3, ← e4, ← e7, ← e8]
  · intro q hq hV
    have e := erec q hq
    rw [hV] at e
    exact e
  · intro q i hq hp hi
    have e := erec q hq
    have e8 : (recOf t q).psciPending = (recOf s q).psciPending := (congrArg Rec.psciPending (bare_of h q) :)
    have e5 := congrFun (congrArg Rec.regs e) i
    unfold lowRec at e5
    dsimp only at e5
    rw [e8, hp] at e5
    cases hb : V (recOf s q).rd <;> rw [hb] at e5 <;> simpa [hi] using e5
  · intro r a rp x hV hv
    exact vis x (.inl (view_assigned hi hv).2.2.1) (.inl ⟨r, a, rp, hV, hv⟩)
  · intro q x hq hV hx
    exact vis x (.inr ((hi.recs q hq).auxSt x hx)) (.inr ⟨q, hq, hV, hx⟩)

theorem L_of_same (hP : PlatOk P) (hs : Reach P s) (ht : Reach P t) (h : Same V s t) : L V s t := by
  obtain ⟨_, _, _, hi⟩ := hs.inv hP
  obtain ⟨_, _, _, hi'⟩ := ht.inv hP
  have est := h.st
  refine low_ext h.st h.rc h.pas h.vmid fun x => ?_
  have pg : (s.st x = .data ∨ s.st x = .recAux) → (∃ p, s.mem x = .page p) → (∃ p, t.mem x = .page p) →
      (Vis V s x → t.mem x = s.mem x) →
      lowC (obs V s) x (s.st x) (t.mem x) = lowC (obs V s) x (s.st x) (s.mem x) := by
    rintro hx ⟨p, hp⟩ ⟨p', hp'⟩ hv
    by_cases hV : Vis V s x
    · rw [hv hV]
    · have hD : (obs V s).D x = false := by simpa [obs] using hV
      rw [hp, hp']
      simp only [lowC, hD, and_true, hx, if_true]
  cases hx : s.st x with
  | ns => rw [h.ns x hx]
  | rtt => rw [h.tables x hx]
  | delegated => rw [hi.delPage x hx, hi'.delPage x (by rw [est]; exact hx)]
  | data =>
    rw [← hx]
    refine pg (.inl hx) (hi.dataPage x hx) (hi'.dataPage x (by rw [est]; exact hx)) ?_
    rintro (⟨r, a, rp, hV, hv⟩ | ⟨q, hq, hV, hm⟩)
    · exact h.data r a rp x hV hv
    · exact h.aux q x hq hV hm
  | recAux =>
    rw [← hx]
    refine pg (.inr hx) (hi.auxPage x hx) (hi'.auxPage x (by rw [est]; exact hx)) ?_
    rintro (⟨r, a, rp, hV, hv⟩ | ⟨q, hq, hV, hm⟩)
    · exact h.data r a rp x hV hv
    · exact h.aux q x hq hV hm
  | rd =>
    rw [(hi.rds x hx).mem, (hi'.rds x (by rw [est]; exact hx)).mem]
    simp only [lowC]
    congr 1
    cases hV : (obs V s) x with
    | true => rw [h.rem x hx hV]
    | false =>
      obtain ⟨m, hm⟩ := h.rd x hx
      rw [hm]
      rfl
  | recd =>
    rw [(hi.recs x hx).mem, (hi'.recs x (by rw [est]; exact hx)).mem]
    obtain ⟨g, pc, hm⟩ := h.recs x hx
    have hr : (recOf t x).rd = (recOf s x).rd := by rw [hm]
    simp only [lowC]
    rw [hr]
    congr 1
    cases hV : (obs V s) (recOf s x).rd with
    | true => rw [h.regs x hx hV]
    | false =>
      have hq := fun i => h.request x i hx
      rw [hm] at hq ⊢
      dsimp only at hq
      unfold lowRec
      dsimp only
      congr 1
      cases hp : (recOf s x).psciPending
      · rfl
      · simp only [Bool.false_eq_true, if_false, if_true]
        funext i
        by_cases hi : i < 4
        · rw [if_pos hi, if_pos hi, hq i hp hi]
        · rw [if_neg hi, if_neg hi]

/-- The erasing of the model and the list of what is visible agree. -/
theorem same_iff (hP : PlatOk P) (hs : Reach P s) (ht : Reach P t) : L V s t ↔ Same V s t :=
  ⟨same_of_L hP hs ht, L_of_same hP hs ht⟩

end

end Verif.Ni
