import Verif.Atom.RsiInv

/-!
# What each step of the machine with RSI calls does
-/

namespace Verif.Atom

open Rmm

/-- The realm's own page at `a` is granule `pa`: the hardware walk gets there, the granule is a
data granule, and realm memory. -/
structure Maps (s : State) (rd a pa : Nat) : Prop where
  hw : translate s (rdOf s rd) a = some (pa, false)
  st : s.st pa = .data
  pas : s.pas pa = .realm
  al : pa % 4096 = 0

/-- What an event says about the memory it happened in, if it happened at once. -/
def Does (P : Plat) (s s' : State) : Ev → Prop
  | .op op ret => Rmm.step P s op = some (s', ret)
  | .look x a e d => s' = s ∧ ∃ rd, Runs s x rd ∧ leaf s rd a = some (e, d)
  | .scan x a d t => s' = s ∧ ∃ rd, Runs s x rd ∧ leaf s rd a = some (t (idx d a), d) ∧
      ∀ y < (rdOf s rd).ipaSize, al d y = al d a → (∀ c, t (idx d y) ≠ .table c) →
        leaf s rd y = some (t (idx d y), d)
  | .load x a v => s' = s ∧ ∃ rd pa, Runs s x rd ∧ Maps s rd a pa ∧ v = s.mem pa
  | .store x a p => ∃ rd pa, Runs s x rd ∧ Maps s rd a pa ∧ s' = { s with mem := upd s.mem pa (.page p) } ∧
      Rmm.step P s (.realmWrite x a p) = some (s', {})

/-- As `Does`; an operation may be a DATA_CREATE that lost its source. -/
def EvOk (P : Plat) (s s' : State) : Option Ev → Prop
  | none => s' = s
  | some (.op op ret) => Lin P s op s' ret
  | some ev => Does P s s' ev

section
variable {P : Plat} {s : State} {ti : Nat → TabInfo} {di : Nat → Nat × Nat} {rl : Nat → List Nat}

theorem ended_iff (h : InvG P s ti di rl) {rd a d g : Nat} (k : At s ti rd a d g) :
    ended (tabOf s g) d a = true ↔ ∀ c, tabOf s g (idx d a) ≠ .table c := by
  cases d with
  | zero =>
    simp only [ended, true_iff]
    intro c hc
    have := k.ent h
    rw [hc] at this
    have := this.2.1
    omega
  | succ d =>
    unfold ended
    cases hc : tabOf s g (idx (d + 1) a) <;> simp

/-- Where an RSI call's walk ended is where the hardware's ends. -/
theorem CallOk.leaf {pc : Pc} {c : Call} (_ : CallOk s pc c) (h : InvG P s ti di rl) {d g : Nat}
    (ka : At s ti c.rd c.a d g) (he : ended (tabOf s g) d c.a = true) :
    Rmm.leaf s c.rd c.a = some (tabOf s g (idx d c.a), d) := leaf_at h ka ((ended_iff h ka).mp he)

/-- The granule an RSI call uses is the realm's page, now. -/
theorem maps (h : InvG P s ti di rl) {rd a d g b : Nat} (ka : At s ti rd a d g) (hal : a % 4096 = 0)
    (he : tabOf s g (idx d a) = .assigned .ram b) : Maps s rd a (b + a % sz d) := by
  have hl := leaf_at h ka (fun c hc => by rw [he] at hc; cases hc)
  have ht : translate s (rdOf s rd) a = some (b + a % sz d, false) := by
    unfold Rmm.leaf at hl
    rw [getRd_eq h ka.rd] at hl
    dsimp only at hl
    rw [if_pos ka.lt] at hl
    unfold translate
    rw [if_pos ka.lt, hl, he]
  have hent := ka.ent h
  rw [he] at hent
  have hb := hent.2.2.1
  have hd : 4096 ∣ sz d := by rw [← sz_zero]; exact sz_dvd (Nat.zero_le d)
  have hm : (b + a % sz d) % 4096 = 0 := by
    have h1 : 4096 ∣ b := hd.trans (Nat.dvd_of_mod_eq_zero hb)
    have h2 : 4096 ∣ a % sz d := (Nat.dvd_mod_iff hd).mpr (Nat.dvd_of_mod_eq_zero hal)
    exact Nat.mod_eq_zero_of_dvd (Nat.dvd_add h1 h2)
  have hx : (b + a % sz d) / 4096 * 4096 = b + a % sz d := Nat.div_mul_cancel (Nat.dvd_of_mod_eq_zero hm)
  rcases (translate_spec h ka.rd ht).2 with ⟨_, _, h3, _⟩ | ⟨h3, _⟩
  · rw [hx] at h3
    have hne : s.st (b + a % sz d) ≠ .ns := by rw [h3]; simp
    exact ⟨ht, h3, (h.gpt _ (h.trk _ hne)).mp hne, hm⟩
  · cases h3

theorem CallOk.maps {pc : Pc} {c : Call} (k : CallOk s pc c) (h : InvG P s ti di rl) (kp : PcOk P s ti pc) {pa : Nat}
    (hpa : c.pa = some pa) : Maps s c.rd c.a pa := by
  rcases k.pos with ⟨h1, _⟩ | ⟨x, d, g, rfl, h1⟩
  · rw [h1] at hpa; cases hpa
  · obtain ⟨b, h2, rfl⟩ := h1 pa hpa
    exact Atom.maps h kp.2.1 k.al h2

end

section
variable {P : Plat} {n : Nat} {r : R}

theorem RInv.put (I : RInv P n r) {i : Nat} {p : Pc} {co : Option Call}
    (hm : MInv P n ⟨r.m.s, upd r.m.pc i p⟩) (hc : ∀ c, co = some c → CallOk r.m.s p c)
    (ho : ∀ c, co = some c → ∀ j < n, j ≠ i → ∀ c', r.call j = some c' → c.recA ≠ c'.recA) :
    RInv P n ⟨⟨r.m.s, upd r.m.pc i p⟩, upd r.call i co⟩ where
  minv := hm
  calls := by
    intro j hj c hjc
    dsimp only at hjc ⊢
    by_cases hji : j = i
    · subst hji; rw [upd_same] at hjc ⊢; exact hc c hjc
    · rw [upd_ne _ _ _ hji] at hjc ⊢; exact I.calls j hj c hjc
  one := by
    intro j hj k hk hne c c' h1 h2
    dsimp only at h1 h2
    by_cases hji : j = i
    · have hki : k ≠ i := fun hh => hne (hji.trans hh.symm)
      rw [hji, upd_same] at h1; rw [upd_ne _ _ _ hki] at h2
      exact ho c h1 k hk hki c' h2
    · rw [upd_ne _ _ _ hji] at h1
      by_cases hki : k = i
      · rw [hki, upd_same] at h2
        exact (ho c' h2 j hj hji c h1).symm
      · rw [upd_ne _ _ _ hki] at h2
        exact I.one j hj k hk hne c c' h1 h2

theorem RInv.drop (I : RInv P n r) {i : Nat} (hi : i < n) : RInv P n (r.drop i) := by
  obtain ⟨ti, di, rl, h, hp, hd⟩ := I.minv
  exact I.put (MInv.stop h hp hd hi) (fun c hc => by cases hc) (fun c hc => by cases hc)

/-- A step outside RSI calls. -/
theorem base_step (hP : PlatOk P) (I : RInv P n r) {i : Nat} (hi : i < n) (hc : r.call i = none) {act : Act}
    (ha : ∀ op, act = .start op → ∀ j < n, ∀ c, r.call j = some c → mover op ≠ some c.recA) {m' : M}
    {d : Option (Op × Ret)} (e : mstep P n r.m i act = .ok m' d) :
    RInv P n { r with m := m' } ∧ (match d with
      | none => m'.s = r.m.s
      | some (op, ret) => Lin P r.m.s op m'.s ret) := by
  have k := mstep_ok hP I.minv hi act
  rw [e] at k
  have hne : ∀ j c, r.call j = some c → j ≠ i := by
    rintro j c h1 rfl; rw [hc] at h1; cases h1
  cases d with
  | none =>
    refine ⟨⟨k.2, fun j hj c hjc => ?_, I.one⟩, k.1⟩
    dsimp only at hjc ⊢
    rw [k.1, mstep_quiet I.minv hi e j (hne j c hjc)]
    exact I.calls j hj c hjc
  | some y =>
    obtain ⟨op, ret⟩ := y
    obtain ⟨h1, h2, h3⟩ := mstep_keeps hP I.minv hi e
    refine ⟨⟨k.2, fun j hj c hjc => ?_, I.one⟩, k.1⟩
    dsimp only at hjc ⊢
    rw [h2 j (hne j c hjc)]
    have hm : mover op ≠ some c.recA := by
      rcases h1 with h1 | h1
      · exact ha op h1 j hj c hjc
      · cases op <;> first | (simp [mover]; done) | cases h1
    rcases k.1 with h4 | ⟨_, h4, _⟩
    · obtain ⟨ti, di, rl, h, hp, _⟩ := I.minv
      exact (I.calls j hj c hjc).step hP h h4 (hp j hj) hm (h3 j hj (hne j c hjc))
    · rw [h4]; exact I.calls j hj c hjc

theorem not_busy {x : Nat} (h : busy n r x = false) : ∀ j < n, ∀ c, r.call j = some c → c.recA ≠ x := by
  intro j hj c hc hx
  simp only [busy, List.any_eq_false] at h
  have := h j (List.mem_range.mpr hj)
  rw [hc] at this
  exact this (by simpa using hx)

theorem atEnd_spec {i : Nat} {c : Call} {d g : Nat} (h : atEnd r i c = some (d, g)) :
    ∃ o x t, r.m.pc i = .walking o x d g ∧ getTab r.m.s g = some t ∧ ended t d c.a = true := by
  unfold atEnd at h
  split at h
  · rename_i o x d' g' hpc
    split at h
    · rename_i t ht
      split at h
      · rename_i he
        cases h
        exact ⟨o, x, t, hpc, ht, he⟩
      · cases h
    · cases h
  · cases h

/-- The walk of an RSI call goes on. -/
theorem go_step (hP : PlatOk P) (I : RInv P n r) {i : Nat} (hi : i < n) {c : Call} (hc : r.call i = some c)
    (hn : atEnd r i c = none) : go P n r.m i = .blocked ∨
      ∃ x d g, go P n r.m i = r.m.to i (.walking (rop c) x d g) ∧ c.pa = none := by
  have k := I.calls i hi c hc
  obtain ⟨ti, di, rl, h, hp, _⟩ := I.minv
  have hpi := hp i hi
  rcases k.pos with ⟨hpa, x, hpc⟩ | ⟨x, d, g, hpc, hpa⟩
  · rw [hpc] at hpi
    have hg := go_ok hP I.minv hi
    unfold go at hg ⊢
    rw [hpc] at hg ⊢
    dsimp only at hg ⊢
    obtain ⟨ret, ht, _⟩ := rttReadEntry_spec h c.rd c.a 3
    have nofail : ¬ StepOk P n r.m (.fail (rop c)) := by
      intro hh
      have : Rmm.step P r.m.s (rop c) = none := hh
      simp only [rop, step] at this
      rw [ht] at this; cases this
    split at hg
    · rename_i h0
      rw [if_pos h0]
      split at hg
      · rename_i h1
        rw [if_pos h1]
        exact Or.inr ⟨_, _, _, rfl, hpa⟩
      · rename_i h1
        rw [if_neg h1]
        split at hg
        · rename_i h2
          rw [if_pos h2]
          split at hg
          · rename_i h3
            rw [if_pos h3]
            exact Or.inr ⟨_, _, _, rfl, hpa⟩
          · exact absurd hg nofail
        · rename_i h2
          rw [if_neg h2]; exact Or.inl rfl
    · exact absurd hg nofail
  · rw [hpc] at hpi
    obtain ⟨b, ka, _⟩ := hpi
    have hka : At r.m.s ti c.rd c.a d g := ka
    unfold atEnd at hn
    rw [hpc] at hn
    dsimp only at hn
    rw [getTab_eq h ka.st] at hn
    dsimp only at hn
    have he : ¬ ended (tabOf r.m.s g) d c.a = true := fun hh => by rw [if_pos hh] at hn; cases hn
    have hpn : c.pa = none := by
      cases hq : c.pa with
      | none => rfl
      | some pa =>
        obtain ⟨y, hy, _⟩ := hpa pa hq
        exact absurd ((ended_iff h hka).mpr (fun z hz => by rw [hy] at hz; cases hz)) he
    obtain ⟨y, hy⟩ : ∃ y, tabOf r.m.s g (idx d c.a) = .table y := by
      by_contra hh
      exact he ((ended_iff h hka).mpr (fun z hz => hh ⟨z, hz⟩))
    have hd0 : ¬ d ≤ 0 := by
      intro hd
      apply he
      have : d = 0 := by omega
      subst this
      rfl
    have hent := hka.ent h
    rw [hy] at hent
    have hst : r.m.s.st y = .rtt := hent.2.2.1
    unfold go
    rw [hpc]
    dsimp only
    rw [getTab_eq h ka.st]
    dsimp only
    have e1 : ¬ d ≤ tgt (rop c) := hd0
    have e2 : ipa (rop c) = c.a := rfl
    rw [if_neg e1, e2, hy]
    dsimp only
    by_cases hf : free n r.m y = true
    · rw [if_pos hf, if_pos hst]
      exact Or.inr ⟨_, _, _, rfl, hpn⟩
    · rw [if_neg hf]; exact Or.inl rfl

theorem validate_page {x : Rd} (g : Geo x) {a : Nat} (h0 : a % 4096 = 0) (h1 : x.inPar a = true) :
    validateEntry x a 3 = true := by
  have hlt : a < x.ipaSize := by
    have h2 : a < x.ipaSize / 2 := of_decide_eq_true h1
    omega
  have hb := g.bits
  have h2 : x.ipaSize ≤ 2 ^ (if x.lpa2 then 52 else 48) := by
    unfold Rd.ipaSize
    exact Nat.pow_le_pow_right (by omega) (by exact hb)
  have hs : a % sz (dOf 3) = 0 := by
    show a % sz 0 = 0
    rw [sz_zero]; exact h0
  unfold validateEntry validateMapAddr
  simp only [Bool.and_eq_true, decide_eq_true_eq]
  refine ⟨⟨by omega, by omega⟩, ⟨hlt, hs⟩, ?_⟩
  by_cases hl : x.lpa2 = true
  · rw [if_pos hl] at h2 ⊢; omega
  · rw [if_neg hl] at h2 ⊢; omega

theorem call_step (I : RInv P n r) {i : Nat} (hi : i < n) {recA a : Nat} :
    rcall n r i recA a ≠ .fail ∧
    ∀ r' ev, rcall n r i recA a = .ok r' ev → RInv P n r' ∧ ev = none ∧ r'.m.s = r.m.s := by
  obtain ⟨ti, di, rl, h, hp, hd⟩ := I.minv
  unfold rcall
  split
  swap
  · exact ⟨by simp, fun r' ev e => by cases e⟩
  rename_i hcall hpc
  by_cases h1 : r.m.s.st recA = .recd ∧ r.m.s.rc recA = 1 ∧ busy n r recA = false
  swap
  · rw [if_neg h1]; exact ⟨by simp, fun r' ev e => by cases e⟩
  obtain ⟨hs, hr, hb⟩ := h1
  rw [if_pos ⟨hs, hr, hb⟩, getRec_eq h hs]
  dsimp only
  have hrd := (h.recs _ hs).rd
  rw [getRd_eq h hrd]
  dsimp only
  have hns : r.m.s.st (recOf r.m.s recA).rd ≠ .ns := by rw [hrd]; simp
  have hR := h.rds _ hrd
  obtain ⟨t1, t2⟩ := hR.roots 0 hR.geo.roots1
  simp only [Nat.mul_zero, Nat.add_zero] at t1 t2
  by_cases h2 : a % 4096 = 0 ∧ (rdOf r.m.s (recOf r.m.s recA).rd).inPar a = true
  swap
  · rw [if_neg h2]
    refine ⟨by simp, fun r' ev e => ?_⟩
    cases e; exact ⟨I, rfl, rfl⟩
  rw [if_pos h2]
  by_cases h3 : free n r.m (rdOf r.m.s (recOf r.m.s recA).rd).root = true
  swap
  · rw [if_neg h3]; exact ⟨by simp, fun r' ev e => by cases e⟩
  rw [if_pos h3, if_pos t1]
  refine ⟨by simp, fun r' ev e => ?_⟩
  cases e
  refine ⟨I.put ?_ ?_ ?_, rfl, rfl⟩
  · refine MInv.move h hp hd (p := .root (.rttReadEntry (recOf r.m.s recA).rd a 3)
      ⟨rdOf r.m.s (recOf r.m.s recA).rd, rec0⟩) ⟨⟨rfl, trivial, h.trk _ hns, hrd,
        SameGeo.refl _, ?_, ?_, ?_⟩, t1, by rw [t2]; rfl⟩ ?_ hi
    · intro p _ hk; cases hk
    · intro hk; cases hk
    · show (if validateEntry _ a 3 = true then Chk.go rec0 else _) = _
      rw [if_pos (validate_page hR.geo h2.1 h2.2)]
    · intro y hy
      simp only [held, kept, List.mem_singleton] at hy
      subst hy
      exact Or.inr h3
  · intro c hc
    cases hc
    refine ⟨⟨hs, hr, rfl⟩, h2.1, ?_, Or.inl ⟨rfl, _, rfl⟩⟩
    have := h2.2
    simpa [Rd.inPar] using this
  · intro c hc j hj _ c' hc'
    cases hc
    exact (not_busy hb j hj c' hc').symm

/-- The handler writes the page it found. -/
theorem store_step (hP : PlatOk P) (I : RInv P n r) {i : Nat} (hi : i < n) {recA rd a pa p : Nat}
    (hc : r.call i = some ⟨recA, rd, a, some pa⟩) :
    RInv P n { r with m := { r.m with s := { r.m.s with mem := upd r.m.s.mem pa (.page p) } } } ∧
    Does P r.m.s { r.m.s with mem := upd r.m.s.mem pa (.page p) } (.store recA a p) := by
  have k := I.calls i hi _ hc
  obtain ⟨ti, di, rl, h, hp, hd⟩ := I.minv
  have hm := k.maps h (hp i hi) rfl
  dsimp only at hm
  have hst := k.runs.st
  have hrc := k.runs.rc
  have hrd := k.runs.rd
  dsimp only at hst hrc hrd
  have e : Rmm.step P r.m.s (.realmWrite recA a p) =
      some ({ r.m.s with mem := upd r.m.s.mem pa (.page p) }, {}) := by
    simp only [Rmm.step, realmWrite]
    have hrd' := (h.recs _ hst).rd
    rw [if_pos ⟨hst, hrc⟩, getRec_eq h hst]
    dsimp only
    rw [getRd_eq h hrd']
    dsimp only
    rw [hrd, hm.hw]
    dsimp only
    have hx : pa / 4096 * 4096 = pa := Nat.div_mul_cancel (Nat.dvd_of_mod_eq_zero hm.al)
    rw [hx, if_pos (by simpa using hm.pas)]
  have hX : ∀ x, x ∉ ([] : List Nat) → r.m.s.st x = .rd ∨ r.m.s.st x = .delegated ∨ r.m.s.st x = .recd ∨
      r.m.s.st x = .rtt → Keeps r.m.s { r.m.s with mem := upd r.m.s.mem pa (.page p) } x := by
    intro x _ hx
    have hne : x ≠ pa := by
      rintro rfl
      rw [hm.st] at hx
      rcases hx with hx | hx | hx | hx <;> cases hx
    exact ⟨rfl, Or.inr ⟨upd_ne _ _ _ hne, id⟩⟩
  obtain ⟨ti', di', rl', h', hk⟩ := PcOk.step hP h e hX (fun _ hh => by cases hh)
  refine ⟨⟨⟨ti', di', rl', h', fun j hj => hk _ (hp j hj) (fun _ _ hh => by cases hh), hd⟩, fun j hj c hjc => ?_,
    I.one⟩, rd, pa, k.runs, hm, rfl, e⟩
  exact (I.calls j hj c hjc).step hP h e (hp j hj) (by simp [mover])
    (fun x hx => hX x (by simp) ((hp j hj).held x hx))

end

end Verif.Atom
